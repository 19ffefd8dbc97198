import Verif.Spec.Yank
import Verif.Lemmas.SemverOrder
import Verif.Props.Lockfile

/-!
# C54: looking up yanked packages
-/

namespace Verif.Props

open Verif Verif.Semver Verif.Lock Verif.Yank Verif.Spec Std

/-! ## Lemmas -/

private theorem strCmpEq {a b : Str} : strCmp a b = .eq ↔ a = b :=
  ⟨fun h => LawfulEqCmp.eq_of_compare (cmp := List.compareLex compare) h,
   fun h => h ▸ ReflCmp.compare_self (cmp := List.compareLex compare)⟩

theorem mem_setInsert {α : Type} {cmp : α → α → Ordering} {x y : α} : ∀ {l : List α},
    y ∈ setInsert cmp x l → y = x ∨ y ∈ l
  | [], h => by simpa [setInsert] using h
  | z :: l, h => by
    unfold setInsert at h
    split at h
    · simpa using h
    · exact Or.inr h
    · rcases List.mem_cons.mp h with rfl | h
      · simp
      · rcases mem_setInsert h with h | h <;> simp [h]

theorem setInsert_old {α : Type} {cmp : α → α → Ordering} {x y : α} : ∀ {l : List α},
    y ∈ l → y ∈ setInsert cmp x l
  | z :: l, h => by
    unfold setInsert
    split
    · simp [List.mem_cons.mp h]
    · exact h
    · rcases List.mem_cons.mp h with rfl | h
      · simp
      · simp [setInsert_old h]

theorem setInsert_new {α : Type} {cmp : α → α → Ordering} {x : α} : ∀ {l : List α},
    ∃ y ∈ setInsert cmp x l, y = x ∨ cmp x y = .eq
  | [] => ⟨x, by simp [setInsert], Or.inl rfl⟩
  | z :: l => by
    unfold setInsert
    split
    · exact ⟨x, by simp, Or.inl rfl⟩
    · rename_i h; exact ⟨z, by simp, Or.inr h⟩
    · obtain ⟨y, hy, h⟩ := setInsert_new (cmp := cmp) (x := x) (l := l)
      exact ⟨y, by simp [hy], h⟩

theorem toSet_aux {α : Type} {cmp : α → α → Ordering} : ∀ (l s : List α),
    (∀ y ∈ l.foldl (fun s x => setInsert cmp x s) s, y ∈ s ∨ y ∈ l) ∧
    (∀ y ∈ s, y ∈ l.foldl (fun s x => setInsert cmp x s) s) ∧
    (∀ x ∈ l, ∃ y ∈ l.foldl (fun s x => setInsert cmp x s) s, y = x ∨ cmp x y = .eq)
  | [], s => by simp
  | x :: l, s => by
    obtain ⟨h1, h2, h3⟩ := toSet_aux (cmp := cmp) l (setInsert cmp x s)
    simp only [List.foldl_cons]
    refine ⟨fun y hy => ?_, fun y hy => h2 y (setInsert_old hy), fun z hz => ?_⟩
    · rcases h1 y hy with h | h
      · rcases mem_setInsert h with rfl | h <;> simp_all
      · simp [h]
    · rcases List.mem_cons.mp hz with rfl | hz
      · obtain ⟨y, hy, e⟩ := setInsert_new (cmp := cmp) (x := z) (l := s)
        exact ⟨y, h2 y hy, e⟩
      · exact h3 z hz

theorem mem_toSet {α : Type} {cmp : α → α → Ordering} {l : List α} {y : α} (h : y ∈ toSet cmp l) : y ∈ l := by
  simpa using (toSet_aux (cmp := cmp) l []).1 y h

theorem toSet_covers {α : Type} {cmp : α → α → Ordering} {l : List α} {x : α} (h : x ∈ l) :
    ∃ y ∈ toSet cmp l, y = x ∨ cmp x y = .eq := (toSet_aux (cmp := cmp) l []).2.2 x h

theorem packageCmp_eq {a b : Package} (h : packageCmp a b = .eq) : a.name = b.name ∧ a.version = b.version := by
  unfold packageCmp at h
  rw [Ordering.then_eq_eq, Ordering.then_eq_eq] at h
  exact ⟨strCmpEq.mp h.1, LawfulEqCmp.eq_of_compare (cmp := Version.cmp) h.2.1⟩

theorem mem_names {ps : List Package} {n : Str} :
    n ∈ toSet strCmp ((toSet packageCmp ps).map (·.name)) ↔ n ∈ ps.map (·.name) := by
  constructor
  · intro h
    obtain ⟨p, hp, rfl⟩ := List.mem_map.mp (mem_toSet h)
    exact List.mem_map.mpr ⟨p, mem_toSet hp, rfl⟩
  · intro h
    obtain ⟨p, hp, rfl⟩ := List.mem_map.mp h
    obtain ⟨q, hq, e⟩ := toSet_covers (cmp := packageCmp) hp
    have hn : q.name = p.name := by rcases e with rfl | e; · rfl
                                    · exact (packageCmp_eq e).1.symm
    obtain ⟨m, hm, e'⟩ := toSet_covers (cmp := strCmp) (List.mem_map.mpr ⟨q, hq, hn⟩ : p.name ∈ _)
    rcases e' with rfl | e'
    · exact hm
    · rw [strCmpEq.mp e']; exact hm

theorem foldl_insert_lookup (f : Str → Krate) (n : Str) : ∀ (l : List Str) (ci : CachedIndex),
    (l.foldl (fun ci n => ci.insert n (f n)) ci).kind = ci.kind ∧
    (l.foldl (fun ci n => ci.insert n (f n)) ci).cache.lookup n =
      if n ∈ l then some (f n) else ci.cache.lookup n
  | [], ci => by simp
  | m :: l, ci => by
    obtain ⟨h1, h2⟩ := foldl_insert_lookup f n l (ci.insert m (f m))
    simp only [List.foldl_cons]
    refine ⟨h1, ?_⟩
    rw [h2]
    by_cases hl : n ∈ l
    · simp [hl]
    · by_cases e : n = m
      · subst e; simp [hl, CachedIndex.insert]
      · have : (n == m) = false := by simpa using e
        simp [hl, e, CachedIndex.insert, List.lookup_cons, this]

theorem populate_spec (w : Registry) (ci : CachedIndex) (names : List Str) :
    (ci.populate w names).1.kind = ci.kind ∧
    ((ci.populate w names).2 = false ↔ DownloadFailed ci.kind w) ∧
    ∀ n, (ci.populate w names).1.cache.lookup n =
      (ci.cache.lookup n).or
        (if n ∈ names ∧ (ci.populate w names).2 = true then some (answerOf ci.kind w n) else none) := by
  have key : ∀ (f : Str → Krate) (n : Str),
      (if n ∈ names.filter (fun n => !ci.contains n) then some (f n) else ci.cache.lookup n) =
      (ci.cache.lookup n).or (if n ∈ names then some (f n) else none) := by
    intro f n
    simp only [List.mem_filter, CachedIndex.contains, Bool.not_eq_true']
    cases h : ci.cache.lookup n <;> simp
  unfold CachedIndex.populate
  cases hk : ci.kind with
  | sparseCached =>
    simp only
    refine ⟨by rw [(foldl_insert_lookup w.cached [] _ ci).1, hk], by simp [DownloadFailed], fun n => ?_⟩
    rw [(foldl_insert_lookup w.cached n _ ci).2, key]
    simp [answerOf]
  | sparseRemote =>
    simp only
    cases hd : w.download with
    | none => simp [hk, DownloadFailed, hd]
    | some f =>
      refine ⟨by rw [(foldl_insert_lookup f [] _ ci).1, hk], by simp [DownloadFailed, hd], fun n => ?_⟩
      rw [(foldl_insert_lookup f n _ ci).2, key]
      simp [answerOf, hd]

/-- The verdict on a version text given what is known of the crate. -/
def verdict (k : Option Krate) (v : Str) : Outcome Bool :=
  match k with
  | none => .panic
  | some (.versions vs) =>
    match getLast vs v with
    | some y => .ok y
    | none => .err
  | some .missing => .err
  | some .error => .err

/-- What the loop pushes for a verdict. -/
def pushed (p : Package) : Outcome Bool → List (Outcome Package)
  | .ok false => []
  | .ok true => [.ok p]
  | .err => [.err]
  | .panic => [.panic]

theorem isYanked_spec (C : Codec) (w : Registry) (ci : CachedIndex) (p : Package) :
    (ci.isYanked C w p).1.kind = ci.kind ∧
    (∀ n, (ci.isYanked C w p).1.cache.lookup n =
      (ci.cache.lookup n).or (if n = p.name then some (w.cached n) else none)) ∧
    (ci.isYanked C w p).2 = verdict ((ci.isYanked C w p).1.cache.lookup p.name) (C.showVersion p.version) := by
  have hv : ∀ k : Option Krate, (match k with
      | none => Outcome.panic
      | some (.versions vs) =>
        match getLast vs (C.showVersion p.version) with
        | some y => .ok y
        | none => .err
      | some .missing => .err
      | some .error => .err) = verdict k (C.showVersion p.version) := by
    intro k; cases k with
    | none => rfl
    | some k => cases k <;> rfl
  refine ⟨?_, fun n => ?_, ?_⟩
  · unfold CachedIndex.isYanked; simp only; split <;> rfl
  · unfold CachedIndex.isYanked
    simp only
    by_cases hc : ci.contains p.name
    · rw [if_pos hc]
      by_cases e : n = p.name
      · subst e
        simp only [CachedIndex.contains, Option.isSome_iff_exists] at hc
        obtain ⟨k, hk⟩ := hc
        simp [hk]
      · simp [e]
    · rw [if_neg hc]
      have hn : ci.cache.lookup p.name = none := by
        unfold CachedIndex.contains at hc; rwa [Bool.not_eq_true, Option.isSome_eq_false_iff, Option.isNone_iff_eq_none] at hc
      by_cases e : n = p.name
      · subst e; simp [CachedIndex.insert, hn]
      · have : (n == p.name) = false := by simpa using e
        simp [CachedIndex.insert, List.lookup_cons, this, e]
  · exact hv _

theorem yankLoop_spec (C : Codec) (w : Registry) : ∀ (ps : List Package) (ci : CachedIndex),
    (yankLoop C w ci ps).1.kind = ci.kind ∧
    (∀ n, (yankLoop C w ci ps).1.cache.lookup n =
      (ci.cache.lookup n).or (if n ∈ ps.map (·.name) then some (w.cached n) else none)) ∧
    (yankLoop C w ci ps).2 = ps.flatMap fun p =>
      pushed p (verdict ((ci.cache.lookup p.name).or (some (w.cached p.name))) (C.showVersion p.version))
  | [], ci => by simp [yankLoop]
  | p :: ps, ci => by
    obtain ⟨k1, l1, r1⟩ := isYanked_spec C w ci p
    obtain ⟨k2, l2, r2⟩ := yankLoop_spec C w ps (ci.isYanked C w p).1
    refine ⟨?_, fun n => ?_, ?_⟩
    · simp only [yankLoop]; rw [k2, k1]
    · simp only [yankLoop]
      rw [l2, l1]
      cases ci.cache.lookup n with
      | some k => simp
      | none => by_cases e : n = p.name <;> simp [e]
    · have hp : verdict ((ci.cache.lookup p.name).or (some (w.cached p.name))) (C.showVersion p.version) =
          (ci.isYanked C w p).2 := by
        rw [r1, l1]; simp
      have hrest : (yankLoop C w (ci.isYanked C w p).1 ps).2 = ps.flatMap fun q =>
          pushed q (verdict ((ci.cache.lookup q.name).or (some (w.cached q.name))) (C.showVersion q.version)) := by
        rw [r2]
        congr 1
        funext q
        rw [l1]
        cases ci.cache.lookup q.name with
        | some k => simp
        | none => by_cases e : q.name = p.name <;> simp [e]
      rw [List.flatMap_cons, ← hrest, hp]
      simp only [yankLoop]
      rcases (ci.isYanked C w p).2 with b | _ | _
      · cases b <;> rfl
      · rfl
      · rfl

theorem findYanked_spec (C : Codec) (w : Registry) (ci : CachedIndex) (ps : List Package) :
    (ci.findYanked C w ps).1.kind = ci.kind ∧
    (∀ n, (ci.findYanked C w ps).1.cache.lookup n =
      (ci.cache.lookup n).or (if n ∈ ps.map (·.name) then some (answerOf ci.kind w n) else none)) ∧
    ∃ pre, (ci.findYanked C w ps).2 = pre ++ (toSet packageCmp ps).flatMap (fun p =>
        pushed p (verdict ((ci.cache.lookup p.name).or (some (answerOf ci.kind w p.name))) (C.showVersion p.version))) ∧
      (DownloadFailed ci.kind w → pre = [.err]) ∧ (¬ DownloadFailed ci.kind w → pre = []) := by
  obtain ⟨k1, o1, l1⟩ := populate_spec w ci (toSet strCmp ((toSet packageCmp ps).map (·.name)))
  obtain ⟨k2, l2, r2⟩ := yankLoop_spec C w (toSet packageCmp ps)
    (ci.populate w (toSet strCmp ((toSet packageCmp ps).map (·.name)))).1
  have hfail : DownloadFailed ci.kind w → ∀ n, answerOf ci.kind w n = w.cached n := by
    rintro ⟨h, h'⟩ n; simp [answerOf, h, h']
  have hmem : ∀ n, n ∈ (toSet packageCmp ps).map (·.name) ↔ n ∈ ps.map (·.name) := by
    intro n
    constructor
    · intro h; obtain ⟨p, hp, rfl⟩ := List.mem_map.mp h; exact List.mem_map.mpr ⟨p, mem_toSet hp, rfl⟩
    · intro h; exact mem_toSet (mem_names.mpr h)
  have hlook : ∀ n, n ∈ ps.map (·.name) →
      ((ci.populate w (toSet strCmp ((toSet packageCmp ps).map (·.name)))).1.cache.lookup n).or (some (w.cached n)) =
      (ci.cache.lookup n).or (some (answerOf ci.kind w n)) := by
    intro n hn
    rw [l1]; simp only [mem_names]
    by_cases hd : DownloadFailed ci.kind w
    · rw [o1.mpr hd, hfail hd]; simp
    · have : (ci.populate w (toSet strCmp ((toSet packageCmp ps).map (·.name)))).2 = true := by
        rw [← Bool.not_eq_false]; exact fun h => hd (o1.mp h)
      rw [this]; simp only [hn, true_and, if_true]
      cases ci.cache.lookup n <;> simp
  refine ⟨?_, fun n => ?_, ?_⟩
  · simp only [CachedIndex.findYanked]; rw [k2, k1]
  · simp only [CachedIndex.findYanked]
    rw [l2]; simp only [hmem]
    by_cases hn : n ∈ ps.map (·.name)
    · simp only [hn, if_true]; exact hlook n hn
    · rw [l1]; simp only [mem_names]; simp [hn]
  · have hflat : (yankLoop C w (ci.populate w (toSet strCmp ((toSet packageCmp ps).map (·.name)))).1
        (toSet packageCmp ps)).2 = (toSet packageCmp ps).flatMap (fun p =>
        pushed p (verdict ((ci.cache.lookup p.name).or (some (answerOf ci.kind w p.name)))
          (C.showVersion p.version))) := by
      rw [r2, List.flatMap_def, List.flatMap_def]
      congr 1
      apply List.map_congr_left
      intro p hp
      rw [hlook _ (List.mem_map.mpr ⟨p, mem_toSet hp, rfl⟩)]
    by_cases hd : DownloadFailed ci.kind w
    · refine ⟨[.err], ?_, fun _ => rfl, fun h => absurd hd h⟩
      simp only [CachedIndex.findYanked, hflat, o1.mpr hd]; rfl
    · refine ⟨[], ?_, fun h => absurd h hd, fun _ => rfl⟩
      have : (ci.populate w (toSet strCmp ((toSet packageCmp ps).map (·.name)))).2 = true := by
        rw [← Bool.not_eq_false]; exact fun h => hd (o1.mp h)
      simp only [CachedIndex.findYanked, hflat, this]; rfl

theorem run_spec (C : Codec) : ∀ (h : List (Registry × List Package)) (ci : CachedIndex),
    (ci.run C h).kind = ci.kind ∧
    ∀ n, (ci.run C h).cache.lookup n = (ci.cache.lookup n).or (firstAnswer ci.kind h n)
  | [], ci => by simp [CachedIndex.run, firstAnswer]
  | (w, ps) :: h, ci => by
    obtain ⟨k1, l1, -⟩ := findYanked_spec C w ci ps
    obtain ⟨k2, l2⟩ := run_spec C h (ci.findYanked C w ps).1
    refine ⟨by simp only [CachedIndex.run]; rw [k2, k1], fun n => ?_⟩
    simp only [CachedIndex.run, firstAnswer]
    rw [l2, l1, k1]
    cases ci.cache.lookup n with
    | some k => simp
    | none => by_cases e : n ∈ ps.map (·.name) <;> simp [e]

theorem getLast_true {vs : List (Str × Bool)} {v : Str} : getLast vs v = some true ↔ SaysYanked vs v := by
  unfold getLast SaysYanked
  rw [List.lookup_eq_some_iff]
  constructor
  · rintro ⟨l1, l2, h, hn⟩
    refine ⟨l2.reverse, l1.reverse, ?_, ?_⟩
    · have := congrArg List.reverse h; simpa using this
    · intro hm
      obtain ⟨⟨k, y⟩, hk, rfl⟩ := List.mem_map.mp hm
      simpa using hn _ (List.mem_reverse.mp hk)
  · rintro ⟨a, b, rfl, hn⟩
    refine ⟨b.reverse, a.reverse, by simp, fun p hp => ?_⟩
    have : p.1 ∈ b.map Prod.fst := List.mem_map.mpr ⟨p, List.mem_reverse.mp hp, rfl⟩
    simp only [bne_iff_ne, ne_eq]
    rintro rfl; exact hn this

theorem getLast_none {vs : List (Str × Bool)} {v : Str} : getLast vs v = none ↔ v ∉ vs.map Prod.fst := by
  unfold getLast
  rw [List.lookup_eq_none_iff]
  simp only [List.mem_reverse, bne_iff_ne, ne_eq, List.mem_map, not_exists, not_and]
  exact ⟨fun h p hp e => h p hp e.symm, fun h p hp e => h p hp e.symm⟩

theorem verdict_true {k : Krate} {v : Str} : verdict (some k) v = .ok true ↔ ∃ vs, k = .versions vs ∧ SaysYanked vs v := by
  cases k with
  | error => simp [verdict]
  | missing => simp [verdict]
  | versions vs =>
    simp only [verdict, Krate.versions.injEq, exists_eq_left']
    rw [← getLast_true]
    cases getLast vs v <;> simp

theorem verdict_err {k : Krate} {v : Str} : verdict (some k) v = .err ↔ NoVerdict k v := by
  cases k with
  | error => simp [verdict, NoVerdict]
  | missing => simp [verdict, NoVerdict]
  | versions vs =>
    simp only [verdict, NoVerdict, Krate.versions.injEq, exists_eq_left', reduceCtorEq, false_or]
    rw [← getLast_none]
    cases getLast vs v <;> simp

/-! ## C54 -/

/-- **C54.**  Take any new index (local or remote) and any history of `find_yanked` calls, the registry
answering differently from call to call, and then a call with packages `ps`.  The call

* reports a package `name version` iff that is one of `ps` and the entries the registry gave for `name` at the
  *first* call that asked about `name` (this one, if it is the first) say that the version is yanked;
* reports an error iff the download of this call failed as a whole, or that first answer gives no verdict about
  one of `ps`;
* reports nothing that is not among `ps`, and does not panic. -/
theorem C54_find_yanked (C : Codec) (kind : IndexKind) (h : List (Registry × List Package)) (w : Registry)
    (ps : List Package) (res : List (Outcome Package))
    (hres : res = ((CachedIndex.run C ⟨kind, []⟩ h).findYanked C w ps).2) :
    (∀ n v, (∃ q, .ok q ∈ res ∧ q.name = n ∧ q.version = v) ↔
      (∃ p ∈ ps, p.name = n ∧ p.version = v) ∧
      ∃ vs, firstAnswer kind (h ++ [(w, ps)]) n = some (.versions vs) ∧ SaysYanked vs (C.showVersion v)) ∧
    (.err ∈ res ↔ DownloadFailed kind w ∨
      ∃ p ∈ ps, ∃ k, firstAnswer kind (h ++ [(w, ps)]) p.name = some k ∧ NoVerdict k (C.showVersion p.version)) ∧
    (∀ q, .ok q ∈ res → q ∈ ps) ∧ .panic ∉ res := by
  obtain ⟨k1, l1⟩ := run_spec C h ⟨kind, []⟩
  obtain ⟨-, -, pre, hr, hp1, hp2⟩ := findYanked_spec C w (CachedIndex.run C ⟨kind, []⟩ h) ps
  simp only at k1 l1
  rw [k1] at hr hp1 hp2
  rw [← hres] at hr
  have hfa : ∀ n, n ∈ ps.map (·.name) → firstAnswer kind (h ++ [(w, ps)]) n =
      some ((firstAnswer kind h n).getD (answerOf kind w n)) := by
    intro n hn
    have : ∀ h, firstAnswer kind (h ++ [(w, ps)]) n =
        some ((firstAnswer kind h n).getD (answerOf kind w n)) := by
      intro h
      induction h with
      | nil => simp only [List.nil_append, firstAnswer, if_pos hn]; rfl
      | cons x h ih =>
        obtain ⟨w', ps'⟩ := x
        simp only [List.cons_append, firstAnswer]
        split
        · rfl
        · exact ih
    exact this h
  have hk : ∀ p ∈ ps, ((CachedIndex.run C ⟨kind, []⟩ h).cache.lookup p.name).or (some (answerOf kind w p.name)) =
      firstAnswer kind (h ++ [(w, ps)]) p.name := by
    intro p hp
    rw [l1, hfa _ (List.mem_map.mpr ⟨p, hp, rfl⟩)]
    cases firstAnswer kind h p.name <;> simp
  have hsome : ∀ p ∈ ps, ∃ k, firstAnswer kind (h ++ [(w, ps)]) p.name = some k := fun p hp =>
    ⟨_, hfa _ (List.mem_map.mpr ⟨p, hp, rfl⟩)⟩
  have hpre : ∀ x ∈ pre, x = .err ∧ DownloadFailed kind w := by
    intro x hx
    by_cases hd : DownloadFailed kind w
    · rw [hp1 hd] at hx; exact ⟨by simpa using hx, hd⟩
    · rw [hp2 hd] at hx; simp at hx
  have hmem : ∀ x, x ∈ res ↔ (x ∈ pre ∨ ∃ p ∈ toSet packageCmp ps,
      x ∈ pushed p (verdict (firstAnswer kind (h ++ [(w, ps)]) p.name) (C.showVersion p.version))) := by
    intro x
    rw [hr, List.mem_append, List.mem_flatMap]
    apply or_congr Iff.rfl
    constructor <;> rintro ⟨p, hp, hx⟩ <;> refine ⟨p, hp, ?_⟩
    · rwa [hk p (mem_toSet hp)] at hx
    · rwa [hk p (mem_toSet hp)]
  have hok : ∀ q, .ok q ∈ res → q ∈ toSet packageCmp ps ∧
      verdict (firstAnswer kind (h ++ [(w, ps)]) q.name) (C.showVersion q.version) = .ok true := by
    intro q hq
    rcases (hmem _).mp hq with hq | ⟨p, hp, hq⟩
    · cases (hpre _ hq).1
    · rcases hv : verdict (firstAnswer kind (h ++ [(w, ps)]) p.name) (C.showVersion p.version) with b | _ | _
      · cases b
        · simp [hv, pushed] at hq
        · simp only [hv, pushed, List.mem_singleton, Outcome.ok.injEq] at hq
          rw [hq]; exact ⟨hp, hv⟩
      · simp [hv, pushed] at hq
      · simp [hv, pushed] at hq
  refine ⟨fun n v => ?_, ?_, fun q hq => mem_toSet (hok q hq).1, ?_⟩
  · constructor
    · rintro ⟨q, hq, rfl, rfl⟩
      obtain ⟨h1, h2⟩ := hok q hq
      refine ⟨⟨q, mem_toSet h1, rfl, rfl⟩, ?_⟩
      obtain ⟨k, hk'⟩ := hsome q (mem_toSet h1)
      rw [hk', verdict_true] at h2
      obtain ⟨vs, rfl, h3⟩ := h2
      exact ⟨vs, hk', h3⟩
    · rintro ⟨⟨p, hp, rfl, rfl⟩, vs, hf, hs⟩
      obtain ⟨q, hq, e⟩ := toSet_covers (cmp := packageCmp) hp
      have hnv : q.name = p.name ∧ q.version = p.version := by
        rcases e with rfl | e
        · exact ⟨rfl, rfl⟩
        · exact ⟨(packageCmp_eq e).1.symm, (packageCmp_eq e).2.symm⟩
      refine ⟨q, (hmem _).mpr (Or.inr ⟨q, hq, ?_⟩), hnv⟩
      rw [hnv.1, hnv.2, hf, verdict_true.mpr ⟨vs, rfl, hs⟩]
      simp [pushed]
  · rw [hmem]
    constructor
    · rintro (hx | ⟨p, hp, hx⟩)
      · exact Or.inl (hpre _ hx).2
      · right
        obtain ⟨k, hk'⟩ := hsome p (mem_toSet hp)
        rcases hv : verdict (firstAnswer kind (h ++ [(w, ps)]) p.name) (C.showVersion p.version) with b | _ | _
        · cases b <;> simp [hv, pushed] at hx
        · rw [hk'] at hv
          exact ⟨p, mem_toSet hp, k, hk', verdict_err.mp hv⟩
        · simp [hv, pushed] at hx
    · rintro (hd | ⟨p, hp, k, hf, hn⟩)
      · left; rw [hp1 hd]; simp
      · right
        obtain ⟨q, hq, e⟩ := toSet_covers (cmp := packageCmp) hp
        have hnv : q.name = p.name ∧ q.version = p.version := by
          rcases e with rfl | e
          · exact ⟨rfl, rfl⟩
          · exact ⟨(packageCmp_eq e).1.symm, (packageCmp_eq e).2.symm⟩
        refine ⟨q, hq, ?_⟩
        rw [hnv.1, hnv.2, hf, verdict_err.mpr hn]
        simp [pushed]
  · intro hx
    rcases (hmem _).mp hx with hx | ⟨p, hp, hx⟩
    · cases (hpre _ hx).1
    · obtain ⟨k, hk'⟩ := hsome p (mem_toSet hp)
      rw [hk'] at hx
      rcases hv : verdict (some k) (C.showVersion p.version) with b | _ | _
      · cases b <;> simp [hv, pushed] at hx
      · simp [hv, pushed] at hx
      · unfold verdict at hv; cases k <;> simp at hv; split at hv <;> cases hv

/-- **C54, unchanging registry.**  If the source that answers gives the same answer `index` in every call, a
call after any history reports what that index says, as a fresh instance would: the cache is invisible. -/
theorem C54_cache_invisible (C : Codec) (kind : IndexKind) (index : Str → Krate)
    (h : List (Registry × List Package)) (w : Registry) (ps : List Package)
    (hconst : ∀ x ∈ h ++ [(w, ps)], ∀ n, answerOf kind x.1 n = index n) (n : Str) (v : Version) :
    (∃ q, .ok q ∈ ((CachedIndex.run C ⟨kind, []⟩ h).findYanked C w ps).2 ∧ q.name = n ∧ q.version = v) ↔
      (∃ p ∈ ps, p.name = n ∧ p.version = v) ∧
      ∃ vs, index n = .versions vs ∧ SaysYanked vs (C.showVersion v) := by
  rw [(C54_find_yanked C kind h w ps _ rfl).1 n v]
  refine and_congr_right fun ⟨p, hp, hn, _⟩ => ?_
  have : ∀ l : List (Registry × List Package), (∀ x ∈ l, ∀ n, answerOf kind x.1 n = index n) →
      ∀ k, firstAnswer kind l n = some k → k = index n := by
    intro l
    induction l with
    | nil => intro _ k hk; cases hk
    | cons x l ih =>
      intro hl k hk
      simp only [firstAnswer] at hk
      split at hk
      · rw [← Option.some.inj hk]; exact hl x (by simp) n
      · exact ih (fun y hy => hl y (by simp [hy])) k hk
  have hex : ∃ k, firstAnswer kind (h ++ [(w, ps)]) n = some k := by
    have : ∀ l : List (Registry × List Package), (w, ps) ∈ l → ∃ k, firstAnswer kind l n = some k := by
      intro l
      induction l with
      | nil => intro h; cases h
      | cons x l ih =>
        intro hl
        simp only [firstAnswer]
        split
        · exact ⟨_, rfl⟩
        · rename_i hne
          rcases List.mem_cons.mp hl with rfl | hl
          · exact absurd (List.mem_map.mpr ⟨p, hp, hn⟩) hne
          · exact ih hl
    exact this _ (by simp)
  obtain ⟨k, hk⟩ := hex
  have := this _ hconst k hk
  rw [hk, this]; simp

/-- A package `a 1.0.0`. -/
def yankPkg : Package := { name := ['a'], version := ⟨1, 0, 0, [], []⟩ }

/-- The registry now: version 1.0.0 of `a` is yanked; the copy on disk does not know that yet. -/
def yankWorld (online : Bool) : Registry where
  cached := fun _ => .versions [("1.0.0".toList, false)]
  download := if online then some (fun _ => .versions [("1.0.0".toList, true)]) else none

/-- The hypotheses of `C54_cache_invisible` hold for a history of two calls with a working download. -/
example : (∀ x ∈ [(yankWorld true, [yankPkg])] ++ [(yankWorld true, [yankPkg])], ∀ n,
      answerOf .sparseRemote x.1 n = .versions [("1.0.0".toList, true)]) ∧
    ((CachedIndex.run toyCodec ⟨.sparseRemote, []⟩ [(yankWorld true, [yankPkg])]).findYanked toyCodec
      (yankWorld true) [yankPkg, yankPkg]).2 = [.ok yankPkg] :=
  ⟨by intro x hx n; simp at hx; rw [hx]; rfl, by decide +kernel⟩

/-- **C54, history dependence.**  The cache is *not* invisible after a failed download: the stale copy on disk
is then cached, and a later call whose download works still answers from it, without an error; a fresh
instance reports the package. -/
theorem C54_stale_after_failure :
    let ci := CachedIndex.run toyCodec ⟨.sparseRemote, []⟩ [(yankWorld false, [yankPkg])]
    (ci.findYanked toyCodec (yankWorld true) [yankPkg]).2 = [] ∧
    ((⟨.sparseRemote, []⟩ : CachedIndex).findYanked toyCodec (yankWorld true) [yankPkg]).2 = [.ok yankPkg] := by
  refine ⟨?_, ?_⟩ <;> decide +kernel

end Verif.Props
