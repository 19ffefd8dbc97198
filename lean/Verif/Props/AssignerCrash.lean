import Verif.Props.Assigner

/-!
# ID assignment: crashes (C52)
-/

namespace Verif.Props

open Verif.Adv Verif.Db Verif.Assign Verif.Spec

/-! ### Reading after an effect -/

theorem read_modify (d : Disk) (q p : Path) (g : Str → Str) :
    (d.modify q g).read p = if p = q then (d.read p).map g else d.read p := by
  unfold Disk.modify Disk.read
  induction d with
  | nil => simp
  | cons f d ih =>
    obtain ⟨k, u⟩ := f
    rw [List.map_cons]
    by_cases hk : k = q
    · subst hk
      rw [if_pos rfl, List.lookup_cons, List.lookup_cons, ih]
      by_cases hp : p = k
      · subst hp; simp
      · have : (p == k) = false := by simpa using hp
        rw [this, if_neg hp]
    · rw [if_neg hk, List.lookup_cons, List.lookup_cons, ih]
      by_cases hp : p = k
      · subst hp; simp [hk]
      · have : (p == k) = false := by simpa using hp
        rw [this]

theorem read_append_end (d : Disk) (q p : Path) (u : Str) (h : d.read q = none) :
    (d ++ [(q, u)] : Disk).read p = if p = q then some u else d.read p := by
  unfold Disk.read at h ⊢
  induction d with
  | nil =>
    by_cases hp : p = q
    · simp [hp]
    · have : (p == q) = false := by simpa using hp
      rw [if_neg hp, List.nil_append, List.lookup_cons, this]
  | cons f d ih =>
    obtain ⟨k, v⟩ := f
    rw [List.lookup_cons] at h
    have hk : ¬ q = k := by
      intro e
      have : (q == k) = true := by simpa using e
      rw [this] at h; cases h
    have hk' : (q == k) = false := by simpa using hk
    rw [hk'] at h
    rw [List.cons_append, List.lookup_cons, List.lookup_cons, ih h]
    by_cases hp : p = k
    · subst hp
      have : ¬ p = q := fun e => hk e.symm
      simp [this]
    · have : (p == k) = false := by simpa using hp
      rw [this]

theorem any_iff_read (d : Disk) (p : Path) : d.any (fun f => decide (f.1 = p)) = true ↔ d.read p ≠ none := by
  rw [Ne, read_none_iff]
  simp only [List.any_eq_true, decide_eq_true_eq, not_forall, not_not]
  constructor
  · rintro ⟨⟨q, t⟩, h, rfl⟩; exact ⟨t, h⟩
  · rintro ⟨t, h⟩; exact ⟨(p, t), h, rfl⟩

theorem read_create (d : Disk) (q p : Path) :
    (Effect.apply d (.create q)).read p = if p = q then some [] else d.read p := by
  unfold Effect.apply
  simp only
  split
  · rename_i h
    rw [read_modify]
    split
    · rename_i e
      have := (any_iff_read d q).mp h
      cases hr : d.read q with
      | none => exact absurd hr this
      | some u => rw [e, hr]; rfl
    · rfl
  · rename_i h
    apply read_append_end
    by_contra hne
    exact h ((any_iff_read d q).mpr hne)

theorem read_append (d : Disk) (q p : Path) (c : Char) :
    (Effect.apply d (.append q c)).read p = if p = q then (d.read p).map (· ++ [c]) else d.read p := by
  rw [Effect.apply]
  exact read_modify d q p _

theorem read_remove (d : Disk) (q p : Path) :
    (Effect.apply d (.remove q)).read p = if p = q then none else d.read p := by
  unfold Effect.apply Disk.read
  simp only
  induction d with
  | nil => simp
  | cons f d ih =>
    obtain ⟨k, u⟩ := f
    by_cases hk : k = q
    · subst hk
      rw [List.filter_cons_of_neg (by simp), ih, List.lookup_cons]
      by_cases hp : p = k
      · simp [hp]
      · have : (p == k) = false := by simpa using hp
        rw [this]
    · rw [List.filter_cons_of_pos (by simp [hk]), List.lookup_cons, List.lookup_cons, ih]
      by_cases hp : p = k
      · subst hp; simp [hk]
      · have : (p == k) = false := by simpa using hp
        rw [this]

/-- The path an effect touches. -/
def touches : Effect → Path
  | .create q => q
  | .append q _ => q
  | .remove q => q

theorem applyAll_append (d : Disk) (a b : List Effect) : applyAll d (a ++ b) = applyAll (applyAll d a) b :=
  List.foldl_append

theorem applyAll_cons (d : Disk) (e : Effect) (es : List Effect) :
    applyAll d (e :: es) = applyAll (e.apply d) es := rfl

theorem frame (es : List Effect) : ∀ (d : Disk) (p : Path), (∀ e ∈ es, touches e ≠ p) →
    (applyAll d es).read p = d.read p := by
  induction es with
  | nil => intro d p _; rfl
  | cons e es ih =>
    intro d p h
    rw [applyAll_cons, ih _ _ fun e' he => h e' (List.mem_cons_of_mem _ he)]
    have : ¬ p = touches e := fun e' => h e (by simp) e'.symm
    cases e with
    | create q => rw [read_create]; exact if_neg this
    | append q c => rw [read_append]; exact if_neg this
    | remove q => rw [read_remove]; exact if_neg this

theorem read_appends (t : Str) : ∀ (d : Disk) (q : Path) (u : Str), d.read q = some u →
    (applyAll d (t.map (Effect.append q))).read q = some (u ++ t) := by
  induction t with
  | nil => intro d q u h; rw [List.append_nil]; exact h
  | cons c t ih =>
    intro d q u h
    rw [List.map_cons, applyAll_cons, ih _ q (u ++ [c])]
    · simp
    · rw [read_append, if_pos rfl, h]; rfl

theorem read_writes (d : Disk) (q : Path) (t : Str) : (applyAll d (writes q t)).read q = some t := by
  unfold writes
  rw [applyAll_cons, read_appends t _ q []]
  · rfl
  · rw [read_create, if_pos rfl]

theorem touches_writes {q : Path} {t : Str} {e : Effect} (h : e ∈ writes q t) : touches e = q := by
  rcases List.mem_cons.mp h with rfl | h
  · rfl
  · obtain ⟨c, -, rfl⟩ := List.mem_map.mp h
    rfl

theorem prefix_append_cases {α : Type} {l a b : List α} (h : l <+: a ++ b) :
    l <+: a ∨ ∃ c, l = a ++ c ∧ c <+: b := by
  obtain ⟨r, hr⟩ := h
  rcases List.append_eq_append_iff.mp hr with ⟨x, h1, h2⟩ | ⟨x, h1, h2⟩
  · exact .inl ⟨x, h1.symm⟩
  · exact .inr ⟨x, h1, ⟨r, h2.symm⟩⟩

theorem created_writes_prefix {q : Path} {t : Str} {es : List Effect} (h : es <+: writes q t) :
    es = [] ∨ created es = [q] := by
  cases es with
  | nil => exact .inl rfl
  | cons e es =>
    right
    obtain ⟨r, hr⟩ := h
    unfold writes at hr
    simp only [List.cons_append, List.cons.injEq] at hr
    obtain ⟨rfl, hr⟩ := hr
    have : created es = [] := by
      unfold created
      rw [List.filterMap_eq_nil_iff]
      intro e he
      have : e ∈ t.map (Effect.append q) := hr ▸ List.mem_append_left _ he
      obtain ⟨c, -, rfl⟩ := List.mem_map.mp this
      rfl
    show created ([Effect.create q] ++ es) = [q]
    rw [created_append, this]
    rfl

/-! ### The invariant of a run -/

/-- The state of a draft at a crash point: untouched, or gone with its text under a new ID. -/
def Kept (D D' : Disk) (cs : List Path) (f : Path × Str) : Prop :=
  D'.read f.1 = D.read f.1 ∨
  (D'.read f.1 = none ∧ ∃ q ∈ cs, ∃ y n, q = target f.1 y n ∧
    D'.read q = some (rewriteText (newId y n) f.2))

theorem crash_core {L : AdvLib} (h : Highest) (fs : Disk) :
    ∀ D : Disk,
    ((created (assignFiles L h fs).effects).map Path.file).Nodup →
    (∀ q ∈ created (assignFiles L h fs).effects, ∀ f ∈ fs, q ≠ f.1) →
    (fs.map Prod.fst).Nodup →
    ∀ es', es' <+: (assignFiles L h fs).effects →
      (∀ p, p ∉ created es' → (∀ f ∈ fs, Db.isDraft f.1.file = true → p ≠ f.1) →
        (applyAll D es').read p = D.read p) ∧
      (∀ f ∈ fs, Db.isDraft f.1.file = true → Kept D (applyAll D es') (created es') f) ∧
      (es' = (assignFiles L h fs).effects → (∃ r, (assignFiles L h fs).result = .ok r) → ∀ f ∈ fs,
        Db.isDraft f.1.file = true → (applyAll D es').read f.1 = none ∧
          ∃ q ∈ created es', ∃ y n, q = target f.1 y n ∧
            (applyAll D es').read q = some (rewriteText (newId y n) f.2)) := by
  refine assignFiles_rec (L := L) (P := fun h fs es res => ∀ D : Disk,
    ((created es).map Path.file).Nodup →
    (∀ q ∈ created es, ∀ f ∈ fs, q ≠ f.1) →
    (fs.map Prod.fst).Nodup →
    ∀ es', es' <+: es →
      (∀ p, p ∉ created es' → (∀ f ∈ fs, Db.isDraft f.1.file = true → p ≠ f.1) →
        (applyAll D es').read p = D.read p) ∧
      (∀ f ∈ fs, Db.isDraft f.1.file = true → Kept D (applyAll D es') (created es') f) ∧
      (es' = es → (∃ r, res = .ok r) → ∀ f ∈ fs, Db.isDraft f.1.file = true →
        (applyAll D es').read f.1 = none ∧ ∃ q ∈ created es', ∃ y n, q = target f.1 y n ∧
            (applyAll D es').read q = some (rewriteText (newId y n) f.2))) ?_ ?_ ?_ ?_ ?_ ?_ h fs
  · intro h D _ _ _ es' he
    have := List.prefix_nil.mp he
    subst this
    exact ⟨fun _ _ _ => rfl, by simp, by simp⟩
  · intro h p t fs es r hd ih D h1 h2 h3 es' he
    obtain ⟨i1, i2, i3⟩ := ih D h1 (fun q hq f hf => h2 q hq f (List.mem_cons_of_mem _ hf))
      (List.nodup_cons.mp h3).2 es' he
    have hne : ∀ f : Path × Str, f ∈ (p, t) :: fs → Db.isDraft f.1.file = true → f ∈ fs := by
      intro f hf hdr
      rcases List.mem_cons.mp hf with rfl | hf
      · rw [hd] at hdr; cases hdr
      · exact hf
    exact ⟨fun p' hp' hfs => i1 p' hp' fun f hf => hfs f (List.mem_cons_of_mem _ hf),
      fun f hf hdr => i2 f (hne f hf hdr) hdr, fun e hr f hf hdr => i3 e hr f (hne f hf hdr) hdr⟩
  · intro h p t fs _ _ D _ _ _ es' he
    have := List.prefix_nil.mp he
    subst this
    exact ⟨fun _ _ _ => rfl, fun f _ _ => .inl rfl, fun _ ⟨_, hr⟩ => by cases hr⟩
  · intro h p t fs _ _ D _ _ _ es' he
    have := List.prefix_nil.mp he
    subst this
    exact ⟨fun _ _ _ => rfl, fun f _ _ => .inl rfl, fun _ ⟨_, hr⟩ => by cases hr⟩
  · intro h p t fs y hd hy hr D h1 h2 h3 es' he
    have hcr := created_writes_prefix he
    have htouch : ∀ e ∈ es', touches e = target p y (top h y + 1) := fun e hm => touches_writes (he.subset hm)
    refine ⟨fun p' hp' _ => ?_, fun f hf hdr => .inl ?_, fun _ ⟨_, hr⟩ => by cases hr⟩
    · rcases hcr with rfl | hcr
      · rfl
      · refine frame _ _ _ fun e hm => ?_
        rw [htouch e hm]
        rw [hcr] at hp'
        exact fun e => hp' (by rw [e]; simp)
    · refine frame _ _ _ fun e hm => ?_
      rw [htouch e hm]
      exact h2 _ (by rw [created_writes]; simp) f hf
  · intro h p t fs y es r hd hy hr ih D h1 h2 h3 es' he
    rw [created_step] at h1 h2
    have hqf : ∀ f ∈ (p, t) :: fs, target p y (top h y + 1) ≠ f.1 := h2 _ (by simp)
    rcases prefix_append_cases he with he | ⟨c, rfl, hc⟩
    · -- while writing
      have hcr := created_writes_prefix he
      have htouch : ∀ e ∈ es', touches e = target p y (top h y + 1) :=
        fun e hm => touches_writes (he.subset hm)
      refine ⟨fun p' hp' _ => ?_, fun f hf hdr => .inl ?_, fun e => ?_⟩
      · rcases hcr with rfl | hcr
        · rfl
        · refine frame _ _ _ fun e hm => ?_
          rw [htouch e hm]
          rw [hcr] at hp'
          exact fun e => hp' (by rw [e]; simp)
      · refine frame _ _ _ fun e hm => ?_
        rw [htouch e hm]
        exact hqf f hf
      · exfalso
        have := he.length_le
        rw [e] at this
        simp at this
    · cases c with
      | nil =>
        rw [List.append_nil]
        refine ⟨fun p' hp' _ => ?_, fun f hf hdr => .inl ?_, fun e => ?_⟩
        · refine frame _ _ _ fun e hm => ?_
          rw [touches_writes hm]
          rw [created_writes] at hp'
          exact fun e => hp' (by rw [e]; simp)
        · refine frame _ _ _ fun e hm => ?_
          rw [touches_writes hm]
          exact hqf f hf
        · exfalso
          have := congrArg List.length e
          simp at this
      | cons e c =>
        obtain ⟨x, hx⟩ := hc
        simp only [List.cons_append, List.cons.injEq] at hx
        obtain ⟨rfl, hx⟩ := hx
        have hc : c <+: es := ⟨x, hx⟩
        obtain ⟨hn1, hn2⟩ := List.nodup_cons.mp h3
        have hn1' : ∀ f ∈ fs, p ≠ f.1 := fun f hf e => hn1 (List.mem_map.mpr ⟨f, hf, e.symm⟩)
        -- the disk when the draft has been removed
        have hD1 : ∀ p', (applyAll D (writes (target p y (top h y + 1))
              (rewriteText (newId y (top h y + 1)) t) ++ [.remove p])).read p' =
            if p' = p then none
            else if p' = target p y (top h y + 1) then some (rewriteText (newId y (top h y + 1)) t)
            else D.read p' := by
          intro p'
          rw [applyAll_append]
          show (Effect.apply _ (.remove p)).read p' = _
          rw [read_remove]
          split
          · rfl
          · split
            · rename_i e; rw [e, read_writes]
            · rename_i e
              exact frame _ _ _ fun e' hm => by rw [touches_writes hm]; exact fun e'' => e e''.symm
        have esplit : writes (target p y (top h y + 1)) (rewriteText (newId y (top h y + 1)) t) ++
            Effect.remove p :: c = (writes (target p y (top h y + 1))
              (rewriteText (newId y (top h y + 1)) t) ++ [.remove p]) ++ c := by simp
        have hcreated : created (writes (target p y (top h y + 1)) (rewriteText (newId y (top h y + 1)) t) ++
            Effect.remove p :: c) = target p y (top h y + 1) :: created c := created_step _ _ _ _
        rw [hcreated, esplit, applyAll_append]
        generalize hDe : applyAll D (writes (target p y (top h y + 1))
              (rewriteText (newId y (top h y + 1)) t) ++ [.remove p]) = D1 at hD1
        obtain ⟨i1, i2, i3⟩ := ih D1 (List.nodup_cons.mp h1).2
          (fun q hq f hf => h2 q (List.mem_cons_of_mem _ hq) f (List.mem_cons_of_mem _ hf)) hn2 c hc
        have hsub : ∀ q ∈ created c, q ∈ created es := by
          intro q hq
          unfold created at hq ⊢
          exact (hc.filterMap _).subset hq
        -- the new file of this draft is not touched again
        have hkeep : (applyAll D1 c).read (target p y (top h y + 1)) =
            some (rewriteText (newId y (top h y + 1)) t) := by
          rw [i1, hD1, if_neg (hqf (p, t) (by simp)), if_pos rfl]
          · intro hq
            rw [List.map_cons] at h1
            exact (List.nodup_cons.mp h1).1 (List.mem_map.mpr ⟨_, hsub _ hq, rfl⟩)
          · intro f hf _
            exact hqf f (List.mem_cons_of_mem _ hf)
        have hgone : (applyAll D1 c).read p = none := by
          rw [i1, hD1, if_pos rfl]
          · intro hq
            exact h2 p (List.mem_cons_of_mem _ (hsub _ hq)) (p, t) (by simp) rfl
          · exact fun f hf _ => hn1' f hf
        have hread : ∀ f ∈ fs, D1.read f.1 = D.read f.1 := by
          intro f hf
          rw [hD1, if_neg (fun e => hn1' f hf e.symm), if_neg (fun e => hqf f (List.mem_cons_of_mem _ hf) e.symm)]
        refine ⟨fun p' hp' hfs => ?_, fun f hf hdr => ?_, fun e hres f hf hdr => ?_⟩
        · rw [List.mem_cons, not_or] at hp'
          rw [i1 p' hp'.2 fun f hf => hfs f (List.mem_cons_of_mem _ hf), hD1,
            if_neg (hfs (p, t) (by simp) hd), if_neg hp'.1]
        · rcases List.mem_cons.mp hf with rfl | hf
          · exact .inr ⟨hgone, _, by simp, y, _, rfl, hkeep⟩
          · rcases i2 f hf hdr with hk | ⟨hk, q, hq, rest⟩
            · left; rw [hk, hread f hf]
            · exact .inr ⟨hk, q, List.mem_cons_of_mem _ hq, rest⟩
        · rcases List.mem_cons.mp hf with rfl | hf
          · exact ⟨hgone, _, by simp, y, _, rfl, hkeep⟩
          · have e' : c = es := by
              simpa using e
            have hr' : ∃ x, r = .ok x := by
              obtain ⟨x, hx⟩ := hres
              rcases r with x | _ | _
              · exact ⟨x, rfl⟩
              · cases hx
              · cases hx
            obtain ⟨a, q, hq, rest⟩ := i3 e' hr' f hf hdr
            exact ⟨a, q, List.mem_cons_of_mem _ hq, rest⟩

/-! ### The text -/

theorem no_newline_stripCr {l : Str} (h : '\n' ∉ l) : '\n' ∉ Lint.stripCr l := by
  unfold Lint.stripCr
  split <;> grind [List.mem_of_mem_dropLast]

theorem lines_no_newline (t : Str) : ∀ l ∈ Lint.lines t, '\n' ∉ l := by
  unfold Lint.lines
  have h := not_mem_splitC '\n' t
  generalize splitC '\n' t = ls at h
  induction ls with
  | nil => intro l hl; cases hl
  | cons a ls ih =>
    intro l hl
    cases ls with
    | nil =>
      rw [Lint.linesOf] at hl
      split at hl
      · cases hl
      · rw [List.mem_singleton.mp hl]; exact h a (by simp)
    | cons b ls =>
      rw [Lint.linesOf] at hl
      · rcases List.mem_cons.mp hl with rfl | hl
        · exact no_newline_stripCr (h a (by simp))
        · exact ih (fun p hp => h p (List.mem_cons_of_mem _ hp)) l hl
      · simp

theorem splitC_lines (ls : List Str) (h : ∀ l ∈ ls, '\n' ∉ l) :
    splitC '\n' ((ls.map (· ++ ['\n'])).flatten) = ls ++ [[]] := by
  induction ls with
  | nil => rfl
  | cons a ls ih =>
    rw [List.map_cons, List.flatten_cons, List.append_assoc, List.singleton_append,
      splitC_append (h a (by simp)), ih fun l hl => h l (List.mem_cons_of_mem _ hl)]
    rfl

theorem rewrite_renamed (id text : Str) (hid : '\n' ∉ id) : Renamed id text (rewriteText id text) := by
  unfold Renamed rewriteText
  rw [show (Lint.lines text).map (rewriteLine id) = ((Lint.lines text).map (fun l =>
      if trimEnd (trimStart l) = "id = \"RUSTSEC-0000-0000\"".toList then "id = \"".toList ++ id ++ "\"".toList
      else l)).map (· ++ ['\n']) from ?_]
  · apply splitC_lines
    intro l hl
    obtain ⟨l', hl', rfl⟩ := List.mem_map.mp hl
    split
    · simp only [List.mem_append, not_or]
      exact ⟨⟨by decide, hid⟩, by decide⟩
    · exact lines_no_newline text _ hl'
  · rw [List.map_map]
    apply List.map_congr_left
    intro l _
    unfold rewriteLine isPlaceholderLine placeholderLine
    simp only [Function.comp, decide_eq_true_eq]
    split
    · rw [show "\"\n".toList = "\"".toList ++ ['\n'] by decide]
      simp only [List.append_assoc]
    · rfl

theorem newId_no_newline (y n : Nat) : '\n' ∉ newId y n := by
  unfold newId
  simp only [List.mem_append, not_or]
  refine ⟨⟨⟨by decide, ?_⟩, by decide⟩, ?_⟩
  · intro h; have := isDigit_of_mem_showNat h; revert this; decide
  · intro h; have := isDigit_of_mem_showNatPad h; revert this; decide

theorem mem_of_read {d : Disk} {p : Path} {t : Str} (h : d.read p = some t) : (p, t) ∈ d := by
  unfold Disk.read at h
  induction d with
  | nil => cases h
  | cons f d ih =>
    obtain ⟨k, u⟩ := f
    rw [List.lookup_cons] at h
    by_cases e : p = k
    · subst e; simp only [beq_self_eq_true] at h; cases h; simp
    · have : (p == k) = false := by simpa using e
      rw [this] at h
      exact List.mem_cons_of_mem _ (ih h)

theorem read_of_mem {d : Disk} {p : Path} {t : Str} (h : (p, t) ∈ d) (hd : (d.map Prod.fst).Nodup) :
    d.read p = some t := by
  unfold Disk.read
  induction d with
  | nil => cases h
  | cons f d ih =>
    obtain ⟨k, u⟩ := f
    rw [List.map_cons, List.nodup_cons] at hd
    rw [List.lookup_cons]
    rcases List.mem_cons.mp h with e | h
    · cases e; simp
    · have hne : p ≠ k := fun e => hd.1 (e ▸ List.mem_map.mpr ⟨_, h, rfl⟩)
      have : (p == k) = false := by simpa using hne
      rw [this]
      exact ih h hd.2

theorem collections_nodup {d : Disk} (hd : (d.map Prod.fst).Nodup) :
    ((d.collection .crates ++ d.collection .rust).map Prod.fst).Nodup := by
  unfold Disk.collection
  rw [List.map_append, List.nodup_append]
  refine ⟨hd.sublist (List.filter_sublist.map _), hd.sublist (List.filter_sublist.map _), ?_⟩
  intro a ha b hb e
  subst e
  obtain ⟨f, hf, rfl⟩ := List.mem_map.mp ha
  obtain ⟨g, hg, e⟩ := List.mem_map.mp hb
  have h1 := of_decide_eq_true (List.mem_filter.mp hf).2
  have h2 := of_decide_eq_true (List.mem_filter.mp hg).2
  rw [e, h1] at h2
  cases h2

/-- Everything at a crash point, for the run over a database. -/
theorem crash_run {L : AdvLib} {sev : Cvss.Cvss → Severity} {d : Disk}
    (hy : ∀ db, d.open L sev = .ok db → YearsAgree db) (hd : (d.map Prod.fst).Nodup) {es : List Effect}
    (hes : es <+: (assignIds L sev d).effects) :
    (∀ p, p ∉ created es → (∀ t, (p, t) ∉ drafts d) → (applyAll d es).read p = d.read p) ∧
    (∀ f ∈ drafts d, Kept d (applyAll d es) (created es) f) ∧
    (∀ q ∈ created es, d.read q = none) ∧
    (es = (assignIds L sev d).effects → (∃ r, (assignIds L sev d).result = .ok r) → ∀ f ∈ drafts d,
      (applyAll d es).read f.1 = none ∧ ∃ q ∈ created es, ∃ y n, q = target f.1 y n ∧
        (applyAll d es).read q = some (rewriteText (newId y n) f.2)) := by
  have hempty : (assignIds L sev d).effects = [] → (¬ ∃ r, (assignIds L sev d).result = .ok r) →
      (∀ p, p ∉ created es → (∀ t, (p, t) ∉ drafts d) → (applyAll d es).read p = d.read p) ∧
      (∀ f ∈ drafts d, Kept d (applyAll d es) (created es) f) ∧
      (∀ q ∈ created es, d.read q = none) ∧
      (es = (assignIds L sev d).effects → (∃ r, (assignIds L sev d).result = .ok r) → ∀ f ∈ drafts d,
        (applyAll d es).read f.1 = none ∧ ∃ q ∈ created es, ∃ y n, q = target f.1 y n ∧
          (applyAll d es).read q = some (rewriteText (newId y n) f.2)) := by
    intro he hr
    rw [he] at hes
    have := List.prefix_nil.mp hes
    subst this
    exact ⟨fun _ _ _ => rfl, fun f _ => .inl rfl, fun q hq => (by cases hq), fun _ h => absurd h hr⟩
  cases ho : d.open L sev with
  | err =>
    refine hempty ?_ ?_
    · rw [assignIds, ho]
    · rw [assignIds, ho]; simp
  | panic =>
    refine hempty ?_ ?_
    · rw [assignIds, ho]
    · rw [assignIds, ho]; simp
  | ok db =>
    rcases assignIds_eq ho with ⟨h, hr⟩ | ⟨hi, hc, -, he, hr⟩
    · exact hempty h (fun ⟨r, e⟩ => hr r e)
    · rw [he] at hes
      have hfresh : ∀ q ∈ created (assignFiles L hi (d.collection .crates ++ d.collection .rust)).effects,
          d.read q = none := by
        intro q hq
        obtain ⟨f, -, y, n, -, -, rfl, hn⟩ := created_above _ _ q hq
        exact (read_none_iff _ _).mpr (fresh_path ho (hy db ho) hc hn f.1)
      obtain ⟨c1, c2, c3⟩ := crash_core (L := L) hi (d.collection .crates ++ d.collection .rust) d
        (created_nodup _ _) (fun q hq f hf e => by
          have := (read_none_iff d q).mp (hfresh q hq) f.2
          rw [e] at this
          exact this (mem_collections.mp hf)) (collections_nodup hd) es hes
      refine ⟨fun p hp hdr => c1 p hp fun f hf hdf e => ?_, fun f hf => ?_, fun q hq => hfresh q ?_,
        fun e hres f hf => ?_⟩
      · apply hdr f.2
        rw [e, ← drafts_eq]
        exact List.mem_filter.mpr ⟨hf, hdf⟩
      · rw [← drafts_eq] at hf
        exact c2 f (List.mem_filter.mp hf).1 (List.mem_filter.mp hf).2
      · unfold created at hq ⊢
        exact (hes.filterMap _).subset hq
      · rw [← drafts_eq] at hf
        obtain ⟨r, hres⟩ := hres
        obtain ⟨h', hres⟩ := (hr r).mp hres
        exact c3 (e.trans he) ⟨_, hres⟩ f (List.mem_filter.mp hf).1 (List.mem_filter.mp hf).2

/-- **C52.**  Stop `assign-id` after any part `es` of its effects.  Every file that existed is still there with
its text, or it was a draft and its text, with the placeholder line replaced, is in a new file in the
same directory; and nothing but the created files is new. -/
theorem C52_crash (L : AdvLib) (sev : Cvss.Cvss → Severity) (d : Disk)
    (hy : ∀ db, d.open L sev = .ok db → YearsAgree db) (hd : (d.map Prod.fst).Nodup) (es : List Effect)
    (hes : es <+: (assignIds L sev d).effects) :
    (∀ p t, d.read p = some t →
      (applyAll d es).read p = some t ∨
      "RUSTSEC-0000-0000.".toList <+: p.file ∧ ∃ q ∈ created es, ∃ id t', q.collection = p.collection ∧
        q.dir = p.dir ∧ q.file = id ++ ".md".toList ∧ (applyAll d es).read q = some t' ∧ Renamed id t t') ∧
    (∀ p, d.read p = none → p ∉ created es → (applyAll d es).read p = none) := by
  obtain ⟨h1, h2, h3, -⟩ := crash_run hy hd hes
  constructor
  · intro p t hr
    have hm := mem_of_read hr
    by_cases hdr : "RUSTSEC-0000-0000.".toList <+: p.file
    · rcases h2 (p, t) (mem_drafts.mpr ⟨hm, hdr⟩) with h | ⟨-, q, hq, y, n, rfl, hread⟩
      · left; exact h.trans hr
      · right
        exact ⟨hdr, _, hq, newId y n, _, rfl, rfl, rfl, hread, rewrite_renamed _ _ (newId_no_newline y n)⟩
    · left
      rw [h1 p _ fun u hu => hdr (mem_drafts.mp hu).2, hr]
      intro hq
      rw [h3 p hq] at hr; cases hr
  · intro p hr hq
    rw [h1 p hq fun u hu => (read_none_iff d p).mp hr u (mem_drafts.mp hu).1, hr]

/-- **C52 (completion).**  After a successful run no draft is left, and every draft's text is in a new file. -/
theorem C52_done (L : AdvLib) (sev : Cvss.Cvss → Severity) (d : Disk)
    (hy : ∀ db, d.open L sev = .ok db → YearsAgree db) (hd : (d.map Prod.fst).Nodup) (as : List Assignment)
    (h : (assignIds L sev d).result = .ok as) (f : Path × Str) (hf : f ∈ drafts d) :
    (applyAll d (assignIds L sev d).effects).read f.1 = none ∧
    ∃ a ∈ as, ∃ t', a.dir = f.1.dir ∧
      (applyAll d (assignIds L sev d).effects).read ⟨f.1.collection, f.1.dir, a.id ++ ".md".toList⟩ = some t' ∧
      Renamed a.id f.2 t' := by
  obtain ⟨-, -, -, h4⟩ := crash_run hy hd (List.prefix_refl (assignIds L sev d).effects)
  obtain ⟨hg, q, hq, y, n, rfl, hread⟩ := h4 rfl ⟨as, h⟩ f hf
  refine ⟨hg, ?_⟩
  obtain ⟨-, h2⟩ := C51_each_draft L sev d as h
  obtain ⟨a, ha, e1, e2⟩ := forall2_left h2.flip hq
  have hid : a.id = newId y n := (List.append_cancel_right e1).symm
  refine ⟨a, ha, rewriteText (newId y n) f.2, e2.symm, ?_, ?_⟩
  · rw [hid]; exact hread
  · rw [hid]; exact rewrite_renamed _ _ (newId_no_newline y n)

end Verif.Props
