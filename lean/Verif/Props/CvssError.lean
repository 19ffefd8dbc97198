import Verif.Props.CvssText
import Verif.Props.CvssListing
import Verif.Props.PlatformGen
import Verif.Spec.CvssError

/-!
# C85: the errors of the CVSS parsers
-/

namespace Verif.Cvss

open List Spec

/-! ## Components -/

theorem isPair_iff {t n v : Str} : IsPair t n v ↔ component t = some (n, v) := by
  rw [component_iff]; rfl

theorem componentE_ok {t : Str} {c : Str × Str} : componentE t = .ok c ↔ IsPair t c.1 c.2 := by
  rw [isPair_iff]
  unfold componentE component
  rcases splitC ':' t with _ | ⟨a, _ | ⟨b, _ | ⟨d, l⟩⟩⟩
  · exact ⟨(fun h => by cases h), (fun h => by cases h)⟩
  · exact ⟨(fun h => by cases h), (fun h => by cases h)⟩
  · exact ⟨(fun h => by cases h; rfl), (fun h => by cases h; rfl)⟩
  · exact ⟨(fun h => by cases h), (fun h => by cases h)⟩

theorem componentE_error {t : Str} {e : Error} :
    componentE t = .error e ↔ (¬ ∃ n v, IsPair t n v) ∧ e = .invalidComponent t := by
  have h : ∀ n v, IsPair t n v ↔ componentE t = .ok (n, v) := fun n v => (componentE_ok (c := (n, v))).symm
  simp only [h]
  unfold componentE
  split
  · rename_i a b h
    constructor
    · intro h; cases h
    · rintro ⟨h, -⟩; exact absurd ⟨a, b, rfl⟩ h
  · constructor
    · intro h
      cases h
      exact ⟨(by rintro ⟨n, v, h⟩; cases h), rfl⟩
    · rintro ⟨-, rfl⟩; rfl

theorem isPair_unique {t n v n' v' : Str} (h : IsPair t n v) (h' : IsPair t n' v') : n = n' ∧ v = v' := by
  rw [isPair_iff] at h h'
  rw [h] at h'
  exact Prod.mk.inj (Option.some.inj h')

theorem componentsE_ok {ts : List Str} {cs : List (Str × Str)} :
    componentsE ts = .ok cs ↔ Forall₂ (fun t (c : Str × Str) => IsPair t c.1 c.2) ts cs := by
  induction ts generalizing cs with
  | nil =>
    unfold componentsE
    constructor
    · intro h; cases h; exact .nil
    · intro h; cases h; rfl
  | cons t ts ih =>
    unfold componentsE
    constructor
    · intro h
      cases hc : componentE t with
      | error e => simp only [hc] at h; cases h
      | ok c =>
        simp only [hc] at h
        cases hs : componentsE ts with
        | error e => simp only [hs] at h; cases h
        | ok cs' =>
          simp only [hs] at h
          cases h
          exact .cons (componentE_ok.mp hc) (ih.mp hs)
    · intro h
      cases h with
      | cons h1 h2 => rw [componentE_ok.mpr h1, ih.mpr h2]

theorem componentsE_error {ts : List Str} {e : Error} :
    componentsE ts = .error e ↔ ∃ t, FirstShapeless ts t ∧ e = .invalidComponent t := by
  unfold FirstShapeless
  induction ts with
  | nil =>
    unfold componentsE
    constructor
    · intro h; cases h
    · rintro ⟨t, ⟨l, r, h, -⟩, -⟩
      cases l <;> cases h
  | cons t ts ih =>
    unfold componentsE
    cases hc : componentE t with
    | error e' =>
      obtain ⟨h1, rfl⟩ := componentE_error.mp hc
      constructor
      · intro h; cases h
        exact ⟨t, ⟨[], ts, rfl, (by simp), h1⟩, rfl⟩
      · rintro ⟨t', ⟨l, r, h, hl, ht⟩, rfl⟩
        cases l with
        | nil => cases h; rfl
        | cons x l =>
          cases h
          exact absurd (hl _ mem_cons_self) h1
    | ok c =>
      have hp := componentE_ok.mp hc
      have key : (∃ t', (∃ l r, t :: ts = l ++ t' :: r ∧ (∀ p ∈ l, ∃ n v, IsPair p n v) ∧ ¬ ∃ n v, IsPair t' n v) ∧
          e = .invalidComponent t') ↔ ∃ t', (∃ l r, ts = l ++ t' :: r ∧ (∀ p ∈ l, ∃ n v, IsPair p n v) ∧
          ¬ ∃ n v, IsPair t' n v) ∧ e = .invalidComponent t' := by
        constructor
        · rintro ⟨t', ⟨l, r, h, hl, ht⟩, rfl⟩
          cases l with
          | nil => cases h; exact absurd ⟨_, _, hp⟩ ht
          | cons x l =>
            cases h
            exact ⟨t', ⟨l, r, rfl, fun p hp => hl p (mem_cons_of_mem _ hp), ht⟩, rfl⟩
        · rintro ⟨t', ⟨l, r, rfl, hl, ht⟩, rfl⟩
          refine ⟨t', ⟨t :: l, r, rfl, ?_, ht⟩, rfl⟩
          intro p hp'
          rcases mem_cons.mp hp' with rfl | hp'
          · exact ⟨_, _, hp⟩
          · exact hl p hp'
      rw [key, ← ih]
      cases hs : componentsE ts with
      | error e' => exact Iff.rfl
      | ok cs =>
        constructor
        · intro h; cases h
        · intro h; cases h

theorem shaped_iff {ts : List Str} : Shaped ts ↔ ∃ cs, componentsE ts = .ok cs := by
  constructor
  · intro h
    cases hc : componentsE ts with
    | ok cs => exact ⟨cs, rfl⟩
    | error e =>
      obtain ⟨t, ⟨l, r, rfl, -, ht⟩, -⟩ := componentsE_error.mp hc
      exact absurd (h t (by simp)) ht
  · rintro ⟨cs, h⟩
    have h2 := componentsE_ok.mp h
    clear h
    intro p hp
    induction h2 with
    | nil => cases hp
    | cons hc _ ih =>
      rcases mem_cons.mp hp with rfl | hp
      · exact ⟨_, _, hc⟩
      · exact ih hp

theorem pairs_texts {ts : List Str} {cs : List (Str × Str)}
    (h : Forall₂ (fun t (c : Str × Str) => IsPair t c.1 c.2) ts cs) : ts = cs.map fun c => c.1 ++ ':' :: c.2 := by
  induction h with
  | nil => rfl
  | cons h _ ih => rw [map_cons, ← ih, h.1]

theorem componentsE_components {s : Str} {cs : List (Str × Str)} :
    componentsE (splitC '/' s) = .ok cs ↔ components s = some cs := by
  unfold components
  rw [componentsE_ok, mapM_option_iff]
  have : (fun t (c : Str × Str) => IsPair t c.1 c.2) = fun t c => component t = some c := by
    funext t c; exact propext isPair_iff
  rw [this]

theorem pieces_iff {s : Str} {parts : List Str} : Pieces s parts ↔ splitC '/' s = parts := by
  constructor
  · rintro ⟨rfl, h1, h2⟩; exact splitC_joinC h1 h2
  · rintro rfl; exact ⟨(joinC_splitC '/' s).symm, splitC_ne_nil '/' s, not_mem_splitC '/' s⟩

/-! ## The loop -/

section
variable {S : Scheme}

theorem stepE_ok (B : Blame S) (v w : S.Metrics) (c : Str × Str) :
    Scheme.stepE B v c = .ok w ↔ Scheme.step v c = .ok w := by
  unfold Scheme.stepE Scheme.step
  cases lookupStr S.types (S.fold c.1) with
  | none => exact ⟨(fun h => by cases h), (fun h => by cases h)⟩
  | some m =>
    simp only
    cases lookupStr (S.valueTable m) (S.fold c.2) with
    | none => exact ⟨(fun h => by cases h), (fun h => by cases h)⟩
    | some x =>
      simp only
      split
      · exact ⟨(fun h => by cases h), (fun h => by cases h)⟩
      · exact ⟨(fun h => by cases h; rfl), (fun h => by cases h; rfl)⟩

theorem runE_ok (B : Blame S) (w : S.Metrics) (cs : List (Str × Str)) : ∀ v : S.Metrics,
    Scheme.runE B v cs = .ok w ↔ Scheme.run v cs = .ok w := by
  induction cs with
  | nil =>
    intro v
    unfold Scheme.runE Scheme.run
    exact ⟨(fun h => by cases h; rfl), (fun h => by cases h; rfl)⟩
  | cons c cs ih =>
    intro v
    unfold Scheme.runE Scheme.run
    cases hs : Scheme.step v c with
    | ok v' => rw [(stepE_ok B v v' c).mpr hs]; exact ih v'
    | err =>
      cases hE : Scheme.stepE B v c with
      | ok v' => rw [(stepE_ok B v v' c).mp hE] at hs; cases hs
      | error e => exact ⟨(fun h => by cases h), (fun h => by cases h)⟩
    | panic =>
      cases hE : Scheme.stepE B v c with
      | ok v' => rw [(stepE_ok B v v' c).mp hE] at hs; cases hs
      | error e => exact ⟨(fun h => by cases h), (fun h => by cases h)⟩

theorem runE_error (B : Blame S) (e : Error) (cs : List (Str × Str)) : ∀ v : S.Metrics,
    Scheme.runE B v cs = .error e ↔
      ∃ l c r w, cs = l ++ c :: r ∧ Scheme.run v l = .ok w ∧ Scheme.stepE B w c = .error e := by
  induction cs with
  | nil =>
    intro v
    unfold Scheme.runE
    constructor
    · intro h; cases h
    · rintro ⟨l, c, r, w, h, -⟩
      cases l <;> cases h
  | cons c cs ih =>
    intro v
    unfold Scheme.runE
    cases hE : Scheme.stepE B v c with
    | error e' =>
      constructor
      · intro h; cases h
        exact ⟨[], c, cs, v, rfl, rfl, hE⟩
      · rintro ⟨l, c', r, w, h, hr, hs⟩
        cases l with
        | nil =>
          cases h
          cases hr
          rw [hE] at hs; exact hs
        | cons x l =>
          cases h
          unfold Scheme.run at hr
          cases hx : Scheme.step v c with
          | ok v' => rw [(stepE_ok B v v' c).mpr hx] at hE; cases hE
          | err => rw [hx] at hr; cases hr
          | panic => rw [hx] at hr; cases hr
    | ok v' =>
      have hx := (stepE_ok B v v' c).mp hE
      simp only
      rw [ih v']
      constructor
      · rintro ⟨l, c', r, w, rfl, hr, hs⟩
        refine ⟨c :: l, c', r, w, rfl, ?_, hs⟩
        unfold Scheme.run; rw [hx]; exact hr
      · rintro ⟨l, c', r, w, h, hr, hs⟩
        cases l with
        | nil =>
          cases h; cases hr
          rw [hE] at hs; cases hs
        | cons x l =>
          cases h
          unfold Scheme.run at hr
          rw [hx] at hr
          exact ⟨l, c', r, w, rfl, hr, hs⟩

/-- The error that reports a fault. -/
def Blame.report (B : Blame S) : Fault S.M → Error
  | .unknown n => .unknownMetric n
  | .invalid m v => B.invalid m v
  | .twice m => B.duplicate m

theorem stepE_error (L : S.Lawful) {same : Str → Str → Prop} {written : Str → Str}
    (hsame : ∀ a b, S.fold a = S.fold b ↔ same a b) (hw : ∀ a, S.fold a = written a) (B : Blame S) (v : S.Metrics)
    (c : Str × Str) (e : Error) :
    Scheme.stepE B v c = .error e ↔ ∃ f, AtFault same written v c.1 c.2 f ∧ e = B.report f := by
  have htypes : ∀ m, lookupStr S.types (S.fold c.1) = some m ↔ same c.1 (S.name m) := fun m =>
    (L.types _ _).trans (hsame _ _)
  have hvalues : ∀ m x, lookupStr (S.valueTable m) (S.fold c.2) = some x ↔ same c.2 (S.asStr m x) := fun m x =>
    (L.values _ _ _).trans (hsame _ _)
  have huniq : ∀ m m', same c.1 (S.name m) → same c.1 (S.name m') → m = m' := by
    intro m m' h h'
    have h := (htypes m).mpr h
    rw [(htypes m').mpr h'] at h
    exact (Option.some.inj h).symm
  unfold Scheme.stepE
  cases hm : lookupStr S.types (S.fold c.1) with
  | none =>
    have hno : ∀ m, ¬ same c.1 (S.name m) := by
      intro m h
      rw [(htypes m).mpr h] at hm; cases hm
    simp only
    constructor
    · intro h; cases h
      exact ⟨.unknown (written c.1), .unknown hno, by rw [hw]; rfl⟩
    · rintro ⟨f, hf, rfl⟩
      cases hf with
      | unknown h => rw [hw]; rfl
      | invalid m h hv => exact absurd h (hno m)
      | twice m x h hx ht => exact absurd h (hno m)
  | some m =>
    have hm' := (htypes m).mp hm
    simp only
    cases hx : lookupStr (S.valueTable m) (S.fold c.2) with
    | none =>
      have hno : ∀ x, ¬ same c.2 (S.asStr m x) := by
        intro x h
        rw [(hvalues m x).mpr h] at hx; cases hx
      simp only
      constructor
      · intro h; cases h
        exact ⟨.invalid m (written c.2), .invalid m hm' hno, by rw [hw]; rfl⟩
      · rintro ⟨f, hf, rfl⟩
        cases hf with
        | unknown h => exact absurd hm' (h m)
        | invalid m' h hv => rw [huniq m m' hm' h, hw]; rfl
        | twice m' x h hx ht =>
          have := huniq m m' hm' h; subst this
          exact absurd hx (hno x)
    | some x =>
      have hx' := (hvalues m x).mp hx
      simp only
      split
      · rename_i ht
        constructor
        · intro h; cases h
          exact ⟨.twice m, .twice m x hm' hx' (Option.isSome_iff_ne_none.mp ht), rfl⟩
        · rintro ⟨f, hf, rfl⟩
          cases hf with
          | unknown h => exact absurd hm' (h m)
          | invalid m' h hv =>
            have := huniq m m' hm' h; subst this
            exact absurd hx' (hv x)
          | twice m' x h hx ht => rw [huniq m m' hm' h]; rfl
      · rename_i ht
        constructor
        · intro h; cases h
        · rintro ⟨f, hf, rfl⟩
          cases hf with
          | unknown h => exact absurd hm' (h m)
          | invalid m' h hv =>
            have := huniq m m' hm' h; subst this
            exact absurd hx' (hv x)
          | twice m' x h hx ht' =>
            have := huniq m m' hm' h; subst this
            exact absurd (Option.isSome_iff_ne_none.mpr ht') ht

theorem run_gives (L : S.Lawful) {same : Str → Str → Prop}
    (hgives : ∀ ts (v : S.Metrics), Scheme.Reads ts v ↔ Gives same ts v) {ts : List Str} {cs : List (Str × Str)}
    (h : Forall₂ (fun t (c : Str × Str) => IsPair t c.1 c.2) ts cs) (w : S.Metrics) :
    Scheme.run S.empty cs = .ok w ↔ Gives same ts w := by
  rw [← hgives]
  constructor
  · intro hr
    rw [pairs_texts h]
    exact ((Scheme.run_empty_iff L cs w).mp hr).1
  · intro hr
    obtain ⟨cs', ht, hcl, hrun⟩ := hr.ok L
    have : cs' = cs := by
      subst ht
      clear hr hrun
      induction cs' generalizing cs with
      | nil => cases h; rfl
      | cons c cs' ih =>
        cases h with
        | cons h1 h2 =>
          have hc := hcl c mem_cons_self
          obtain ⟨e1, e2⟩ := isPair_unique h1 ⟨rfl, hc.1, hc.2.1⟩
          rw [ih (fun c hc => hcl c (mem_cons_of_mem _ hc)) h2]
          congr 1
          exact Prod.ext e1.symm e2.symm
    rw [← this]; exact hrun

theorem forall₂_split {α β : Type} {R : α → β → Prop} {ts : List α} {l : List β} {c : β} {r : List β}
    (h : Forall₂ R ts (l ++ c :: r)) : ∃ l' t r', ts = l' ++ t :: r' ∧ Forall₂ R l' l ∧ R t c ∧ Forall₂ R r' r := by
  induction l generalizing ts with
  | nil => cases h with | cons h1 h2 => exact ⟨[], _, _, rfl, .nil, h1, h2⟩
  | cons x l ih =>
    cases h with
    | cons h1 h2 =>
      obtain ⟨l', t, r', rfl, g1, g2, g3⟩ := ih h2
      exact ⟨_ :: l', t, r', rfl, .cons h1 g1, g2, g3⟩

theorem forall₂_split' {α β : Type} {R : α → β → Prop} {cs : List β} {l : List α} {t : α} {r : List α}
    (h : Forall₂ R (l ++ t :: r) cs) : ∃ l' c r', cs = l' ++ c :: r' ∧ Forall₂ R l l' ∧ R t c ∧ Forall₂ R r r' := by
  obtain ⟨l', c, r', h1, h2, h3, h4⟩ := forall₂_split h.flip
  exact ⟨l', c, r', h1, h2.flip, h3, h4.flip⟩

theorem runE_fault (L : S.Lawful) {same : Str → Str → Prop} {written : Str → Str}
    (hsame : ∀ a b, S.fold a = S.fold b ↔ same a b) (hw : ∀ a, S.fold a = written a)
    (hgives : ∀ ts (v : S.Metrics), Scheme.Reads ts v ↔ Gives same ts v) (B : Blame S) {ts : List Str}
    {cs : List (Str × Str)} (h : Forall₂ (fun t (c : Str × Str) => IsPair t c.1 c.2) ts cs) (e : Error) :
    Scheme.runE B S.empty cs = .error e ↔ ∃ f, FirstFault same written ts f ∧ e = B.report f := by
  rw [runE_error]
  constructor
  · rintro ⟨l, c, r, w, rfl, hr, hs⟩
    obtain ⟨l', t, r', rfl, h1, h2, h3⟩ := forall₂_split h
    obtain ⟨f, hf, rfl⟩ := (stepE_error L hsame hw B w c e).mp hs
    exact ⟨f, ⟨l', t, r', c.1, c.2, rfl, h2, w, (run_gives L hgives h1 w).mp hr, hf⟩, rfl⟩
  · rintro ⟨f, ⟨l, t, r, name, value, rfl, hp, w, hg, hf⟩, rfl⟩
    obtain ⟨l', c, r', rfl, h1, h2, h3⟩ := forall₂_split' h
    obtain ⟨rfl, rfl⟩ := isPair_unique hp h2
    exact ⟨l', c, r', w, rfl, (run_gives L hgives h1 w).mpr hg, (stepE_error L hsame hw B w c _).mpr ⟨f, hf, rfl⟩⟩

theorem checkE_error (B : Blame S) (v : S.Metrics) (e : Error) (needed : List S.M) :
    Scheme.checkE B v needed = .error e ↔
      ∃ l m r, needed = l ++ m :: r ∧ (∀ k ∈ l, v k ≠ none) ∧ v m = none ∧ e = B.missing m := by
  induction needed with
  | nil =>
    unfold Scheme.checkE
    constructor
    · intro h; cases h
    · rintro ⟨l, m, r, h, -⟩; cases l <;> cases h
  | cons m ms ih =>
    unfold Scheme.checkE
    cases hv : v m with
    | none =>
      simp only [Option.isSome_none, Bool.false_eq_true, if_false]
      constructor
      · intro h; cases h
        exact ⟨[], m, ms, rfl, by simp, hv, rfl⟩
      · rintro ⟨l, m', r, h, hl, hm, rfl⟩
        cases l with
        | nil => cases h; rfl
        | cons x l => cases h; exact absurd hv (hl _ mem_cons_self)
    | some x =>
      simp only [Option.isSome_some, if_true]
      rw [ih]
      constructor
      · rintro ⟨l, m', r, rfl, hl, hm, rfl⟩
        refine ⟨m :: l, m', r, rfl, ?_, hm, rfl⟩
        intro k hk
        rcases mem_cons.mp hk with rfl | hk
        · rw [hv]; exact fun h => by cases h
        · exact hl k hk
      · rintro ⟨l, m', r, h, hl, hm, rfl⟩
        cases l with
        | nil => cases h; rw [hv] at hm; cases hm
        | cons y l =>
          cases h
          exact ⟨l, m', r, rfl, fun k hk => hl k (mem_cons_of_mem _ hk), hm, rfl⟩

theorem checkE_ok (B : Blame S) (v : S.Metrics) (needed : List S.M) :
    Scheme.checkE B v needed = .ok () ↔ (needed.all fun m => (v m).isSome) = true := by
  induction needed with
  | nil => unfold Scheme.checkE; simp
  | cons m ms ih =>
    unfold Scheme.checkE
    cases hv : v m with
    | none => simp [hv]
    | some x => simp [hv, ih]

end

/-! ## Capitals -/

theorem upperChar_eq (c : Char) : upperChar c = c.toUpper := by
  by_cases h : c.isLower = true
  · exact Verif.Props.isLower_cases (P := fun c => upperChar c = c.toUpper) (by decide +kernel) c h
  · rw [Verif.Props.toUpper_of_not_lower c h]
    unfold upperChar
    rw [if_neg]
    rintro ⟨h1, h2⟩
    apply h
    simp only [Char.isLower, Bool.and_eq_true, decide_eq_true_eq]
    exact ⟨h1, h2⟩

theorem upper_eq_capitals (s : Str) : upper s = capitals s := by
  unfold upper capitals
  rw [show upperChar = Char.toUpper from funext upperChar_eq]

theorem mapE_error {α β : Type} (f : α → β) (x : Except Error α) (e : Error) : mapE f x = .error e ↔ x = .error e := by
  cases x with
  | ok v => exact ⟨(fun h => by cases h), (fun h => by cases h)⟩
  | error e' => exact ⟨(fun h => by cases h; rfl), (fun h => by cases h; rfl)⟩

/-! ## CVSS v3 -/

theorem V3.minorOf_iff (version : Str) (n : Nat) : lookupStr V3.minorOf version = some n ↔
    (version = "3.0".toList ∧ n = 0) ∨ (version = "3.1".toList ∧ n = 1) := by
  constructor
  · intro h
    have := mem_of_lookupStr h
    simpa only [V3.minorOf, mem_cons, Prod.mk.injEq, not_mem_nil, or_false] using this
  · rintro (⟨rfl, rfl⟩ | ⟨rfl, rfl⟩) <;> decide +kernel

theorem V3.minorOf_none (version : Str) : lookupStr V3.minorOf version = none ↔
    version ≠ "3.0".toList ∧ version ≠ "3.1".toList := by
  constructor
  · intro h
    constructor
    · rintro rfl; rw [(V3.minorOf_iff _ 0).mpr (Or.inl ⟨rfl, rfl⟩)] at h; cases h
    · rintro rfl; rw [(V3.minorOf_iff _ 1).mpr (Or.inr ⟨rfl, rfl⟩)] at h; cases h
  · rintro ⟨h0, h1⟩
    cases h : lookupStr V3.minorOf version with
    | none => rfl
    | some n =>
      rcases (V3.minorOf_iff _ n).mp h with ⟨h, -⟩ | ⟨h, -⟩
      · exact absurd h h0
      · exact absurd h h1

theorem cvss_pair (version : Str) (h : ':' ∉ version) : IsPair ("CVSS:".toList ++ version) "CVSS".toList version :=
  ⟨rfl, by decide +kernel, h⟩

theorem cvss_pair_iff {p id version : Str} (hp : IsPair p id version) (v : Str) :
    p = "CVSS:".toList ++ v ↔ id = "CVSS".toList ∧ version = v := by
  constructor
  · intro h
    have hv : ':' ∉ v := by
      obtain ⟨h1, h2, h3⟩ := hp
      rw [h1] at h
      have hl : splitC ':' (id ++ ':' :: version) = [id, version] := by
        rw [splitC_append h2, splitC_of_not_mem h3]
      have hr : splitC ':' ("CVSS:".toList ++ v) = "CVSS".toList :: splitC ':' v := by
        rw [show "CVSS:".toList ++ v = "CVSS".toList ++ ':' :: v from rfl, splitC_append (by decide +kernel)]
      rw [h, hr] at hl
      have := (cons.inj hl).2
      have hj := joinC_splitC ':' v
      rw [this] at hj
      have : v = version := by rw [← hj]; rfl
      rw [this]; exact h3
    subst h
    exact isPair_unique hp (cvss_pair v hv)
  · rintro ⟨rfl, rfl⟩
    exact hp.1

theorem shapeless_not_shaped {parts : List Str} {t : Str} (h : FirstShapeless parts t) : ¬ Shaped parts := by
  obtain ⟨l, r, rfl, -, ht⟩ := h
  exact fun hs => ht (hs t (by simp))

theorem shapeless_unique {parts : List Str} {t t' : Str} (h : FirstShapeless parts t) (h' : FirstShapeless parts t') :
    t = t' := by
  have h1 := componentsE_error.mpr ⟨t, h, rfl⟩
  rw [componentsE_error.mpr ⟨t', h', rfl⟩] at h1
  have := Except.error.inj h1
  exact (Error.invalidComponent.inj this).symm

/-- **C85** What the v3 parser reports about a text it rejects: the first fault there is, in the order of the specification. -/
theorem C85_v3 (s : Str) (parts : List Str) (hs : Pieces s parts) (e : Error) :
    V3.Base.parse s = .error e ↔ Wrong3 parts e := by
  have hne := hs.2.1
  unfold V3.Base.parse
  rw [pieces_iff.mp hs]
  clear hs
  cases hc : componentsE parts with
  | error e' =>
    obtain ⟨t, ht, rfl⟩ := componentsE_error.mp hc
    have hns := shapeless_not_shaped ht
    constructor
    · intro h; cases h; exact .shape t ht
    · intro h
      cases h with
      | shape t' ht' => rw [shapeless_unique ht ht']
      | pre h => exact absurd h hns
      | version h => exact absurd h hns
      | fault h => exact absurd h hns
  | ok cs =>
    have hsh : Shaped parts := shaped_iff.mpr ⟨cs, hc⟩
    have h2 := componentsE_ok.mp hc
    cases h2 with
    | nil => exact absurd rfl hne
    | @cons p c rest cs hp hrest =>
      obtain ⟨id, version⟩ := c
      simp only at hp ⊢
      by_cases hid : id = "CVSS".toList
      · rw [if_neg (by simpa using hid)]
        cases hm : lookupStr V3.minorOf version with
        | none =>
          obtain ⟨h0, h1⟩ := (V3.minorOf_none version).mp hm
          constructor
          · intro h; cases h
            exact .version hsh rest version (by rw [(cvss_pair_iff hp version).mpr ⟨hid, rfl⟩]) h0 h1
          · intro h
            cases h with
            | shape t ht => exact absurd hsh (shapeless_not_shaped ht)
            | pre _ p' rest' pre version' e' hp' hne' =>
              obtain ⟨rfl, rfl⟩ := cons.inj e'
              exact absurd ((isPair_unique hp hp').1.symm.trans hid) hne'
            | version _ rest' version' e' h0' h1' =>
              obtain ⟨e1, -⟩ := cons.inj e'
              rw [((cvss_pair_iff hp version').mp e1).2]
            | fault _ p' rest' e' hp' f hf =>
              obtain ⟨rfl, -⟩ := cons.inj e'
              rcases hp' with hp' | hp'
              · exact absurd ((cvss_pair_iff hp "3.0".toList).mp hp').2 h0
              · exact absurd ((cvss_pair_iff hp "3.1".toList).mp hp').2 h1
        | some n =>
          have hv : p = "CVSS:3.0".toList ∨ p = "CVSS:3.1".toList := by
            rcases (V3.minorOf_iff _ n).mp hm with ⟨h, -⟩ | ⟨h, -⟩
            · exact Or.inl ((cvss_pair_iff hp "3.0".toList).mpr ⟨hid, h⟩)
            · exact Or.inr ((cvss_pair_iff hp "3.1".toList).mpr ⟨hid, h⟩)
          simp only
          rw [mapE_error, runE_fault V3.lawful (same := SameLetters) (written := capitals) (fun a b => upper_eq_iff a b)
            upper_eq_capitals (fun ts v => reads_iff_upper rfl ts v) V3.blame hrest]
          constructor
          · rintro ⟨f, hf, rfl⟩
            have : V3.blame.report f = fault3 f := by cases f <;> rfl
            rw [this]
            exact .fault hsh p rest rfl hv f hf
          · intro h
            cases h with
            | shape t ht => exact absurd hsh (shapeless_not_shaped ht)
            | pre _ p' rest' pre version' e' hp' hne' =>
              obtain ⟨rfl, rfl⟩ := cons.inj e'
              exact absurd ((isPair_unique hp hp').1.symm.trans hid) hne'
            | version _ rest' version' e' h0' h1' =>
              obtain ⟨e1, -⟩ := cons.inj e'
              rcases (V3.minorOf_iff _ n).mp hm with ⟨h, -⟩ | ⟨h, -⟩
              · exact absurd (((cvss_pair_iff hp version').mp e1).2.symm.trans h) h0'
              · exact absurd (((cvss_pair_iff hp version').mp e1).2.symm.trans h) h1'
            | fault _ p' rest' e' hp' f hf =>
              obtain ⟨rfl, rfl⟩ := cons.inj e'
              exact ⟨f, hf, by cases f <;> rfl⟩
      · rw [if_pos hid]
        constructor
        · intro h; cases h
          exact .pre hsh p rest id version rfl hp hid
        · intro h
          cases h with
          | shape t ht => exact absurd hsh (shapeless_not_shaped ht)
          | pre _ p' rest' pre version' e' hp' hne' =>
            obtain ⟨rfl, rfl⟩ := cons.inj e'
            rw [(isPair_unique hp hp').1]
          | version _ rest' version' e' h0' h1' =>
            obtain ⟨e1, -⟩ := cons.inj e'
            exact absurd ((cvss_pair_iff hp version').mp e1).1 hid
          | fault _ p' rest' e' hp' f hf =>
            obtain ⟨rfl, rfl⟩ := cons.inj e'
            rcases hp' with hp' | hp'
            · exact absurd ((cvss_pair_iff hp "3.0".toList).mp hp').1 hid
            · exact absurd ((cvss_pair_iff hp "3.1".toList).mp hp').1 hid

/-! ## CVSS v2 -/

/-- The two last steps of the v2 and v4 parsers. -/
theorem run_check {S : Scheme} (L : S.Lawful) {same : Str → Str → Prop} {written : Str → Str}
    (hsame : ∀ a b, S.fold a = S.fold b ↔ same a b) (hw : ∀ a, S.fold a = written a)
    (hgives : ∀ ts (v : S.Metrics), Scheme.Reads ts v ↔ Gives same ts v) (B : Blame S) {ts : List Str}
    {cs : List (Str × Str)} (h : Forall₂ (fun t (c : Str × Str) => IsPair t c.1 c.2) ts cs) (needed : List S.M)
    (e : Error) : Scheme.readE B needed cs = .error e ↔
      (∃ f, FirstFault same written ts f ∧ e = B.report f) ∨ ∃ m, FirstMissing same needed ts m ∧ e = B.missing m := by
  unfold Scheme.readE
  cases hr : Scheme.runE B S.empty cs with
  | error e' =>
    have hno : ¬ ∃ v : S.Metrics, Gives same ts v := by
      rintro ⟨v, hv⟩
      rw [(runE_ok B v cs S.empty).mpr ((run_gives L hgives h v).mpr hv)] at hr
      cases hr
    rw [← runE_fault L hsame hw hgives B h e, hr]
    constructor
    · intro h; cases h; exact Or.inl rfl
    · rintro (h | ⟨m, ⟨v, hv, -⟩, -⟩)
      · cases h; rfl
      · exact absurd ⟨v, hv⟩ hno
  | ok v =>
    have hv := (run_gives L hgives h v).mp ((runE_ok B v cs S.empty).mp hr)
    have hfault : ¬ ∃ f, FirstFault same written ts f ∧ e = B.report f := by
      rw [← runE_fault L hsame hw hgives B h e, hr]
      intro h; cases h
    have hu : ∀ w, Gives same ts w → w = v := by
      intro w hw'
      have := (run_gives L hgives h w).mpr hw'
      rw [(runE_ok B v cs S.empty).mp hr] at this
      exact (Outcome.ok.inj this).symm
    have hm : (∃ m, FirstMissing same needed ts m ∧ e = B.missing m) ↔ Scheme.checkE B v needed = .error e := by
      rw [checkE_error]
      constructor
      · rintro ⟨m, ⟨w, hw', l, r, h1, h2, h3⟩, rfl⟩
        obtain rfl := hu w hw'
        exact ⟨l, m, r, h1, h2, h3, rfl⟩
      · rintro ⟨l, m, r, h1, h2, h3, rfl⟩
        exact ⟨m, ⟨v, hv, l, r, h1, h2, h3⟩, rfl⟩
    rw [or_iff_right hfault, hm]
    simp only
    cases hc : Scheme.checkE B v needed with
    | error e' => exact ⟨(fun h => by cases h; rfl), (fun h => by cases h; rfl)⟩
    | ok _ => exact ⟨(fun h => by cases h), (fun h => by cases h)⟩

/-- **C85** What the v2 parser reports about a text it rejects. -/
theorem C85_v2 (s : Str) (parts : List Str) (hs : Pieces s parts) (e : Error) :
    V2.Vector.parse s = .error e ↔ Wrong2 parts e := by
  unfold V2.Vector.parse
  rw [pieces_iff.mp hs]
  clear hs
  cases hc : componentsE parts with
  | error e' =>
    obtain ⟨t, ht, rfl⟩ := componentsE_error.mp hc
    have hns := shapeless_not_shaped ht
    constructor
    · intro h; cases h; exact .shape t ht
    · intro h
      cases h with
      | shape t' ht' => rw [shapeless_unique ht ht']
      | fault h => exact absurd h hns
      | missing h => exact absurd h hns
  | ok cs =>
    have hsh : Shaped parts := shaped_iff.mpr ⟨cs, hc⟩
    simp only
    rw [run_check V2.lawful (same := (· = ·)) (written := id) (fun a b => Iff.rfl) (fun _ => rfl)
      (fun ts v => reads_iff_id rfl ts v) V2.blame (componentsE_ok.mp hc) V2.mandatory e]
    constructor
    · rintro (⟨f, hf, rfl⟩ | ⟨m, hm, rfl⟩)
      · have : V2.blame.report f = fault2 f := by cases f <;> rfl
        rw [this]; exact .fault hsh f hf
      · exact .missing hsh m hm
    · intro h
      cases h with
      | shape t ht => exact absurd hsh (shapeless_not_shaped ht)
      | fault _ f hf => exact Or.inl ⟨f, hf, by cases f <;> rfl⟩
      | missing _ m hm => exact Or.inr ⟨m, hm, rfl⟩

/-! ## CVSS v4 -/

/-- **C85** What the v4 parser reports about a text it rejects. -/
theorem C85_v4 (s : Str) (parts : List Str) (hs : Pieces s parts) (e : Error) :
    V4.Vector.parse s = .error e ↔ Wrong4 parts e := by
  have hne := hs.2.1
  unfold V4.Vector.parse
  rw [pieces_iff.mp hs]
  clear hs
  cases hc : componentsE parts with
  | error e' =>
    obtain ⟨t, ht, rfl⟩ := componentsE_error.mp hc
    have hns := shapeless_not_shaped ht
    constructor
    · intro h; cases h; exact .shape t ht
    · intro h
      cases h with
      | shape t' ht' => rw [shapeless_unique ht ht']
      | pre h => exact absurd h hns
      | version h => exact absurd h hns
      | fault h => exact absurd h hns
      | missing h => exact absurd h hns
  | ok cs =>
    have hsh : Shaped parts := shaped_iff.mpr ⟨cs, hc⟩
    have h2 := componentsE_ok.mp hc
    cases h2 with
    | nil => exact absurd rfl hne
    | @cons p c rest cs hp hrest =>
      obtain ⟨id, version⟩ := c
      simp only at hp ⊢
      by_cases hid : id = "CVSS".toList
      · rw [if_neg (by simpa using hid)]
        by_cases hv : version = "4.0".toList
        · rw [if_neg (by simpa using hv)]
          rw [mapE_error, run_check V4.lawful (same := SameLetters) (written := capitals) (fun a b => upper_eq_iff a b)
            upper_eq_capitals (fun ts v => reads_iff_upper rfl ts v) V4.blame hrest V4.mandatory e]
          have hp4 : p = "CVSS:4.0".toList := (cvss_pair_iff hp "4.0".toList).mpr ⟨hid, hv⟩
          constructor
          · rintro (⟨f, hf, rfl⟩ | ⟨m, hm, rfl⟩)
            · have : V4.blame.report f = fault4 f := by cases f <;> rfl
              rw [this]; exact .fault hsh rest (by rw [hp4]) f hf
            · exact .missing hsh rest (by rw [hp4]) m hm
          · intro h
            cases h with
            | shape t ht => exact absurd hsh (shapeless_not_shaped ht)
            | pre _ p' rest' pre version' e' hp' hne' =>
              obtain ⟨rfl, rfl⟩ := cons.inj e'
              exact absurd ((isPair_unique hp hp').1.symm.trans hid) hne'
            | version _ rest' version' e' h0' =>
              obtain ⟨e1, -⟩ := cons.inj e'
              exact absurd (((cvss_pair_iff hp version').mp e1).2.symm.trans hv) h0'
            | fault _ rest' e' f hf =>
              obtain ⟨-, rfl⟩ := cons.inj e'
              exact Or.inl ⟨f, hf, by cases f <;> rfl⟩
            | missing _ rest' e' m hm =>
              obtain ⟨-, rfl⟩ := cons.inj e'
              exact Or.inr ⟨m, hm, rfl⟩
        · rw [if_pos hv]
          constructor
          · intro h; cases h
            exact .version hsh rest version (by rw [(cvss_pair_iff hp version).mpr ⟨hid, rfl⟩]) hv
          · intro h
            cases h with
            | shape t ht => exact absurd hsh (shapeless_not_shaped ht)
            | pre _ p' rest' pre version' e' hp' hne' =>
              obtain ⟨rfl, rfl⟩ := cons.inj e'
              exact absurd ((isPair_unique hp hp').1.symm.trans hid) hne'
            | version _ rest' version' e' h0' =>
              obtain ⟨e1, -⟩ := cons.inj e'
              rw [((cvss_pair_iff hp version').mp e1).2]
            | fault _ rest' e' f hf =>
              obtain ⟨e1, -⟩ := cons.inj e'
              exact absurd ((cvss_pair_iff hp "4.0".toList).mp e1).2 hv
            | missing _ rest' e' m hm =>
              obtain ⟨e1, -⟩ := cons.inj e'
              exact absurd ((cvss_pair_iff hp "4.0".toList).mp e1).2 hv
      · rw [if_pos hid]
        constructor
        · intro h; cases h
          exact .pre hsh p rest id version rfl hp hid
        · intro h
          cases h with
          | shape t ht => exact absurd hsh (shapeless_not_shaped ht)
          | pre _ p' rest' pre version' e' hp' hne' =>
            obtain ⟨rfl, rfl⟩ := cons.inj e'
            rw [(isPair_unique hp hp').1]
          | version _ rest' version' e' h0' =>
            obtain ⟨e1, -⟩ := cons.inj e'
            exact absurd ((cvss_pair_iff hp version').mp e1).1 hid
          | fault _ rest' e' f hf =>
            obtain ⟨e1, -⟩ := cons.inj e'
            exact absurd ((cvss_pair_iff hp "4.0".toList).mp e1).1 hid
          | missing _ rest' e' m hm =>
            obtain ⟨e1, -⟩ := cons.inj e'
            exact absurd ((cvss_pair_iff hp "4.0".toList).mp e1).1 hid

/-! ## The parsers without payloads -/

/-- An error without its payload. -/
def withoutPayload {α : Type} : Except Error α → Outcome α
  | .ok a => .ok a
  | .error _ => .err

theorem components_none {s : Str} {e : Error} (h : componentsE (splitC '/' s) = .error e) : components s = none := by
  cases hc : components s with
  | none => rfl
  | some cs => rw [componentsE_components.mpr hc] at h; cases h

theorem run_withoutPayload {S : Scheme} (B : Blame S) (v : S.Metrics) (cs : List (Str × Str)) :
    Scheme.run v cs = withoutPayload (Scheme.runE B v cs) := by
  cases h : Scheme.runE B v cs with
  | ok w => exact (runE_ok B w cs v).mp h
  | error e =>
    cases h' : Scheme.run v cs with
    | ok w => rw [(runE_ok B w cs v).mpr h'] at h; cases h
    | err => rfl
    | panic => exact absurd h' (run_ne_panic cs v)

theorem readE_withoutPayload {S : Scheme} (B : Blame S) (needed : List S.M) (cs : List (Str × Str)) {α : Type}
    (f : S.Metrics → α) :
    (match Scheme.run S.empty cs with
      | .ok v => if (needed.all fun m => (v m).isSome) then Outcome.ok (f v) else .err
      | .err => .err
      | .panic => .panic) = withoutPayload (mapE f (Scheme.readE B needed cs)) := by
  unfold Scheme.readE
  rw [run_withoutPayload B]
  cases Scheme.runE B S.empty cs with
  | error e => rfl
  | ok v =>
    simp only [withoutPayload]
    cases h : Scheme.checkE B v needed with
    | ok _ => rw [if_pos ((checkE_ok B v needed).mp h)]; rfl
    | error e =>
      rw [if_neg]
      · rfl
      · intro h'
        rw [(checkE_ok B v needed).mpr h'] at h
        cases h

theorem parse_v3 (s : Str) : V3.Base.fromStr s = withoutPayload (V3.Base.parse s) := by
  unfold V3.Base.fromStr V3.Base.parse
  cases hc : componentsE (splitC '/' s) with
  | error e => rw [components_none hc]; rfl
  | ok cs =>
    rw [componentsE_components.mp hc]
    rcases cs with _ | ⟨⟨id, version⟩, rest⟩
    · rfl
    · simp only
      split
      · rfl
      · cases lookupStr V3.minorOf version with
        | none => rfl
        | some n =>
          simp only
          rw [run_withoutPayload V3.blame]
          cases Scheme.runE V3.blame V3.scheme.empty rest <;> rfl

theorem parse_v2 (s : Str) : V2.Vector.fromStr s = withoutPayload (V2.Vector.parse s) := by
  unfold V2.Vector.fromStr V2.Vector.parse
  cases hc : componentsE (splitC '/' s) with
  | error e => rw [components_none hc]; rfl
  | ok cs =>
    rw [componentsE_components.mp hc]
    have h := readE_withoutPayload V2.blame V2.mandatory cs id
    have hid : mapE id (Scheme.readE V2.blame V2.mandatory cs) = Scheme.readE V2.blame V2.mandatory cs := by
      cases Scheme.readE V2.blame V2.mandatory cs <;> rfl
    rw [hid] at h
    simp only
    rw [← h]
    cases Scheme.run V2.scheme.empty cs <;> rfl

theorem parse_v4 (s : Str) : V4.Vector.fromStr s = withoutPayload (V4.Vector.parse s) := by
  unfold V4.Vector.fromStr V4.Vector.parse
  cases hc : componentsE (splitC '/' s) with
  | error e => rw [components_none hc]; rfl
  | ok cs =>
    rw [componentsE_components.mp hc]
    rcases cs with _ | ⟨⟨id, version⟩, rest⟩
    · rfl
    · simp only
      split
      · rfl
      · split
        · rfl
        · rw [← readE_withoutPayload V4.blame V4.mandatory rest (fun v => (⟨0, v⟩ : V4.Vector))]
          cases Scheme.run V4.scheme.empty rest <;> rfl

theorem mapE_withoutPayload {α β : Type} (f : α → β) (x : Except Error α) :
    Outcome.map f (withoutPayload x) = withoutPayload (mapE f x) := by cases x <;> rfl

/-- **C85** The parsers with payloads are the parsers of C33–C35 and C59. -/
theorem C85_same (s : Str) :
    V2.Vector.fromStr s = withoutPayload (V2.Vector.parse s) ∧ V3.Base.fromStr s = withoutPayload (V3.Base.parse s) ∧
      V4.Vector.fromStr s = withoutPayload (V4.Vector.parse s) ∧ Cvss.fromStr s = withoutPayload (Cvss.parse s) := by
  refine ⟨parse_v2 s, parse_v3 s, parse_v4 s, ?_⟩
  unfold Cvss.fromStr Cvss.parse
  rw [parse_v2, parse_v3, parse_v4]
  simp only [mapE_withoutPayload]
  cases splitOnce '/' s with
  | none => rfl
  | some x =>
    obtain ⟨id, rest⟩ := x
    simp only
    cases splitOnce ':' id with
    | none => rfl
    | some y =>
      obtain ⟨pre, version⟩ := y
      simp only
      cases splitOnce '.' version with
      | none => rfl
      | some z =>
        obtain ⟨major, minor⟩ := z
        simp only
        split
        · rfl
        · split
          · rfl
          · split
            · rfl
            · split <;> rfl

/-! ## Any version -/

theorem first_split {c : Char} {a a' b b' : Str} (h : a ++ c :: b = a' ++ c :: b') (ha : c ∉ a) (ha' : c ∉ a') :
    a = a' ∧ b = b' := by
  have h1 := splitOnce_append ha b
  rw [h, splitOnce_append ha' b'] at h1
  obtain ⟨h1, h2⟩ := Prod.mk.inj (Option.some.inj h1)
  exact ⟨h1.symm, h2.symm⟩

/-- Inversion of `Wrong` for a text whose first piece is `pre:version`. -/
theorem wrong_iff {s p pre version : Str} {rest : List Str} (hP : Pieces s (p :: rest)) (hr : rest ≠ [])
    (hp : p = pre ++ ':' :: version) (hc : ':' ∉ pre) (e : Error) :
    Wrong s e ↔ ('.' ∉ version ∧ Wrong2 (p :: rest) e) ∨
      ((p = "CVSS:3.0".toList ∨ p = "CVSS:3.1".toList) ∧ Wrong3 (p :: rest) e) ∨
      (p = "CVSS:4.0".toList ∧ Wrong4 (p :: rest) e) ∨
      (p = "CVSS:".toList ++ version ∧ '.' ∈ version ∧ version ≠ "3.0".toList ∧ version ≠ "3.1".toList ∧
        version ≠ "4.0".toList ∧ e = .unsupportedVersion version) ∨
      ('.' ∈ version ∧ pre ≠ "CVSS".toList ∧ e = .invalidPrefix pre) := by
  have hu : ∀ {q t}, Pieces s (q :: t) → q = p ∧ t = rest := by
    intro q t h
    have h1 := pieces_iff.mp h
    rw [pieces_iff.mp hP] at h1
    obtain ⟨h1, h2⟩ := cons.inj h1
    exact ⟨h1.symm, h2.symm⟩
  constructor
  · intro h
    cases h with
    | noSlash h => exact absurd (by rw [hP.1]; exact slash_mem_joinC hr) h
    | noColon q t h _ hq =>
      obtain ⟨rfl, rfl⟩ := hu h
      exact absurd (by rw [hp]; simp) hq
    | v2 q t h _ pre' version' hp' hc' hd e he =>
      obtain ⟨rfl, rfl⟩ := hu h
      obtain ⟨rfl, rfl⟩ := first_split (hp.symm.trans hp') hc hc'
      exact Or.inl ⟨hd, he⟩
    | v3 q t h _ hq e he =>
      obtain ⟨rfl, rfl⟩ := hu h
      exact Or.inr (Or.inl ⟨hq, he⟩)
    | v4 t h _ e he =>
      obtain ⟨h1, rfl⟩ := hu h
      rw [h1] at he
      exact Or.inr (Or.inr (Or.inl ⟨h1.symm, he⟩))
    | version version' t h _ hd h0 h1 h4 =>
      obtain ⟨h', rfl⟩ := hu h
      rw [hp] at h'
      obtain ⟨-, rfl⟩ := first_split (a := "CVSS".toList) h' (by decide +kernel) hc
      exact Or.inr (Or.inr (Or.inr (Or.inl ⟨by rw [hp]; exact h'.symm, hd, h0, h1, h4, rfl⟩)))
    | pre q t h _ pre' version' hp' hc' hd hne =>
      obtain ⟨rfl, rfl⟩ := hu h
      obtain ⟨rfl, rfl⟩ := first_split (hp.symm.trans hp') hc hc'
      exact Or.inr (Or.inr (Or.inr (Or.inr ⟨hd, hne, rfl⟩)))
  · rintro (⟨hd, he⟩ | ⟨hq, he⟩ | ⟨hq, he⟩ | ⟨hq, hd, h0, h1, h4, rfl⟩ | ⟨hd, hne, rfl⟩)
    · exact .v2 p rest hP hr pre version hp hc hd e he
    · exact .v3 p rest hP hr hq e he
    · subst hq; exact .v4 rest hP hr e he
    · rw [hq] at hP; exact .version version rest hP hr hd h0 h1 h4
    · exact .pre p rest hP hr pre version hp hc hd hne

theorem dotted {version major minor : Str} (h : version = major ++ '.' :: minor) (hd : '.' ∉ major) (a b : Str)
    (ha : '.' ∉ a) : version = a ++ '.' :: b ↔ major = a ∧ minor = b := by
  constructor
  · intro h'
    obtain ⟨h1, h2⟩ := first_split (h.symm.trans h') hd ha
    exact ⟨h1, h2⟩
  · rintro ⟨rfl, rfl⟩; exact h

theorem mem_split {c : Char} {s : Str} (h : c ∈ s) : ∃ a b, s = a ++ c :: b ∧ c ∉ a := by
  obtain ⟨a, b, h1, h2⟩ := List.eq_append_cons_of_mem h
  exact ⟨a, b, h1, h2⟩

/-- **C85** What the unified parser reports about a text it rejects: exactly one error for each such text, the one that the
specification `Wrong` gives. -/
theorem C85_cvss (s : Str) (e : Error) : Cvss.parse s = .error e ↔ Wrong s e := by
  by_cases hs : '/' ∈ s
  · obtain ⟨p, rest, hP, hr⟩ : ∃ p rest, Pieces s (p :: rest) ∧ rest ≠ [] := by
      obtain ⟨a, b, rfl, ha⟩ := mem_split hs
      refine ⟨a, splitC '/' b, pieces_iff.mpr (splitC_append ha b), splitC_ne_nil '/' b⟩
    have hsl : splitOnce '/' s = some (p, joinC '/' rest) := by
      rw [hP.1]; exact splitOnce_joinC (hP.2.2 p mem_cons_self) hr
    unfold Cvss.parse
    rw [hsl]
    simp only
    by_cases hcol : ':' ∈ p
    · obtain ⟨pre, version, hp, hc⟩ := mem_split hcol
      have hsc : splitOnce ':' p = some (pre, version) := by rw [hp]; exact splitOnce_append hc version
      rw [hsc, wrong_iff hP hr hp hc]
      simp only
      have hcv : ∀ v, p = "CVSS:".toList ++ v ↔ pre = "CVSS".toList ∧ version = v := by
        intro v
        constructor
        · intro h
          rw [hp] at h
          exact first_split (a' := "CVSS".toList) h hc (by decide +kernel)
        · rintro ⟨rfl, rfl⟩; exact hp
      have h30 := hcv "3.0".toList
      have h31 := hcv "3.1".toList
      have h40 := hcv "4.0".toList
      have hcc := hcv version
      simp only [and_true] at hcc
      rw [show "CVSS:".toList ++ "3.0".toList = "CVSS:3.0".toList from rfl] at h30
      rw [show "CVSS:".toList ++ "3.1".toList = "CVSS:3.1".toList from rfl] at h31
      rw [show "CVSS:".toList ++ "4.0".toList = "CVSS:4.0".toList from rfl] at h40
      rw [h30, h31, h40, hcc]
      have n1 : "3.0".toList ≠ "4.0".toList := by decide +kernel
      have n2 : "3.1".toList ≠ "4.0".toList := by decide +kernel
      have n3 : "3.0".toList ≠ "3.1".toList := by decide +kernel
      by_cases hd : '.' ∈ version
      · obtain ⟨major, minor, hv, hm⟩ := mem_split hd
        have hsd : splitOnce '.' version = some (major, minor) := by rw [hv]; exact splitOnce_append hm minor
        rw [hsd]
        simp only
        have e30 : (major = ['3'] ∧ minor = ['0']) ↔ version = "3.0".toList :=
          (dotted hv hm ['3'] ['0'] (by decide +kernel)).symm
        have e31 : (major = ['3'] ∧ minor = ['1']) ↔ version = "3.1".toList :=
          (dotted hv hm ['3'] ['1'] (by decide +kernel)).symm
        have e40 : (major = ['4'] ∧ minor = ['0']) ↔ version = "4.0".toList :=
          (dotted hv hm ['4'] ['0'] (by decide +kernel)).symm
        have g2 : ¬ ('.' ∉ version) := fun h => h hd
        simp only [e30, e31, e40]
        by_cases hpre : pre = "CVSS".toList
        · by_cases v0 : version = "3.0".toList
          · rw [if_pos ⟨hpre, v0⟩, mapE_error, C85_v3 s _ hP]
            constructor
            · intro h; exact Or.inr (Or.inl ⟨Or.inl ⟨hpre, v0⟩, h⟩)
            · rintro (⟨h, -⟩ | ⟨-, h⟩ | ⟨⟨-, h⟩, -⟩ | ⟨-, -, h, -⟩ | ⟨-, h, -⟩)
              · exact absurd h g2
              · exact h
              · exact absurd (v0.symm.trans h) n1
              · exact absurd v0 h
              · exact absurd hpre h
          · rw [if_neg (fun h => v0 h.2)]
            by_cases v1 : version = "3.1".toList
            · rw [if_pos ⟨hpre, v1⟩, mapE_error, C85_v3 s _ hP]
              constructor
              · intro h; exact Or.inr (Or.inl ⟨Or.inr ⟨hpre, v1⟩, h⟩)
              · rintro (⟨h, -⟩ | ⟨-, h⟩ | ⟨⟨-, h⟩, -⟩ | ⟨-, -, -, h, -⟩ | ⟨-, h, -⟩)
                · exact absurd h g2
                · exact h
                · exact absurd (v1.symm.trans h) n2
                · exact absurd v1 h
                · exact absurd hpre h
            · rw [if_neg (fun h => v1 h.2)]
              by_cases v4 : version = "4.0".toList
              · rw [if_pos ⟨hpre, v4⟩, mapE_error, C85_v4 s _ hP]
                constructor
                · intro h; exact Or.inr (Or.inr (Or.inl ⟨⟨hpre, v4⟩, h⟩))
                · rintro (⟨h, -⟩ | ⟨⟨-, h⟩ | ⟨-, h⟩, -⟩ | ⟨-, h⟩ | ⟨-, -, -, -, h, -⟩ | ⟨-, h, -⟩)
                  · exact absurd h g2
                  · exact absurd h v0
                  · exact absurd h v1
                  · exact h
                  · exact absurd v4 h
                  · exact absurd hpre h
              · rw [if_neg (fun h => v4 h.2), if_pos hpre]
                constructor
                · intro h; cases h
                  exact Or.inr (Or.inr (Or.inr (Or.inl ⟨hpre, hd, v0, v1, v4, rfl⟩)))
                · rintro (⟨h, -⟩ | ⟨⟨-, h⟩ | ⟨-, h⟩, -⟩ | ⟨⟨-, h⟩, -⟩ | ⟨-, -, -, -, -, rfl⟩ | ⟨-, h, -⟩)
                  · exact absurd h g2
                  · exact absurd h v0
                  · exact absurd h v1
                  · exact absurd h v4
                  · rfl
                  · exact absurd hpre h
        · rw [if_neg (fun h => hpre h.1), if_neg (fun h => hpre h.1), if_neg (fun h => hpre h.1), if_neg hpre]
          constructor
          · intro h; cases h
            exact Or.inr (Or.inr (Or.inr (Or.inr ⟨hd, hpre, rfl⟩)))
          · rintro (⟨h, -⟩ | ⟨⟨h, -⟩ | ⟨h, -⟩, -⟩ | ⟨⟨h, -⟩, -⟩ | ⟨h, -⟩ | ⟨-, -, rfl⟩)
            · exact absurd h g2
            · exact absurd h hpre
            · exact absurd h hpre
            · exact absurd h hpre
            · exact absurd h hpre
            · rfl
      · rw [splitOnce_none hd]
        simp only
        rw [mapE_error, C85_v2 s _ hP]
        have dv : ∀ v : Str, '.' ∈ v → version ≠ v := by rintro v hv rfl; exact hd hv
        constructor
        · intro h; exact Or.inl ⟨hd, h⟩
        · rintro (⟨-, h⟩ | ⟨⟨-, h⟩ | ⟨-, h⟩, -⟩ | ⟨⟨-, h⟩, -⟩ | ⟨-, h, -⟩ | ⟨h, -, -⟩)
          · exact h
          · exact absurd h (dv _ (by decide +kernel))
          · exact absurd h (dv _ (by decide +kernel))
          · exact absurd h (dv _ (by decide +kernel))
          · exact absurd h hd
          · exact absurd h hd
    · rw [splitOnce_none hcol]
      simp only
      have hu : ∀ {q t}, Pieces s (q :: t) → q = p := by
        intro q t h
        have h1 := pieces_iff.mp h
        rw [pieces_iff.mp hP] at h1
        exact (cons.inj h1).1.symm
      constructor
      · intro h; cases h
        exact .noColon p rest hP hr hcol
      · intro h
        cases h with
        | noSlash h => exact absurd hs h
        | noColon q t h _ hq => obtain rfl := hu h; rfl
        | v2 q t h _ pre' version' hp' =>
          obtain rfl := hu h
          exact absurd (by rw [hp']; simp) hcol
        | v3 q t h _ hq =>
          obtain rfl := hu h
          rcases hq with rfl | rfl <;> exact absurd (by decide +kernel) hcol
        | v4 t h => exact absurd (by rw [← hu h]; decide +kernel) hcol
        | version version' t h => exact absurd (by rw [← hu h]; exact mem_append_left _ (by decide +kernel)) hcol
        | pre q t h _ pre' version' hp' =>
          obtain rfl := hu h
          exact absurd (by rw [hp']; simp) hcol
  · have hno : ∀ {p rest}, Pieces s (p :: rest) → rest ≠ [] → False := by
      intro p rest h hr
      exact hs (by rw [h.1]; exact slash_mem_joinC hr)
    unfold Cvss.parse
    rw [splitOnce_none hs]
    constructor
    · intro h; cases h; exact .noSlash hs
    · intro h
      cases h with
      | noSlash h => rfl
      | noColon q t h hr => exact (hno h hr).elim
      | v2 q t h hr => exact (hno h hr).elim
      | v3 q t h hr => exact (hno h hr).elim
      | v4 t h hr => exact (hno h hr).elim
      | version _ t h hr => exact (hno h hr).elim
      | pre q t h hr => exact (hno h hr).elim

/-- **C85** Every text that does not parse has exactly one thing wrong with it, and a text that parses has none. -/
theorem C85_one (s : Str) : (∃ c, Cvss.fromStr s = .ok c) ↔ ¬ ∃ e, Wrong s e := by
  have h := (C85_same s).2.2.2
  constructor
  · rintro ⟨c, hc⟩ ⟨e, he⟩
    rw [(C85_cvss s e).mpr he] at h
    rw [hc] at h
    cases h
  · intro hn
    cases hp : Cvss.parse s with
    | ok c => rw [hp] at h; exact ⟨c, h⟩
    | error e => exact absurd ⟨e, (C85_cvss s e).mp hp⟩ hn

/-- **C85** … and that is unique. -/
theorem C85_unique (s : Str) (e e' : Error) (h : Wrong s e) (h' : Wrong s e') : e = e' := by
  have h1 := (C85_cvss s e).mpr h
  rw [(C85_cvss s e').mpr h'] at h1
  exact (Except.error.inj h1).symm

end Verif.Cvss
