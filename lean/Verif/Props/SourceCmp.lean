import Verif.Lemmas.SemverOrder
import Verif.Props.Source

/-!
# C27: comparison and hashing of source identifiers
-/

namespace Verif.Props

open Verif Verif.Lock Std

/-! ## Specification -/

/-- A git source. -/
def IsGit (s : SourceId) : Prop := ∃ r, s.kind = .git r

/-- The sources on which comparison is lawful: everything but git sources without a revision. -/
def Comparable (s : SourceId) : Prop := IsGit s → s.precise ≠ none

/-! ## Lemmas -/

private theorem strCmp_eq {a b : Str} : strCmp a b = .eq ↔ a = b :=
  ⟨fun h => LawfulEqCmp.eq_of_compare (cmp := List.compareLex compare) h,
   fun h => h ▸ ReflCmp.compare_self (cmp := List.compareLex compare)⟩

private theorem strCmp_swap (a b : Str) : strCmp a b = (strCmp b a).swap :=
  OrientedCmp.eq_swap (cmp := List.compareLex compare)

instance strCmp_trans : TransCmp strCmp :=
  inferInstanceAs (TransCmp (List.compareLex (compare : Char → Char → Ordering)))

instance optStrCmp_trans : TransCmp optStrCmp where
  eq_swap := by intro a b; cases a <;> cases b <;> simp only [optStrCmp, Ordering.swap]; exact strCmp_swap _ _
  isLE_trans := by
    intro a b c
    cases a <;> cases b <;> cases c <;> simp only [optStrCmp] <;>
      first
        | exact fun h1 h2 => TransCmp.isLE_trans (cmp := strCmp) h1 h2
        | simp

private theorem optStrCmp_eq {a b : Option Str} : optStrCmp a b = .eq ↔ a = b := by
  cases a <;> cases b <;> simp [optStrCmp, strCmp_eq]

private theorem refCmp_swap (a b : GitReference) : a.cmp b = (b.cmp a).swap := by
  cases a <;> cases b <;> simp only [GitReference.cmp, Ordering.swap] <;> exact strCmp_swap _ _

private theorem refCmp_eq {a b : GitReference} : a.cmp b = .eq ↔ a = b := by
  cases a <;> cases b <;> simp [GitReference.cmp, strCmp_eq]

private theorem kindCmp_swap (a b : SourceKind) : a.cmp b = (b.cmp a).swap := by
  cases a <;> cases b <;> first | exact refCmp_swap _ _ | rfl

private theorem kindCmp_eq {a b : SourceKind} : a.cmp b = .eq ↔ a = b := by
  cases a <;> cases b <;>
    first
      | (simp only [SourceKind.cmp, SourceKind.git.injEq]; exact refCmp_eq)
      | (constructor <;> intro h <;> first | rfl | (exact absurd h (by decide)) | cases h)

private theorem match_eq_then (o : Ordering) (p : Ordering) :
    (match o with | .eq => p | o => o) = o.then p := by cases o <;> rfl

private theorem cmp_then (a b : SourceId) : a.cmp b =
    (strCmp a.url.text b.url.text).then ((optStrCmp a.name b.name).then (cmpKindPrecise a b)) := by
  unfold SourceId.cmp
  cases strCmp a.url.text b.url.text <;> simp only [Ordering.then]
  cases optStrCmp a.name b.name <;> rfl

/-- The revision of a git source, nothing for other sources. -/
private def gitKey (s : SourceId) : Str :=
  match s.kind with
  | .git _ => s.precise.getD []
  | _ => []

private theorem cmpKindPrecise_key {a b : SourceId} (ha : Comparable a) (hb : Comparable b) :
    cmpKindPrecise a b = (compare a.kind.rank b.kind.rank).then (strCmp (gitKey a) (gitKey b)) := by
  obtain ⟨ua, ka, pa, na⟩ := a
  obtain ⟨ub, kb, pb, nb⟩ := b
  unfold Comparable IsGit at ha hb
  simp only at ha hb
  have hnil : strCmp [] [] = .eq := rfl
  cases ka with
  | git r =>
    cases kb with
    | git r' =>
      have h1 := ha ⟨r, rfl⟩
      have h2 := hb ⟨r', rfl⟩
      cases pa with
      | none => exact absurd rfl h1
      | some p =>
        cases pb with
        | none => exact absurd rfl h2
        | some q => rfl
    | _ => rfl
  | _ => cases kb <;> rfl

/-! ## Theorems -/

/-- When two sources compare equal: same URL text, same registry name, and either both git with the same
revision or a revision missing (the branch, tag or rev does not matter), or the same kind (the revision does
not matter). -/
theorem C27_eq_iff (a b : SourceId) : a.eq b = true ↔
    a.url.text = b.url.text ∧ a.name = b.name ∧
    ((IsGit a ∧ IsGit b ∧ (a.precise = none ∨ b.precise = none ∨ a.precise = b.precise)) ∨
     (¬ (IsGit a ∧ IsGit b) ∧ a.kind = b.kind)) := by
  have hk : cmpKindPrecise a b = .eq ↔
      ((IsGit a ∧ IsGit b ∧ (a.precise = none ∨ b.precise = none ∨ a.precise = b.precise)) ∨
       (¬ (IsGit a ∧ IsGit b) ∧ a.kind = b.kind)) := by
    obtain ⟨ua, ka, pa, na⟩ := a
    obtain ⟨ub, kb, pb, nb⟩ := b
    unfold IsGit
    simp only
    cases ka with
    | git r =>
      cases kb with
      | git r' =>
        simp only [cmpKindPrecise]
        cases pa <;> cases pb <;> simp [strCmp_eq]
      | _ => simp [cmpKindPrecise, SourceKind.cmp, SourceKind.rank]
    | _ => cases kb <;> simp [cmpKindPrecise, SourceKind.cmp, SourceKind.rank]
  unfold SourceId.eq
  rw [beq_iff_eq, cmp_then, Semver.then_eq_eq, Semver.then_eq_eq, strCmp_eq, optStrCmp_eq, hk]

/-- Comparison is antisymmetric: swapping the arguments reverses the answer. -/
theorem C27_cmp_swap (a b : SourceId) : b.cmp a = (a.cmp b).swap := by
  rw [cmp_then, cmp_then, Ordering.swap_then, Ordering.swap_then, ← strCmp_swap b.url.text,
    ← OrientedCmp.eq_swap (cmp := optStrCmp)]
  congr 2
  obtain ⟨ua, ka, pa, na⟩ := a
  obtain ⟨ub, kb, pb, nb⟩ := b
  cases ka with
  | git r =>
    cases kb with
    | git r' =>
      simp only [cmpKindPrecise]
      cases pa <;> cases pb <;> simp only [Ordering.swap]
      exact strCmp_swap _ _
    | _ => rfl
  | _ => cases kb <;> rfl

/-- Every source equals itself. -/
theorem C27_eq_refl (a : SourceId) : a.eq a = true := by
  rw [C27_eq_iff]
  refine ⟨rfl, rfl, ?_⟩
  by_cases h : IsGit a
  · exact Or.inl ⟨h, h, Or.inr (Or.inr rfl)⟩
  · exact Or.inr ⟨fun h' => h h'.1, rfl⟩

/-- Equality is symmetric. -/
theorem C27_eq_symm (a b : SourceId) (h : a.eq b = true) : b.eq a = true := by
  unfold SourceId.eq at h ⊢
  rw [C27_cmp_swap a b]
  rw [beq_iff_eq] at h ⊢
  rw [h]; rfl

/-- C27, the lawful part: on sources other than git sources without a revision, comparison is transitive. -/
theorem C27_cmp_trans {a b c : SourceId} (ha : Comparable a) (hb : Comparable b) (hc : Comparable c)
    (h1 : (a.cmp b).isLE = true) (h2 : (b.cmp c).isLE = true) : (a.cmp c).isLE = true := by
  rw [cmp_then, cmpKindPrecise_key ‹_› ‹_›] at h1 h2 ⊢
  have e : ∀ x y z w : Ordering, x.then (y.then (z.then w)) = (x.then y).then (z.then w) := by
    intro x y z w; cases x <;> cases y <;> rfl
  rw [e] at h1 h2 ⊢
  have t1 : TransCmp (fun x y : SourceId =>
      (strCmp x.url.text y.url.text).then (optStrCmp x.name y.name)) :=
    { eq_swap := by
        intro x y
        rw [Ordering.swap_then, ← strCmp_swap, ← OrientedCmp.eq_swap (cmp := optStrCmp)]
      isLE_trans := fun h h' => Semver.then_isLE_trans strCmp optStrCmp h h' }
  have t2 : TransCmp (fun x y : SourceId =>
      (compare x.kind.rank y.kind.rank).then (strCmp (gitKey x) (gitKey y))) :=
    { eq_swap := by
        intro x y
        rw [Ordering.swap_then, ← strCmp_swap, ← OrientedCmp.eq_swap]
      isLE_trans := fun h h' => Semver.then_isLE_trans compare strCmp h h' }
  exact @Semver.then_isLE_trans SourceId SourceId _ _ t1 t2 a b c a b c h1 h2

/-- C27, the lawful part: on the same sources, equality is transitive. -/
theorem C27_eq_trans {a b c : SourceId} (ha : Comparable a) (hb : Comparable b) (hc : Comparable c)
    (h1 : a.eq b = true) (h2 : b.eq c = true) : a.eq c = true := by
  rw [C27_eq_iff] at h1 h2 ⊢
  obtain ⟨u1, n1, k1⟩ := h1
  obtain ⟨u2, n2, k2⟩ := h2
  refine ⟨u1.trans u2, n1.trans n2, ?_⟩
  rcases k1 with ⟨g1, g2, p1⟩ | ⟨ng1, e1⟩
  · rcases k2 with ⟨_, g3, p2⟩ | ⟨ng2, e2⟩
    · left
      refine ⟨g1, g3, ?_⟩
      have q1 : a.precise = b.precise := by
        rcases p1 with p | p | p
        · exact absurd p (ha g1)
        · exact absurd p (hb g2)
        · exact p
      have q2 : b.precise = c.precise := by
        rcases p2 with p | p | p
        · exact absurd p (hb g2)
        · exact absurd p (hc g3)
        · exact p
      exact Or.inr (Or.inr (q1.trans q2))
    · exfalso
      obtain ⟨r, hr⟩ := g2
      exact ng2 ⟨⟨r, hr⟩, ⟨r, by rw [← e2, hr]⟩⟩
  · right
    rcases k2 with ⟨g2, g3, _⟩ | ⟨ng2, e2⟩
    · exfalso
      obtain ⟨r, hr⟩ := g2
      exact ng1 ⟨⟨r, by rw [e1, hr]⟩, ⟨r, hr⟩⟩
    · refine ⟨?_, e1.trans e2⟩
      rintro ⟨⟨r, hr⟩, _⟩
      exact ng1 ⟨⟨r, hr⟩, ⟨r, by rw [← e1, hr]⟩⟩

/-- C27, violation: with a git source without a revision in the middle, equality is not transitive, and the
ordering contradicts itself (`a = b`, `b = c`, `a < c`). -/
theorem C27_not_transitive : ∃ a b c : SourceId,
    IsGit a ∧ IsGit b ∧ IsGit c ∧ a.eq b = true ∧ b.eq c = true ∧ a.eq c = false ∧ a.cmp c = .lt := by
  refine ⟨gitBranch "main" (some "aaa"), gitBranch "main" none, gitBranch "main" (some "bbb"),
    ⟨_, rfl⟩, ⟨_, rfl⟩, ⟨_, rfl⟩, ?_, ?_, ?_, ?_⟩ <;> decide +kernel

/-- C27, violation: equal sources can hash differently.  Two git sources that differ in the presence of the
revision, two that differ in the branch, and the crates.io source from the constructor against the one read
from a lockfile. -/
theorem C27_hash_inconsistent :
    (∃ a b : SourceId, IsGit a ∧ IsGit b ∧ a.kind = b.kind ∧ a.eq b = true ∧ a.hashInput ≠ b.hashInput) ∧
    (∃ a b : SourceId, IsGit a ∧ IsGit b ∧ a.precise = b.precise ∧ a.precise ≠ none ∧ a.eq b = true ∧
      a.hashInput ≠ b.hashInput) ∧
    (∃ a b : SourceId, a = SourceId.default ∧ SourceId.fromUrl toyUrl (a.asUrl false) = .ok b ∧
      a.eq b = true ∧ a.hashInput ≠ b.hashInput) := by
  refine ⟨⟨gitBranch "main" (some "aaa"), gitBranch "main" none, ⟨_, rfl⟩, ⟨_, rfl⟩, rfl, ?_, ?_⟩,
    ⟨gitBranch "main" (some "aaa"), gitBranch "dev" (some "aaa"), ⟨_, rfl⟩, ⟨_, rfl⟩, rfl, ?_, ?_, ?_⟩,
    ⟨SourceId.default, { SourceId.default with precise := some "locked".toList }, rfl, ?_, ?_, ?_⟩⟩ <;>
    decide +kernel

/-- C27, the lawful part of hashing: equal sources with the same kind (for git: the same reference) and the same
revision field hash the same. -/
theorem C27_hash_consistent (a b : SourceId) (h : a.eq b = true) (hk : a.kind = b.kind)
    (hp : a.precise = b.precise) : a.hashInput = b.hashInput := by
  obtain ⟨hu, hn, _⟩ := (C27_eq_iff a b).mp h
  unfold SourceId.hashInput
  rw [hu, hk, hp, hn]

/-- Equality is finer than the default-registry test: equal sources are both the crates.io registry or both
not. -/
theorem C27_default_registry (a b : SourceId) (h : a.eq b = true) :
    a.isDefaultRegistry = b.isDefaultRegistry := by
  obtain ⟨hu, _, hk⟩ := (C27_eq_iff a b).mp h
  unfold SourceId.isDefaultRegistry
  rcases hk with ⟨⟨r, hr⟩, ⟨r', hr'⟩, _⟩ | ⟨_, hk⟩
  · rw [hr, hr']; simp
  · rw [hk, hu]

/-- Non-vacuity of the lawful part: a registry, a path and two git sources with revisions, ordered. -/
example : Comparable SourceId.default ∧ Comparable (gitBranch "x" (some "aaa")) ∧
    (gitBranch "x" (some "aaa")).cmp (gitBranch "y" (some "bbb")) = .lt := by
  refine ⟨?_, ?_, by decide +kernel⟩
  · rintro ⟨r, hr⟩; cases hr
  · intro _ h; cases h

end Verif.Props
