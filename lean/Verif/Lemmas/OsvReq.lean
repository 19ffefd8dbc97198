import Mathlib.Data.List.Pairwise
import Verif.Lemmas.Osv
import Verif.Spec.Versions

/-! # The range parser meets its specification -/

set_option linter.unusedSimpArgs false

namespace Verif.Osv

open Verif.Semver Verif.Spec

theorem precLT_iff {a b : Version} : PrecLT a b ↔ a.strip < b.strip := Version.strip_lt_strip.symm
theorem precLE_iff {a b : Version} : PrecLE a b ↔ a.strip ≤ b.strip := by
  rw [Version.strip_le_strip, PrecLE]; cases a.cmpPrec b <;> simp
theorem precEq_iff {a b : Version} : PrecEq a b ↔ a.strip = b.strip := by
  simp [PrecEq, Version.strip]

@[simp] theorem named_build (c : Comparator) : (named c).build = [] := rfl
@[simp] theorem named_strip (c : Comparator) : (named c).strip = named c := rfl
@[simp] theorem lowest_strip (a b c : Nat) : (lowest a b c).strip = lowest a b c := rfl
theorem caretLimit_build (c : Comparator) : (caretLimit c).build = [] := by
  unfold caretLimit; split <;> rfl
theorem tildeLimit_build (c : Comparator) : (tildeLimit c).build = [] := by
  unfold tildeLimit; split <;> rfl
@[simp] theorem caretLimit_strip (c : Comparator) : (caretLimit c).strip = caretLimit c :=
  Version.strip_eq (caretLimit_build c)
@[simp] theorem tildeLimit_strip (c : Comparator) : (tildeLimit c).strip = tildeLimit c :=
  Version.strip_eq (tildeLimit_build c)

theorem compToVer_eq (c : Comparator) : compToVer c = named c := rfl

theorem caretEnd_eq {c : Comparator} (h : c.minor = none → c.patch = none) :
    caretEnd c = some (caretLimit c) := by
  obtain ⟨op, major, minor, patch, pre⟩ := c
  rcases major with _ | major <;> rcases minor with _ | _ | minor <;> rcases patch with _ | patch <;>
    simp_all [caretEnd, caretLimit, compToVer, lowest, Version.release, preZero]

theorem tildeEnd_eq {c : Comparator} (h : c.minor = none → c.patch = none) :
    tildeEnd c = some (tildeLimit c) := by
  obtain ⟨op, major, minor, patch, pre⟩ := c
  cases minor <;> cases patch <;>
    simp_all [tildeEnd, tildeLimit, compToVer, lowest, Version.release, preZero]

theorem lt_of_nums {a b : Version}
    (h : a.major < b.major ∨ (a.major = b.major ∧ (a.minor < b.minor ∨
      (a.minor = b.minor ∧ a.patch < b.patch)))) : a < b := by
  rw [Version.lt_def, Version.cmp, Version.cmpPrec]
  rcases h with h | ⟨h1, h | ⟨h2, h⟩⟩
  · simp [Nat.compare_eq_lt.mpr h]
  · simp [Nat.compare_eq_eq.mpr h1, Nat.compare_eq_lt.mpr h]
  · simp [Nat.compare_eq_eq.mpr h1, Nat.compare_eq_eq.mpr h2, Nat.compare_eq_lt.mpr h]

theorem named_lt_caretLimit (c : Comparator) (h : c.minor = none → c.patch = none) :
    named c < caretLimit c := by
  apply lt_of_nums
  obtain ⟨op, major, minor, patch, pre⟩ := c
  rcases major with _ | major <;> rcases minor with _ | _ | minor <;> rcases patch with _ | patch <;>
    simp_all [named, caretLimit, lowest]

theorem named_lt_tildeLimit (c : Comparator) (h : c.minor = none → c.patch = none) :
    named c < tildeLimit c := by
  apply lt_of_nums
  obtain ⟨op, major, minor, patch, pre⟩ := c
  rcases minor with _ | minor <;> rcases patch with _ | patch <;>
    simp_all [named, tildeLimit, lowest]

/-- Range start described by `lowEnd`. -/
def boundOf : Option (Version × Bool) → Bound
  | none => .unbounded
  | some (v, true) => .inclusive v
  | some (v, false) => .exclusive v

/-- The interval of a requirement. -/
def toRange (r : VersionReq) : URange := { start := boundOf (lowEnd r), fin := boundOf (highEnd r) }

instance (c : Comparator) : Decidable (IsLower c) := by unfold IsLower; infer_instance
instance (c : Comparator) : Decidable (IsUpper c) := by unfold IsUpper; infer_instance
instance (a b : Version) : Decidable (PrecLT a b) := by unfold PrecLT; infer_instance
instance (a b : Version) : Decidable (PrecLE a b) := by unfold PrecLE; infer_instance
instance (a b : Version) : Decidable (PrecEq a b) := by unfold PrecEq; infer_instance
instance (a b : Comparator) : Decidable (Sensible a b) := by unfold Sensible; infer_instance
instance (r : VersionReq) : Decidable (Supported r) := by unfold Supported; split <;> infer_instance
instance (c : Comparator) (w : Version) : Decidable (Admits c w) := by
  unfold Admits; split <;> infer_instance
instance (r : VersionReq) (w : Version) : Decidable (Covers r w) := by
  unfold Covers; infer_instance

theorem new_two_lower {lo hi : Comparator} (h1 : IsLower lo) (h2 : IsUpper hi) :
    URange.new (boundOf (lowEnd ⟨[lo]⟩)) (boundOf (highEnd ⟨[hi]⟩)) =
      if Sensible lo hi then .ok ⟨boundOf (lowEnd ⟨[lo]⟩), boundOf (highEnd ⟨[hi]⟩)⟩ else .err := by
  have key : (boundOf (lowEnd ⟨[lo]⟩)).lessOrEqual (boundOf (highEnd ⟨[hi]⟩)) = true ↔ Sensible lo hi := by
    unfold Sensible
    rw [precLT_iff, precEq_iff]
    rcases h1 with h1 | h1 <;> rcases h2 with h2 | h2 <;>
      simp [lowEnd, highEnd, h1, h2, boundOf, loe_ii, loe_ie, loe_ei, loe_ee, le_iff_lt_or_eq]
  unfold URange.new
  by_cases h : Sensible lo hi
  · rw [if_pos (key.mpr h), if_pos h]
  · rw [if_neg (fun h' => h (key.mp h')), if_neg h]

/-- The parser accepts exactly the supported requirements and produces their interval. -/
theorem tryFrom_eq {r : VersionReq} (hwf : ReqWF r) :
    URange.tryFrom r = if Supported r then .ok (toRange r) else .err := by
  obtain ⟨cs⟩ := r
  match cs with
  | [] => rfl
  | [c] =>
    have hc : c.minor = none → c.patch = none := (hwf c (by simp)).1
    have e1 := caretEnd_eq hc
    have e2 := tildeEnd_eq hc
    have l1 := named_lt_caretLimit c hc
    have l2 := named_lt_tildeLimit c hc
    obtain ⟨op, major, minor, patch, pre⟩ := c
    cases op <;>
      simp [URange.tryFrom, tryFromLoop, tryFromStep, e1, e2, URange.new, Supported, toRange, lowEnd,
        highEnd, boundOf, compToVer_eq, loe_unb_left, loe_unb_right, loe_ii, loe_ie, l1, l2]
  | [a, b] =>
    have ha := (hwf a (by simp)).1
    have hb := (hwf b (by simp)).1
    by_cases h1 : IsLower a ∧ IsUpper b
    · have := new_two_lower h1.1 h1.2
      obtain ⟨h1a, h1b⟩ := h1
      have hs : Supported ⟨[a, b]⟩ ↔ Sensible a b := by
        simp only [Supported]
        constructor
        · rintro (h | h)
          · exact h.2.2
          · rcases h1a with h1a | h1a <;> rcases h.1 with h' | h' <;> simp_all
        · intro h; exact Or.inl ⟨h1a, h1b, h⟩
      simp only [hs]
      have e : toRange ⟨[a, b]⟩ = ⟨boundOf (lowEnd ⟨[a]⟩), boundOf (highEnd ⟨[b]⟩)⟩ := by
        rcases h1a with h1a | h1a <;> rcases h1b with h1b | h1b <;>
          simp [toRange, lowEnd, highEnd, h1a, h1b]
      rw [e, ← this]
      rcases h1a with h1a | h1a <;> rcases h1b with h1b | h1b <;>
        simp [URange.tryFrom, tryFromLoop, tryFromStep, h1a, h1b, lowEnd, highEnd, boundOf, compToVer_eq]
    · by_cases h2 : IsUpper a ∧ IsLower b
      · have := new_two_lower h2.2 h2.1
        obtain ⟨h1a, h1b⟩ := h2
        have hs : Supported ⟨[a, b]⟩ ↔ Sensible b a := by
          simp only [Supported]
          constructor
          · rintro (h | h)
            · exact absurd ⟨h.1, h.2.1⟩ h1
            · exact h.2.2
          · intro h; exact Or.inr ⟨h1a, h1b, h⟩
        simp only [hs]
        have e : toRange ⟨[a, b]⟩ = ⟨boundOf (lowEnd ⟨[b]⟩), boundOf (highEnd ⟨[a]⟩)⟩ := by
          rcases h1a with h1a | h1a <;> rcases h1b with h1b | h1b <;>
            simp [toRange, lowEnd, highEnd, h1a, h1b]
        rw [e, ← this]
        rcases h1a with h1a | h1a <;> rcases h1b with h1b | h1b <;>
          simp [URange.tryFrom, tryFromLoop, tryFromStep, h1a, h1b, lowEnd, highEnd, boundOf, compToVer_eq]
      · have hs : ¬ Supported ⟨[a, b]⟩ := by
          simp only [Supported]
          rintro (h | h)
          · exact h1 ⟨h.1, h.2.1⟩
          · exact h2 ⟨h.1, h.2.1⟩
        rw [if_neg hs]
        cases hoa : a.op <;> cases hob : b.op <;>
          simp_all [URange.tryFrom, tryFromLoop, tryFromStep, IsLower, IsUpper]
  | a :: b :: c :: rest =>
    simp [URange.tryFrom, Supported]

theorem toRange_valid {r : VersionReq} (hwf : ReqWF r) (h : Supported r) : (toRange r).Valid := by
  have h1 := tryFrom_eq hwf
  rw [if_pos h] at h1
  have hle : (toRange r).start.lessOrEqual (toRange r).fin = true := by
    unfold URange.tryFrom at h1
    split at h1
    · cases h1
    · cases hl : tryFromLoop r.comparators.length (.unbounded, .unbounded) r.comparators with
      | ok st =>
        rw [hl, Outcome.bind_ok, URange.new] at h1
        split at h1
        · rename_i hh
          rw [← Outcome.ok.inj h1]; exact hh
        · cases h1
      | err => rw [hl] at h1; cases h1
      | panic => rw [hl] at h1; cases h1
  refine ⟨hle, ?_, ?_⟩
  · show (boundOf (lowEnd r)).BF
    have : ∀ v b, lowEnd r = some (v, b) → v.build = [] := by
      intro v b hv
      obtain ⟨c, hc, hcv⟩ := List.exists_of_findSome?_eq_some hv
      cases hop : c.op <;> simp [hop] at hcv <;> simp [← hcv.1]
    cases hl : lowEnd r with
    | none => trivial
    | some p =>
      obtain ⟨v, b⟩ := p
      have := this v b hl
      cases b <;> exact this
  · show (boundOf (highEnd r)).BF
    have : ∀ v b, highEnd r = some (v, b) → v.build = [] := by
      intro v b hv
      obtain ⟨c, hc, hcv⟩ := List.exists_of_findSome?_eq_some hv
      cases hop : c.op <;> simp [hop] at hcv <;> simp [← hcv.1, caretLimit_build, tildeLimit_build]
    cases hl : highEnd r with
    | none => trivial
    | some p =>
      obtain ⟨v, b⟩ := p
      have := this v b hl
      cases b <;> exact this

theorem admits_iff_mem_single {c : Comparator} (h : c.op ≠ .wildcard) (w : Version) :
    (toRange ⟨[c]⟩).Mem w.strip ↔ Admits c w := by
  unfold URange.Mem toRange Admits
  cases hop : c.op <;>
    simp [lowEnd, highEnd, hop, boundOf, below, above, precLT_iff, precLE_iff, precEq_iff] at h ⊢
  · exact ⟨fun h => le_antisymm h.2 h.1, fun h => by rw [h]; exact ⟨le_refl _, le_refl _⟩⟩

/-- Membership in the interval is coverage by the requirement. -/
theorem mem_toRange {r : VersionReq} (h : Supported r) (w : Version) :
    (toRange r).Mem w.strip ↔ Covers r w := by
  obtain ⟨cs⟩ := r
  match cs with
  | [] => simp [toRange, lowEnd, highEnd, boundOf, URange.Mem, below, above, Covers]
  | [c] => rw [admits_iff_mem_single h]; simp [Covers]
  | [a, b] =>
    rcases h with ⟨h1, h2, -⟩ | ⟨h1, h2, -⟩ <;>
      rcases h1 with h1 | h1 <;> rcases h2 with h2 | h2 <;>
      simp [URange.Mem, toRange, Covers, Admits, lowEnd, highEnd, h1, h2, boundOf, below, above, precLT_iff,
        precLE_iff, and_comm]
  | a :: b :: c :: rest => exact h.elim

theorem endsBefore_iff {a b : VersionReq} (ha : (toRange a).Valid) (hb : (toRange b).Valid) :
    Before (toRange a) (toRange b) ↔ EndsBefore a b := by
  have h1 := ha.bff
  have h2 := hb.bfs
  unfold Before EndsBefore
  simp only [toRange] at *
  rw [← Bool.not_eq_true]
  rcases hh : highEnd a with _ | ⟨u, ui⟩ <;> rcases hl : lowEnd b with _ | ⟨l, li⟩ <;>
    simp only [hh, hl, boundOf, loe_unb_left, loe_unb_right] at *
  · simp
  · simp
  · simp
  · cases ui <;> cases li <;> simp only [boundOf, Bound.BF, loe_ii, loe_ie, loe_ei, loe_ee] at * <;>
      rw [precLT_iff, precEq_iff, Version.strip_eq h1, Version.strip_eq h2]
    · simp only [Bool.false_eq_true, and_self, not_false_eq_true, and_true, _root_.not_lt]
      exact _root_.le_iff_lt_or_eq
    · simp only [Bool.false_eq_true, false_and, not_false_eq_true, and_true, _root_.not_lt]
      exact _root_.le_iff_lt_or_eq
    · simp only [Bool.false_eq_true, and_false, not_false_eq_true, and_true, _root_.not_lt]
      exact _root_.le_iff_lt_or_eq
    · simp

theorem overlaps_eq_false_iff {a b : VersionReq} (ha : (toRange a).Valid) (hb : (toRange b).Valid) :
    (toRange a).overlaps (toRange b) = false ↔ Apart a b := by
  rw [Apart, ← endsBefore_iff ha hb, ← endsBefore_iff hb ha]
  simp only [URange.overlaps, Bool.and_eq_false_iff, Before]
  exact or_comm

theorem pointThenOpen_iff {a b : VersionReq} (ha : (toRange a).Valid) (hb : (toRange b).Valid) :
    PointThenOpen a b ↔
      ∃ v, (toRange a).start = .inclusive v ∧ (toRange a).fin = .inclusive v ∧
        (toRange b).start = .exclusive v := by
  have h1 := ha.bfs
  have h2 := ha.bff
  have h3 := hb.bfs
  simp only [toRange] at *
  unfold PointThenOpen
  rcases hla : lowEnd a with _ | ⟨l, _ | _⟩ <;> rcases hha : highEnd a with _ | ⟨u, _ | _⟩ <;>
    rcases hlb : lowEnd b with _ | ⟨m, _ | _⟩ <;>
    simp only [hla, hha, hlb, boundOf, Bound.BF, precEq_iff, reduceCtorEq, and_false, false_and,
      exists_false, Bound.inclusive.injEq, Bound.exclusive.injEq] at *
  rw [Version.strip_eq h1, Version.strip_eq h2, Version.strip_eq h3]
  constructor
  · rintro ⟨rfl, rfl⟩; exact ⟨_, rfl, rfl, rfl⟩
  · rintro ⟨v, rfl, rfl, rfl⟩; exact ⟨rfl, rfl⟩

theorem point_of_before {a b : URange} (ha : a.Valid) (hab : Before a b) (hs : sameStart a b = true) :
    ∃ v, a.start = .inclusive v ∧ a.fin = .inclusive v ∧ b.start = .exclusive v := by
  obtain ⟨as, af⟩ := a
  obtain ⟨bs, bf⟩ := b
  have hle := ha.le
  simp only [Before] at hab
  rw [← Bool.not_eq_true] at hab
  cases as <;> cases af <;> cases bs <;>
    simp only [sameStart, Bound.version, decide_eq_true_eq, loe_ii, loe_ie, loe_ei, loe_ee,
      loe_unb_left, loe_unb_right, not_true_eq_false, Bound.inclusive.injEq, Bound.exclusive.injEq,
      reduceCtorEq, _root_.not_lt, _root_.not_le] at *
  all_goals first
    | (subst hs; exfalso; order)
    | (subst hs; exact ⟨_, rfl, le_antisymm hab hle, rfl⟩)

/-- Two non-overlapping ranges have the same start version exactly when one is that version alone and the
other begins just after it. -/
theorem sameStart_iff {a b : VersionReq} (ha : (toRange a).Valid) (hb : (toRange b).Valid)
    (hap : Apart a b) :
    sameStart (toRange a) (toRange b) = true ↔ PointThenOpen a b ∨ PointThenOpen b a := by
  rw [pointThenOpen_iff ha hb, pointThenOpen_iff hb ha]
  constructor
  · intro h
    rcases hap with hap | hap
    · exact Or.inl (point_of_before ha ((endsBefore_iff ha hb).mpr hap) h)
    · rw [sameStart_comm] at h
      exact Or.inr (point_of_before hb ((endsBefore_iff hb ha).mpr hap) h)
  · rintro (⟨v, h1, -, h2⟩ | ⟨v, h1, -, h2⟩) <;> simp [sameStart, h1, h2, Bound.version]

theorem mapList_tryFrom {rs : List VersionReq} (hwf : ∀ r ∈ rs, ReqWF r) :
    Outcome.mapList URange.tryFrom rs =
      if ∀ r ∈ rs, Supported r then .ok (rs.map toRange) else .err := by
  induction rs with
  | nil => simp [Outcome.mapList]
  | cons r rs ih =>
    have ih := ih (fun r hr => hwf r (by simp [hr]))
    rw [Outcome.mapList, tryFrom_eq (hwf r (by simp)), ih]
    by_cases h1 : Supported r <;> by_cases h2 : ∀ r ∈ rs, Supported r
    · rw [if_pos h1, if_pos h2, if_pos (by simpa using ⟨h1, h2⟩)]; rfl
    · rw [if_pos h1, if_neg h2, if_neg (by simp only [List.forall_mem_cons]; exact fun h => h2 h.2)]
    · have h3 : ¬ ∀ r' ∈ r :: rs, Supported r' := fun h => h1 (h r (by simp))
      rw [if_neg h1, if_neg h3]
    · have h3 : ¬ ∀ r' ∈ r :: rs, Supported r' := fun h => h1 (h r (by simp))
      rw [if_neg h1, if_neg h3]

instance (a b : VersionReq) : Decidable (EndsBefore a b) := by unfold EndsBefore; split <;> infer_instance
instance (a b : VersionReq) : Decidable (Apart a b) := by unfold Apart; infer_instance
instance (a b : VersionReq) : Decidable (PointThenOpen a b) := by
  unfold PointThenOpen; split <;> infer_instance

/-- Every requirement is supported and any two are apart. -/
def Acceptable (rs : List VersionReq) : Prop := (∀ r ∈ rs, Supported r) ∧ rs.Pairwise Apart

/-- Some pair is of the form `=v`, `>v`. -/
def HasPoint (rs : List VersionReq) : Prop := ∃ a ∈ rs, ∃ b ∈ rs, PointThenOpen a b

instance (rs : List VersionReq) : Decidable (Acceptable rs) := by unfold Acceptable; infer_instance
instance (rs : List VersionReq) : Decidable (HasPoint rs) := by unfold HasPoint; infer_instance

theorem not_pointThenOpen_self (a : VersionReq) : ¬ PointThenOpen a a := by
  unfold PointThenOpen
  rcases lowEnd a with _ | ⟨l, _ | _⟩ <;> rcases highEnd a with _ | ⟨u, _ | _⟩ <;> simp

theorem anyOverlap_map {rs : List VersionReq} (hwf : ∀ r ∈ rs, ReqWF r) (hs : ∀ r ∈ rs, Supported r) :
    anyOverlap (rs.map toRange) = false ↔ rs.Pairwise Apart := by
  rw [anyOverlap_eq_false, List.pairwise_map]
  constructor <;> intro h <;> refine List.Pairwise.imp_of_mem ?_ h <;> intro a b ha hb hab
  · exact (overlaps_eq_false_iff (toRange_valid (hwf a ha) (hs a ha)) (toRange_valid (hwf b hb) (hs b hb))).mp hab
  · exact (overlaps_eq_false_iff (toRange_valid (hwf a ha) (hs a ha)) (toRange_valid (hwf b hb) (hs b hb))).mpr hab

theorem anySameStart_map {rs : List VersionReq} (hwf : ∀ r ∈ rs, ReqWF r) (h : Acceptable rs) :
    anySameStart (rs.map toRange) = true ↔ HasPoint rs := by
  have hv : ∀ r ∈ rs, (toRange r).Valid := fun r hr => toRange_valid (hwf r hr) (h.1 r hr)
  have key : anySameStart (rs.map toRange) = false ↔
      rs.Pairwise (fun a b => ¬ (PointThenOpen a b ∨ PointThenOpen b a)) := by
    rw [anySameStart_eq_false, List.pairwise_map]
    constructor <;> intro h' <;> refine List.Pairwise.imp_of_mem ?_ (h'.and h.2) <;>
      intro a b ha hb hab
    · rw [← sameStart_iff (hv a ha) (hv b hb) hab.2, hab.1]; simp
    · rw [← sameStart_iff (hv a ha) (hv b hb) hab.2] at hab; simpa using hab.1
  rw [← not_iff_not, Bool.not_eq_true, key, HasPoint]
  constructor
  · intro hp ⟨a, ha, b, hb, hab⟩
    have hsymm : ∀ {x y : VersionReq}, ¬ (PointThenOpen x y ∨ PointThenOpen y x) →
        ¬ (PointThenOpen y x ∨ PointThenOpen x y) := fun h h' => h h'.symm
    by_cases hne : a = b
    · subst hne; exact not_pointThenOpen_self a hab
    · have : Std.Symm (fun x y => ¬ (PointThenOpen x y ∨ PointThenOpen y x)) := ⟨fun _ _ => hsymm⟩
      exact hp.forall ha hb hne (Or.inl hab)
  · intro hn
    refine List.pairwise_iff_forall_sublist.mpr ?_
    intro a b hsub hab
    have ha : a ∈ rs := hsub.subset (by simp)
    have hb : b ∈ rs := hsub.subset (by simp)
    rcases hab with hab | hab
    · exact hn ⟨a, ha, b, hb, hab⟩
    · exact hn ⟨b, hb, a, ha, hab⟩

/-- Everything about the conversion in one place. -/
theorem unaffected_spec (us ps : List VersionReq) (hwf : ∀ r ∈ us ++ ps, ReqWF r) :
    (¬ Acceptable (us ++ ps) ∧ unaffectedToOsvRanges us ps = .err) ∨
    (Acceptable (us ++ ps) ∧ HasPoint (us ++ ps) ∧ unaffectedToOsvRanges us ps = .panic) ∨
    (Acceptable (us ++ ps) ∧ ¬ HasPoint (us ++ ps) ∧
      ∃ l rs, l.Perm ((us ++ ps).map toRange) ∧ l.Pairwise Before ∧ (∀ r ∈ l, r.Valid) ∧
        complement l = .ok rs ∧ unaffectedToOsvRanges us ps = .ok rs) := by
  unfold unaffectedToOsvRanges
  generalize us ++ ps = qs at *
  rw [mapList_tryFrom hwf]
  by_cases hs : ∀ r ∈ qs, Supported r
  swap
  · exact Or.inl ⟨fun h => hs h.1, by rw [if_neg hs]; rfl⟩
  rw [if_pos hs, Outcome.bind_ok]
  have hv : ∀ r ∈ qs.map toRange, r.Valid := by
    intro r hr
    obtain ⟨q, hq, rfl⟩ := List.mem_map.mp hr
    exact toRange_valid (hwf q hq) (hs q hq)
  have hov := anyOverlap_map hwf hs
  by_cases hap : qs.Pairwise Apart
  swap
  · refine Or.inl ⟨fun h => hap h.2, ?_⟩
    have : anyOverlap (qs.map toRange) = true := by
      by_contra hc; exact hap (hov.mp (by simpa using hc))
    rw [if_pos this]
    have : qs ≠ [] := by rintro rfl; simp at hap
    simp [this]
  have hacc : Acceptable qs := ⟨hs, hap⟩
  have hss := anySameStart_map hwf hacc
  by_cases hp : HasPoint qs
  · refine Or.inr (Or.inl ⟨hacc, hp, ?_⟩)
    have : qs ≠ [] := by rintro rfl; simp [HasPoint] at hp
    rw [if_neg (by simpa using this), if_neg (by simp [hov.mpr hap]), sortRanges, if_pos (hss.mpr hp)]
    rfl
  · refine Or.inr (Or.inr ⟨hacc, hp, ?_⟩)
    have hss' : anySameStart (qs.map toRange) = false := by
      by_contra hc; exact hp (hss.mp (by simpa using hc))
    have hperm := List.perm_insertionSort startLE (qs.map toRange)
    have hsort := sorted_before hv (hov.mpr hap) hss'
    have hv' : ∀ r ∈ (qs.map toRange).insertionSort startLE, r.Valid :=
      fun r hr => hv r (hperm.mem_iff.mp hr)
    obtain ⟨rs, hrs, -⟩ := complement_spec _ hv' hsort
    refine ⟨_, rs, hperm, hsort, hv', hrs, ?_⟩
    by_cases hq : qs = []
    · subst hq; simp [complement] at hrs; simp [hrs]
    · rw [if_neg (by simpa using hq), if_neg (by simp [hov.mpr hap]), sortRanges, if_neg (by simp [hss']),
        Outcome.bind_ok, hrs]

end Verif.Osv
