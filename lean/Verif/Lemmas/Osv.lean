import Mathlib.Tactic.Order
import Verif.Model.Osv

/-! # Facts about bounds, intervals and their complement -/

set_option linter.unusedSimpArgs false

namespace Verif.Osv

open Verif.Semver Std

/-! ### `increment` is the successor in precedence -/

theorem num_zero_isLE (i : Ident) : (Ident.cmp (.num 0) i).isLE := by
  cases i with
  | num n => simp only [Ident.cmp]; cases h : compare 0 n <;> simp_all [Nat.compare_eq_gt]
  | alpha s => simp [Ident.cmp]

theorem compareLex_append_zero (p q : List Ident) :
    (List.compareLex Ident.cmp (p ++ [.num 0]) q).isLE ↔ List.compareLex Ident.cmp p q = .lt := by
  induction p generalizing q with
  | nil =>
    cases q with
    | nil => simp [List.compareLex]
    | cons j q =>
      have h0 := num_zero_isLE j
      simp only [List.nil_append, List.compareLex]
      cases h : Ident.cmp (.num 0) j <;> simp_all
      cases q <;> simp [List.compareLex]
  | cons i p ih =>
    cases q with
    | nil => simp [List.compareLex]
    | cons j q =>
      simp only [List.cons_append, List.compareLex]
      cases h : Ident.cmp i j <;> simp_all

theorem Pre.cmp_preZero_isLE (q : Pre) : (Pre.cmp preZero q).isLE := by
  cases q with
  | nil => simp [Pre.cmp, preZero]
  | cons j q =>
    have h0 := num_zero_isLE j
    simp only [Pre.cmp, preZero, List.compareLex]
    cases h : Ident.cmp (.num 0) j <;> simp_all
    cases q <;> simp [List.compareLex]

theorem Pre.cmp_append_zero {p q : Pre} (hp : p ≠ []) :
    (Pre.cmp (p ++ preZero) q).isLE ↔ Pre.cmp p q = .lt := by
  cases p with
  | nil => exact absurd rfl hp
  | cons i p =>
    cases q with
    | nil => simp [Pre.cmp]
    | cons j q => exact compareLex_append_zero (i :: p) (j :: q)

/-- `increment v` is the least version above `v` in precedence. -/
theorem increment_le_iff (v w : Version) :
    (increment v).strip ≤ w.strip ↔ v.strip < w.strip := by
  rw [Version.strip_le_strip, Version.strip_lt_strip]
  unfold increment
  by_cases hp : v.pre.isEmpty
  · have hp' : v.pre = [] := List.isEmpty_iff.mp hp
    rw [if_pos hp]
    simp only [Version.cmpPrec, hp']
    generalize compare v.major w.major = o1
    generalize compare v.minor w.minor = o2
    rcases o1 with _ | _ | _ <;> try (simp [Ordering.then]; done)
    rcases o2 with _ | _ | _ <;> try (simp [Ordering.then]; done)
    simp only [Ordering.then]
    have hz : (Pre.cmp preZero w.pre).isLE := Pre.cmp_preZero_isLE _
    have hn : Pre.cmp [] w.pre ≠ .lt := by cases w.pre <;> simp [Pre.cmp]
    rcases Nat.lt_trichotomy v.patch w.patch with h | h | h
    · rw [Nat.compare_eq_lt.mpr h]
      rcases Nat.lt_or_ge (v.patch + 1) w.patch with h' | h'
      · rw [Nat.compare_eq_lt.mpr h']; simp
      · have : v.patch + 1 = w.patch := by omega
        rw [Nat.compare_eq_eq.mpr this]; simpa using hz
    · rw [Nat.compare_eq_eq.mpr h]
      have : w.patch < v.patch + 1 := by omega
      rw [Nat.compare_eq_gt.mpr this]; simpa using hn
    · rw [Nat.compare_eq_gt.mpr h]
      have : w.patch < v.patch + 1 := by omega
      rw [Nat.compare_eq_gt.mpr this]; simp
  · have hp' : v.pre ≠ [] := fun h => hp (by simp [h])
    rw [if_neg hp]
    simp only [Version.cmpPrec]
    have := Pre.cmp_append_zero (q := w.pre) hp'
    generalize compare v.major w.major = o1
    generalize compare v.minor w.minor = o2
    generalize compare v.patch w.patch = o3
    rcases o1 with _ | _ | _ <;> try (simp [Ordering.then]; done)
    rcases o2 with _ | _ | _ <;> try (simp [Ordering.then]; done)
    rcases o3 with _ | _ | _ <;> try (simp [Ordering.then]; done)
    exact this

@[simp] theorem increment_build (v : Version) : (increment v).build = [] := by
  unfold increment; split <;> rfl

/-- For build-free versions `increment` is the successor. -/
theorem increment_le {v w : Version} (hv : v.build = []) (hw : w.build = []) :
    increment v ≤ w ↔ v < w := by
  have := increment_le_iff v w
  rwa [Version.strip_eq hv, Version.strip_eq hw, Version.strip_eq (increment_build v)] at this

theorem lt_increment {v w : Version} (hv : v.build = []) (hw : w.build = []) :
    w < increment v ↔ w ≤ v := by
  rw [← _root_.not_le, increment_le hv hw, _root_.not_lt]

/-! ### Intervals -/

/-- All versions in the bound are build-free. -/
def Bound.BF : Bound → Prop
  | .unbounded => True
  | .exclusive v => v.build = []
  | .inclusive v => v.build = []

/-- `w` is below the start bound. -/
def below (b : Bound) (w : Version) : Prop :=
  match b with
  | .unbounded => False
  | .exclusive v => w ≤ v
  | .inclusive v => w < v

/-- `w` is above the end bound. -/
def above (b : Bound) (w : Version) : Prop :=
  match b with
  | .unbounded => False
  | .exclusive v => v ≤ w
  | .inclusive v => v < w

/-- Membership in an interval. -/
def URange.Mem (r : URange) (w : Version) : Prop := ¬ below r.start w ∧ ¬ above r.fin w

/-- Validity: what `UnaffectedRange::new` checks, plus build-freeness. -/
structure URange.Valid (r : URange) : Prop where
  le : r.start.lessOrEqual r.fin = true
  bfs : r.start.BF
  bff : r.fin.BF

/-- `a` ends strictly before `b` starts. -/
def Before (a b : URange) : Prop := b.start.lessOrEqual a.fin = false

theorem loe_unb_left (b : Bound) : Bound.lessOrEqual .unbounded b = true := rfl
theorem loe_unb_right (b : Bound) : Bound.lessOrEqual b .unbounded = true := by cases b <;> rfl
theorem loe_ii {s e : Version} : Bound.lessOrEqual (.inclusive s) (.inclusive e) = true ↔ s ≤ e := by
  simp only [Bound.lessOrEqual]; rw [_root_.le_iff_lt_or_eq]; split <;> simp_all
theorem loe_ie {s e : Version} : Bound.lessOrEqual (.inclusive s) (.exclusive e) = true ↔ s < e := by
  simp [Bound.lessOrEqual]
theorem loe_ei {s e : Version} : Bound.lessOrEqual (.exclusive s) (.inclusive e) = true ↔ s < e := by
  simp [Bound.lessOrEqual]
theorem loe_ee {s e : Version} : Bound.lessOrEqual (.exclusive s) (.exclusive e) = true ↔ s < e := by
  simp [Bound.lessOrEqual]

theorem before_between {a b : URange} (h : Before a b) : ∃ r, between a b = some r := by
  obtain ⟨as, af⟩ := a
  obtain ⟨bs, bf⟩ := b
  cases af <;> cases bs <;> simp_all [Before, Bound.lessOrEqual, between]

theorem between_affects {a b : URange} (ha : a.fin.BF) (hb : b.start.BF) {r : OsvRange}
    (h : between a b = some r) {w : Version} (hw : w.build = []) :
    r.affects w = true ↔ above a.fin w ∧ below b.start w := by
  obtain ⟨as, af⟩ := a
  obtain ⟨bs, bf⟩ := b
  cases af <;> cases bs <;> simp_all only [between, Bound.BF, Option.some.injEq, reduceCtorEq] <;>
    subst h <;>
    simp only [OsvRange.affects, above, below, Bool.and_eq_true, decide_eq_true_eq, ge_iff_le,
      increment_le ha hw, lt_increment hb hw]

theorem leading_affects {a : URange} (ha : a.start.BF) {w : Version} (hw : w.build = []) :
    (leading a).any (fun r => r.affects w) = true ↔ below a.start w := by
  obtain ⟨as, af⟩ := a
  cases as <;> simp_all [leading, OsvRange.affects, below, Bound.BF, lt_increment]

theorem trailing_affects {a : URange} (ha : a.fin.BF) {w : Version} (hw : w.build = []) :
    (trailing a).any (fun r => r.affects w) = true ↔ above a.fin w := by
  obtain ⟨as, af⟩ := a
  cases af <;> simp_all [trailing, OsvRange.affects, above, Bound.BF, increment_le]

/-- A version below the start of `b` is below the start of anything after `b`. -/
theorem below_of_before {b c : URange} (hb : b.Valid) (h : Before b c) {w : Version}
    (hw : below b.start w) : below c.start w := by
  obtain ⟨bs, bf⟩ := b
  obtain ⟨cs, cf⟩ := c
  have hle := hb.le
  cases bs <;> cases bf <;> cases cs <;>
    simp only [Before, Bound.lessOrEqual, below, reduceCtorEq, decide_eq_true_eq,
      Bool.false_eq_true] at * <;> (try split at hle) <;> (try split at h) <;> simp_all <;> order

theorem above_of_before {a b : URange} (hb : b.Valid) (h : Before a b) {w : Version}
    (hw : above b.fin w) : above a.fin w := by
  obtain ⟨as, af⟩ := a
  obtain ⟨bs, bf⟩ := b
  have hle := hb.le
  cases bs <;> cases bf <;> cases af <;>
    simp only [Before, Bound.lessOrEqual, above, reduceCtorEq, decide_eq_true_eq,
      Bool.false_eq_true] at * <;> (try split at hle) <;> (try split at h) <;> simp_all <;> order

theorem not_below_and_above {b : URange} (hb : b.Valid) {w : Version} :
    ¬ (below b.start w ∧ above b.fin w) := by
  obtain ⟨bs, bf⟩ := b
  have hle := hb.le
  rintro ⟨h1, h2⟩
  cases bs <;> cases bf <;>
    simp only [Bound.lessOrEqual, above, below, decide_eq_true_eq] at * <;>
    (try split at hle) <;> simp_all <;> order

theorem complementFrom_spec (a : URange) (rest : List URange) (hv : ∀ r ∈ a :: rest, r.Valid)
    (hs : (a :: rest).Pairwise Before) :
    ∃ rs, complementFrom a rest = .ok rs ∧ ∀ w : Version, w.build = [] →
      (rs.any (fun r => r.affects w) = true ↔ above a.fin w ∧ ∀ b ∈ rest, ¬ b.Mem w) := by
  induction rest generalizing a with
  | nil =>
    refine ⟨trailing a, rfl, fun w hw => ?_⟩
    rw [trailing_affects (hv a (by simp)).bff hw]; simp
  | cons b rest ih =>
    have hab : Before a b := (List.pairwise_cons.mp hs).1 b (by simp)
    have hbrest : (b :: rest).Pairwise Before := (List.pairwise_cons.mp hs).2
    have hbv : b.Valid := hv b (by simp)
    have hav : a.Valid := hv a (by simp)
    obtain ⟨r, hr⟩ := before_between hab
    obtain ⟨rs, hrs, hspec⟩ := ih b (fun r hr => hv r (by simp_all)) hbrest
    refine ⟨r :: rs, ?_, fun w hw => ?_⟩
    · simp [complementFrom, hr, hrs]
    · rw [List.any_cons, Bool.or_eq_true, between_affects hav.bff hbv.bfs hr hw, hspec w hw]
      constructor
      · rintro (⟨h1, h2⟩ | ⟨h1, h2⟩)
        · refine ⟨h1, ?_⟩
          intro c hc
          rcases List.mem_cons.mp hc with rfl | hc
          · exact fun hm => hm.1 h2
          · exact fun hm => hm.1 (below_of_before hbv ((List.pairwise_cons.mp hbrest).1 c hc) h2)
        · refine ⟨above_of_before hbv hab h1, ?_⟩
          intro c hc
          rcases List.mem_cons.mp hc with rfl | hc
          · exact fun hm => hm.2 h1
          · exact h2 c hc
      · rintro ⟨h1, h2⟩
        have hb := h2 b (by simp)
        by_cases hbel : below b.start w
        · exact Or.inl ⟨h1, hbel⟩
        · refine Or.inr ⟨?_, fun c hc => h2 c (by simp [hc])⟩
          by_contra hab'
          exact hb ⟨hbel, hab'⟩

theorem complement_spec (l : List URange) (hv : ∀ r ∈ l, r.Valid) (hs : l.Pairwise Before) :
    ∃ rs, complement l = .ok rs ∧ ∀ w : Version, w.build = [] →
      (rs.any (fun r => r.affects w) = true ↔ ∀ b ∈ l, ¬ b.Mem w) := by
  cases l with
  | nil =>
    refine ⟨_, rfl, fun w _ => ?_⟩
    simp [OsvRange.affects]
  | cons a rest =>
    obtain ⟨rs, hrs, hspec⟩ := complementFrom_spec a rest hv hs
    have hav : a.Valid := hv a (by simp)
    refine ⟨leading a ++ rs, by simp [complement, hrs], fun w hw => ?_⟩
    rw [List.any_append, Bool.or_eq_true, leading_affects hav.bfs hw, hspec w hw]
    constructor
    · rintro (h | ⟨h1, h2⟩)
      · intro c hc
        rcases List.mem_cons.mp hc with rfl | hc
        · exact fun hm => hm.1 h
        · exact fun hm => hm.1 (below_of_before hav ((List.pairwise_cons.mp hs).1 c hc) h)
      · intro c hc
        rcases List.mem_cons.mp hc with rfl | hc
        · exact fun hm => hm.2 h1
        · exact h2 c hc
    · intro h
      by_cases hbel : below a.start w
      · exact Or.inl hbel
      · refine Or.inr ⟨?_, fun c hc => h c (by simp [hc])⟩
        by_contra hab'
        exact h a (by simp) ⟨hbel, hab'⟩

/-! ### Sorting -/

theorem anyOverlap_eq_false {l : List URange} :
    anyOverlap l = false ↔ l.Pairwise (fun a b => a.overlaps b = false) := by
  induction l with
  | nil => simp [anyOverlap]
  | cons a l ih => simp [anyOverlap, ih, List.pairwise_cons]

theorem anySameStart_eq_false {l : List URange} :
    anySameStart l = false ↔ l.Pairwise (fun a b => sameStart a b = false) := by
  induction l with
  | nil => simp [anySameStart]
  | cons a l ih => simp [anySameStart, ih, List.pairwise_cons]

theorem overlaps_comm (a b : URange) : a.overlaps b = b.overlaps a := by
  simp [URange.overlaps, Bool.and_comm]

theorem sameStart_comm (a b : URange) : sameStart a b = sameStart b a := by
  unfold sameStart
  cases a.start.version <;> cases b.start.version <;> simp [eq_comm]

theorem startLE_total (a b : URange) : startLE a b ∨ startLE b a := by
  unfold startLE
  cases a.start.version <;> cases b.start.version <;> simp
  exact _root_.le_total _ _

theorem startLE_trans (a b c : URange) : startLE a b → startLE b c → startLE a c := by
  unfold startLE
  cases a.start.version <;> cases b.start.version <;> cases c.start.version <;> simp
  exact fun h1 h2 => _root_.le_trans h1 h2

instance : Std.Total startLE := ⟨startLE_total⟩
instance : IsTrans URange startLE := ⟨startLE_trans⟩

theorem before_of_sorted {a b : URange} (ha : a.Valid) (hb : b.Valid) (hno : a.overlaps b = false)
    (hss : sameStart a b = false) (hle : startLE a b) : Before a b := by
  obtain ⟨as, af⟩ := a
  obtain ⟨bs, bf⟩ := b
  have h1 := ha.le
  have h2 := hb.le
  simp only [Before]
  simp only [URange.overlaps, Bool.and_eq_false_iff] at hno
  rcases hno with hno | hno
  · exfalso
    rw [← Bool.not_eq_true] at hno
    cases as <;> cases bf <;> cases bs <;>
      simp only [loe_ii, loe_ie, loe_ei, loe_ee, loe_unb_left, loe_unb_right, sameStart, startLE,
        Bound.version, decide_eq_false_iff_not, not_true_eq_false, _root_.not_lt, _root_.not_le] at * <;> order
  · exact hno

theorem sorted_before {l : List URange} (hv : ∀ r ∈ l, r.Valid) (hno : anyOverlap l = false)
    (hss : anySameStart l = false) : (l.insertionSort startLE).Pairwise Before := by
  have hp := List.perm_insertionSort startLE l
  have h1 : (l.insertionSort startLE).Pairwise (fun a b => a.overlaps b = false) := by
    refine (hp.symm.pairwise_iff ?_).mp (anyOverlap_eq_false.mp hno)
    intro a b h; rwa [overlaps_comm]
  have h2 : (l.insertionSort startLE).Pairwise (fun a b => sameStart a b = false) := by
    refine (hp.symm.pairwise_iff ?_).mp (anySameStart_eq_false.mp hss)
    intro a b h; rwa [sameStart_comm]
  have h3 : (l.insertionSort startLE).Pairwise startLE := List.pairwise_insertionSort startLE l
  have hv' : ∀ r ∈ l.insertionSort startLE, r.Valid := fun r hr => hv r (hp.mem_iff.mp hr)
  have h12 := (h1.and h2).and h3
  exact List.Pairwise.imp_of_mem (fun ha hb h => before_of_sorted (hv' _ ha) (hv' _ hb) h.1.1 h.1.2 h.2) h12

end Verif.Osv
