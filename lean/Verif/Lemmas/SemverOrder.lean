import Verif.Model.Semver

/-! # Semver ordering is a linear order -/

namespace Verif

open Std

/-- A lawful three-way comparison gives a linear order. -/
@[reducible] def linearOrderOfCmp {α : Type} [DecidableEq α] (cmp : α → α → Ordering) [TransCmp cmp]
    [LawfulEqCmp cmp] : LinearOrder α where
  le a b := (cmp a b).isLE = true
  lt a b := cmp a b = .lt
  le_refl a := by simp [ReflCmp.compare_self]
  le_trans a b c := TransCmp.isLE_trans
  le_antisymm a b h1 h2 := by
    have := OrientedCmp.eq_swap (cmp := cmp) (a := a) (b := b)
    apply LawfulEqCmp.eq_of_compare (cmp := cmp)
    cases h : cmp a b <;> cases h' : cmp b a <;> simp_all
  le_total a b := by
    have := OrientedCmp.eq_swap (cmp := cmp) (a := a) (b := b)
    cases h : cmp a b <;> cases h' : cmp b a <;> simp_all
  lt_iff_le_not_ge a b := by
    have := OrientedCmp.eq_swap (cmp := cmp) (a := a) (b := b)
    cases h : cmp a b <;> cases h' : cmp b a <;> simp_all
  toDecidableLE a b := inferInstanceAs (Decidable ((cmp a b).isLE = true))
  toDecidableLT a b := inferInstanceAs (Decidable (cmp a b = .lt))
  toDecidableEq := inferInstance
  compare := cmp
  compare_eq_compareOfLessAndEq a b := by
    show cmp a b = @ite _ (cmp a b = .lt) _ _ _
    by_cases h : a = b
    · subst h
      simp [ReflCmp.compare_self]
    · have : cmp a b ≠ .eq := fun h' => h (LawfulEqCmp.eq_of_compare h')
      cases h'' : cmp a b <;> simp_all

namespace Semver

theorem Ident.cmp_swap (a b : Ident) : Ident.cmp a b = (Ident.cmp b a).swap := by
  cases a <;> cases b <;> simp only [Ident.cmp, Ordering.swap]
  · exact OrientedCmp.eq_swap
  · exact OrientedCmp.eq_swap

instance : TransCmp Ident.cmp where
  eq_swap := Ident.cmp_swap _ _
  isLE_trans := by
    intro a b c
    cases a <;> cases b <;> cases c <;> simp only [Ident.cmp] <;>
      first
        | exact fun h1 h2 => TransCmp.isLE_trans h1 h2
        | simp

instance : LawfulEqCmp Ident.cmp where
  compare_self := by
    intro a; cases a <;> simp [Ident.cmp, ReflCmp.compare_self]
  eq_of_compare := by
    intro a b
    cases a <;> cases b <;> simp only [Ident.cmp] <;> intro h
    · exact congrArg _ (LawfulEqCmp.eq_of_compare h)
    · cases h
    · cases h
    · exact congrArg _ (LawfulEqCmp.eq_of_compare h)

theorem Pre.cmp_swap (a b : Pre) : Pre.cmp a b = (Pre.cmp b a).swap := by
  cases a <;> cases b <;> simp only [Pre.cmp, Ordering.swap]
  exact OrientedCmp.eq_swap

instance : TransCmp Pre.cmp where
  eq_swap := Pre.cmp_swap _ _
  isLE_trans := by
    intro a b c
    cases a <;> cases b <;> cases c <;> simp only [Pre.cmp] <;>
      first
        | exact fun h1 h2 => TransCmp.isLE_trans h1 h2
        | simp

instance : LawfulEqCmp Pre.cmp where
  compare_self := by
    intro a; cases a <;> simp [Pre.cmp, ReflCmp.compare_self]
  eq_of_compare := by
    intro a b
    cases a <;> cases b <;> intro h
    · rfl
    · cases h
    · cases h
    · exact LawfulEqCmp.eq_of_compare (cmp := List.compareLex Ident.cmp) h

theorem BuildId.cmp_swap (a b : BuildId) : BuildId.cmp a b = (BuildId.cmp b a).swap := by
  cases a <;> cases b <;> simp only [BuildId.cmp, Ordering.swap_then]
  · congr 1 <;> exact OrientedCmp.eq_swap
  · rfl
  · rfl
  · exact OrientedCmp.eq_swap

/-- `(compare a b).then (compare c d)` as a lexicographic comparison on pairs. -/
theorem then_isLE_trans {α β : Type} (f : α → α → Ordering) (g : β → β → Ordering) [TransCmp f]
    [TransCmp g] {a b c : α} {x y z : β} (h1 : ((f a b).then (g x y)).isLE)
    (h2 : ((f b c).then (g y z)).isLE) : ((f a c).then (g x z)).isLE := by
  have key : TransCmp (compareLex (fun p q : α × β => f p.1 q.1) (fun p q : α × β => g p.2 q.2)) := by
    have : TransCmp (fun p q : α × β => f p.1 q.1) :=
      { eq_swap := OrientedCmp.eq_swap, isLE_trans := fun h h' => TransCmp.isLE_trans (cmp := f) h h' }
    have : TransCmp (fun p q : α × β => g p.2 q.2) :=
      { eq_swap := OrientedCmp.eq_swap, isLE_trans := fun h h' => TransCmp.isLE_trans (cmp := g) h h' }
    infer_instance
  exact key.isLE_trans (a := (a, x)) (b := (b, y)) (c := (c, z)) h1 h2

theorem then_eq_eq {a b : Ordering} : a.then b = .eq ↔ a = .eq ∧ b = .eq := by
  cases a <;> cases b <;> simp [Ordering.then]

instance : TransCmp BuildId.cmp where
  eq_swap := BuildId.cmp_swap _ _
  isLE_trans := by
    intro a b c
    cases a <;> cases b <;> cases c <;> simp only [BuildId.cmp] <;>
      first
        | exact fun h1 h2 => TransCmp.isLE_trans h1 h2
        | exact fun h1 h2 => then_isLE_trans _ _ h1 h2
        | simp

instance : LawfulEqCmp BuildId.cmp where
  compare_self := by
    intro a; cases a <;> simp [BuildId.cmp, ReflCmp.compare_self]
  eq_of_compare := by
    intro a b
    cases a <;> cases b <;> simp only [BuildId.cmp] <;> intro h
    · rw [then_eq_eq] at h
      rw [LawfulEqCmp.eq_of_compare h.1, LawfulEqCmp.eq_of_compare h.2]
    · cases h
    · cases h
    · exact congrArg _ (LawfulEqCmp.eq_of_compare h)

theorem Version.cmpPrec_swap (a b : Version) : a.cmpPrec b = (b.cmpPrec a).swap := by
  simp only [Version.cmpPrec, Ordering.swap_then]
  congr 1
  · exact OrientedCmp.eq_swap
  congr 1
  · exact OrientedCmp.eq_swap
  congr 1
  · exact OrientedCmp.eq_swap
  · exact OrientedCmp.eq_swap

theorem Version.cmpPrec_trans {a b c : Version} (h1 : (a.cmpPrec b).isLE) (h2 : (b.cmpPrec c).isLE) :
    (a.cmpPrec c).isLE := by
  have key : TransCmp (compareLex (fun p q : Version => compare p.major q.major)
      (compareLex (fun p q : Version => compare p.minor q.minor)
        (compareLex (fun p q : Version => compare p.patch q.patch)
          (fun p q : Version => Pre.cmp p.pre q.pre)))) := by
    have : TransCmp (fun p q : Version => compare p.major q.major) :=
      { eq_swap := OrientedCmp.eq_swap, isLE_trans := fun h h' => TransCmp.isLE_trans (cmp := compare) h h' }
    have : TransCmp (fun p q : Version => compare p.minor q.minor) :=
      { eq_swap := OrientedCmp.eq_swap, isLE_trans := fun h h' => TransCmp.isLE_trans (cmp := compare) h h' }
    have : TransCmp (fun p q : Version => compare p.patch q.patch) :=
      { eq_swap := OrientedCmp.eq_swap, isLE_trans := fun h h' => TransCmp.isLE_trans (cmp := compare) h h' }
    have : TransCmp (fun p q : Version => Pre.cmp p.pre q.pre) :=
      { eq_swap := OrientedCmp.eq_swap, isLE_trans := fun h h' => TransCmp.isLE_trans (cmp := Pre.cmp) h h' }
    infer_instance
  exact key.isLE_trans (a := a) (b := b) (c := c) h1 h2

instance : TransCmp Version.cmpPrec where
  eq_swap := Version.cmpPrec_swap _ _
  isLE_trans := Version.cmpPrec_trans

theorem Version.cmpPrec_eq_iff {a b : Version} :
    a.cmpPrec b = .eq ↔ a.major = b.major ∧ a.minor = b.minor ∧ a.patch = b.patch ∧ a.pre = b.pre := by
  simp only [Version.cmpPrec, then_eq_eq, LawfulEqCmp.compare_eq_iff_eq]

instance : TransCmp Version.cmp where
  eq_swap := by
    intro a b
    simp only [Version.cmp, Ordering.swap_then]
    congr 1
    · exact OrientedCmp.eq_swap
    · exact OrientedCmp.eq_swap
  isLE_trans := fun h1 h2 => then_isLE_trans _ _ h1 h2

instance : LawfulEqCmp Version.cmp where
  compare_self := by
    intro a
    simp [Version.cmp, ReflCmp.compare_self]
  eq_of_compare := by
    intro a b h
    rw [Version.cmp, then_eq_eq, Version.cmpPrec_eq_iff, LawfulEqCmp.compare_eq_iff_eq] at h
    obtain ⟨⟨h1, h2, h3, h4⟩, h5⟩ := h
    cases a; cases b; simp_all

instance : LinearOrder Version := linearOrderOfCmp Version.cmp

theorem Version.lt_def {a b : Version} : a < b ↔ a.cmp b = .lt := Iff.rfl
theorem Version.le_def {a b : Version} : a ≤ b ↔ (a.cmp b).isLE := Iff.rfl

/-- The version without its build metadata. -/
def Version.strip (v : Version) : Version := { v with build := [] }

@[simp] theorem Version.strip_build (v : Version) : v.strip.build = [] := rfl
theorem Version.strip_eq {v : Version} (h : v.build = []) : v.strip = v := by
  cases v; simp_all [Version.strip]
@[simp] theorem Version.strip_strip (v : Version) : v.strip.strip = v.strip := rfl

theorem Version.cmpPrec_strip (a b : Version) : a.strip.cmpPrec b.strip = a.cmpPrec b := rfl

theorem compareLex_nil_nil : List.compareLex BuildId.cmp [] [] = .eq := by
  simp [List.compareLex]

theorem Version.strip_lt_strip {a b : Version} : a.strip < b.strip ↔ a.cmpPrec b = .lt := by
  simp [Version.lt_def, Version.cmp, Version.cmpPrec_strip, compareLex_nil_nil]

theorem Version.strip_le_strip {a b : Version} : a.strip ≤ b.strip ↔ (a.cmpPrec b).isLE := by
  simp [Version.le_def, Version.cmp, Version.cmpPrec_strip, compareLex_nil_nil]

theorem compareLex_nil_isLE (l : List BuildId) : (List.compareLex BuildId.cmp [] l).isLE := by
  cases l <;> simp [List.compareLex]

theorem compareLex_nil_ne_lt (l : List BuildId) : List.compareLex BuildId.cmp l [] ≠ .lt := by
  cases l <;> simp [List.compareLex]

/-- Against a bound without build metadata only precedence matters. -/
theorem Version.le_iff_strip {b w : Version} (hb : b.build = []) : b ≤ w ↔ b ≤ w.strip := by
  have hb' : b.strip = b := Version.strip_eq hb
  rw [← hb', Version.strip_le_strip, Version.le_def, Version.cmp]
  have := compareLex_nil_isLE w.build
  have e : b.strip.cmpPrec w = b.cmpPrec w := rfl
  rw [e, Version.strip_build]
  cases b.cmpPrec w <;> simp_all [Ordering.then]

theorem Version.lt_iff_strip {b w : Version} (hb : b.build = []) : w < b ↔ w.strip < b := by
  rw [← _root_.not_le, ← _root_.not_le, Version.le_iff_strip hb]

end Semver

end Verif
