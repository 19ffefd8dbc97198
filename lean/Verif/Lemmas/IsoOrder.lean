import Verif.Props.AdvisoryFile
import Verif.Props.SyncText

/-!
# The order of the texts of dates is the order of the dates
-/

namespace Verif.Props

open Verif.Adv Verif.Lock Verif.Spec Std

theorem digit_range {c : Char} (h : c.isDigit = true) : 48 ≤ c.toNat ∧ c.toNat ≤ 57 := by
  simp only [Char.isDigit, Bool.and_eq_true, decide_eq_true_eq] at h
  exact ⟨h.1, h.2⟩

/-- More in front is more. -/
theorem ofDigitChars_lt_of_lt : ∀ {u v : Str}, u.length = v.length → (∀ c ∈ u, c.isDigit = true) →
    (∀ c ∈ v, c.isDigit = true) → ∀ {n n' : Nat}, n < n' → Nat.ofDigitChars 10 u n < Nat.ofDigitChars 10 v n'
  | [], [], _, _, _, _, _, h => h
  | [], _ :: _, h, _, _, _, _, _ => by cases h
  | _ :: _, [], h, _, _, _, _, _ => by cases h
  | c :: u, c' :: v, h, hd, hd', n, n', hn => by
    rw [Nat.ofDigitChars_cons, Nat.ofDigitChars_cons]
    have b1 := digit_range (hd c List.mem_cons_self)
    have b2 := digit_range (hd' c' List.mem_cons_self)
    have z : '0'.toNat = 48 := rfl
    refine ofDigitChars_lt_of_lt (by simpa using h) (fun x hx => hd x (List.mem_cons_of_mem _ hx))
      (fun x hx => hd' x (List.mem_cons_of_mem _ hx)) ?_
    rw [z]
    omega

theorem strCmp_cons (c c' : Char) (u v : Str) : strCmp (c :: u) (c' :: v) = (compare c c').then (strCmp u v) := by
  unfold strCmp
  rw [List.compareLex_cons_cons]

theorem strCmp_append : ∀ {u v : Str}, u.length = v.length → ∀ x y : Str,
    strCmp (u ++ x) (v ++ y) = (strCmp u v).then (strCmp x y)
  | [], [], _, _, _ => rfl
  | [], _ :: _, h, _, _ => by cases h
  | _ :: _, [], h, _, _ => by cases h
  | c :: u, c' :: v, h, x, y => by
    rw [List.cons_append, List.cons_append, strCmp_cons, strCmp_cons, strCmp_append (by simpa using h)]
    cases compare c c' <;> rfl

/-- On digits the order of texts of one length is that of the numbers. -/
theorem strCmp_digits : ∀ {u v : Str}, u.length = v.length → (∀ c ∈ u, c.isDigit = true) →
    (∀ c ∈ v, c.isDigit = true) → ∀ n : Nat,
    strCmp u v = compare (Nat.ofDigitChars 10 u n) (Nat.ofDigitChars 10 v n)
  | [], [], _, _, _, n => by
    rw [(strCmp_eq_iff [] []).mpr rfl]
    exact (Nat.compare_eq_eq.mpr rfl).symm
  | [], _ :: _, h, _, _, _ => by cases h
  | _ :: _, [], h, _, _, _ => by cases h
  | c :: u, c' :: v, h, hd, hd', n => by
    rw [Nat.ofDigitChars_cons, Nat.ofDigitChars_cons, strCmp_cons]
    have b1 := digit_range (hd c List.mem_cons_self)
    have b2 := digit_range (hd' c' List.mem_cons_self)
    have z : '0'.toNat = 48 := rfl
    rw [z]
    have hl : u.length = v.length := by simpa using h
    have hu := fun x hx => hd x (List.mem_cons_of_mem _ hx)
    have hv := fun x hx => hd' x (List.mem_cons_of_mem _ hx)
    have hc : compare c c' = compare c.toNat c'.toNat := by
      rcases Nat.lt_trichotomy c.toNat c'.toNat with h1 | h1 | h1
      · rw [Nat.compare_eq_lt.mpr h1]; exact if_pos (show c < c' from h1)
      · rw [Nat.compare_eq_eq.mpr h1]; exact compare_eq_iff_eq.mpr (Char.ext (UInt32.toNat_inj.mp h1))
      · rw [Nat.compare_eq_gt.mpr h1]; exact (if_neg (show ¬ c < c' from fun h => absurd (show c.toNat < c'.toNat from h) (by omega))).trans
          (if_neg (fun h => absurd (congrArg Char.toNat h) (by omega)))
    rw [hc]
    rcases Nat.lt_trichotomy c.toNat c'.toNat with hlt | heq | hgt
    · rw [Nat.compare_eq_lt.mpr hlt]
      refine (Nat.compare_eq_lt.mpr (ofDigitChars_lt_of_lt hl hu hv ?_)).symm
      omega
    · rw [Nat.compare_eq_eq.mpr heq, heq]
      exact strCmp_digits hl hu hv _
    · rw [Nat.compare_eq_gt.mpr hgt]
      refine (Nat.compare_eq_gt.mpr (ofDigitChars_lt_of_lt hl.symm hv hu ?_)).symm
      omega

/-- The order of the texts of dates is the order of the dates. -/
theorem strCmp_iso {s s' : Str} {y m d y' m' d' : Nat} (h : IsoText s y m d) (h' : IsoText s' y' m' d') :
    strCmp s s' = (compare y y').then ((compare m m').then (compare d d')) := by
  obtain ⟨ys, ms, ds, rfl, l1, l2, l3, hdig, rfl, rfl, rfl⟩ := h
  obtain ⟨ys', ms', ds', rfl, l1', l2', l3', hdig', rfl, rfl, rfl⟩ := h'
  rw [strCmp_append (l1.trans l1'.symm), strCmp_cons, strCmp_append (l2.trans l2'.symm), strCmp_cons]
  have hd : compare '-' '-' = .eq := by decide
  rw [hd,
    strCmp_digits (l1.trans l1'.symm) (fun c hc => hdig c (by simp [hc])) (fun c hc => hdig' c (by simp [hc])) 0,
    strCmp_digits (l2.trans l2'.symm) (fun c hc => hdig c (by simp [hc])) (fun c hc => hdig' c (by simp [hc])) 0,
    strCmp_digits (l3.trans l3'.symm) (fun c hc => hdig c (by simp [hc])) (fun c hc => hdig' c (by simp [hc])) 0]
  rfl

theorem iso_not_lt {s s' : Str} {y m d y' m' d' : Nat} (h : IsoText s y m d) (h' : IsoText s' y' m' d')
    (hc : strCmp s s' ≠ .lt) : y' < y ∨ y' = y ∧ (m' < m ∨ m' = m ∧ d' ≤ d) := by
  rw [strCmp_iso h h'] at hc
  rcases Nat.lt_trichotomy y y' with h1 | h1 | h1
  · rw [Nat.compare_eq_lt.mpr h1] at hc; exact absurd rfl hc
  · rw [Nat.compare_eq_eq.mpr h1] at hc
    refine .inr ⟨h1.symm, ?_⟩
    rcases Nat.lt_trichotomy m m' with h2 | h2 | h2
    · rw [Nat.compare_eq_lt.mpr h2] at hc; exact absurd rfl hc
    · rw [Nat.compare_eq_eq.mpr h2] at hc
      refine .inr ⟨h2.symm, ?_⟩
      by_contra h3
      rw [Nat.compare_eq_lt.mpr (by omega : d < d')] at hc
      exact hc rfl
    · exact .inl h2
  · exact .inl h1

end Verif.Props
