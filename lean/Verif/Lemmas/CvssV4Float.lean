import Verif.Lemmas.CvssV4Search

/-!
# CVSS v4: floating point interpolation against the exact one
-/

namespace Verif.Cvss

open Verif.Cvss.Spec

namespace Near

variable {F : Fp} {a a' b b' : ℚ} {j k : ℕ}

/-- Division by something that is at least a tenth. -/
theorem div (hF : F.Ok) (h : Near j a' a) (h' : Near k b' b) (hb : 1 / 10 ≤ b) {Q : ℕ} (hq : |a / b| ≤ Q)
    (hk : k ≤ 2 ^ 30) (hm : 20 * (j + Q * k) ≤ 2 ^ 40) (hQ : Q ≤ 1000) :
    Near (20 * (j + Q * k) + 1) (F.div a' b') (a / b) := by
  refine fl hF ?_ hq hm hQ
  unfold Near at *
  have h1 : (k : ℚ) ≤ 2 ^ 30 := by exact_mod_cast hk
  have h2 : (k : ℚ) / 2 ^ 40 ≤ 2 ^ 30 / 2 ^ 40 := div_le_div_of_nonneg_right h1 (by positivity)
  have h3 : (2 : ℚ) ^ 30 / 2 ^ 40 < 1 / 20 := by norm_num
  have hb' : 1 / 20 ≤ b' := by
    have := (abs_le.mp h').1
    linarith
  have hb0 : (0 : ℚ) < b := by linarith
  have hb0' : (0 : ℚ) < b' := by linarith
  have e : a' / b' - a / b = ((a' - a) - (a / b) * (b' - b)) / b' := by field_simp; ring
  rw [e, abs_div, abs_of_pos hb0', div_le_iff₀ hb0']
  have e1 : |(a' - a) - (a / b) * (b' - b)| ≤ j / 2 ^ 40 + Q * (k / 2 ^ 40) := by
    refine (abs_sub _ _).trans ?_
    rw [abs_mul]
    exact add_le_add h (mul_le_mul hq h' (abs_nonneg _) (by positivity))
  have e2 : (0 : ℚ) ≤ j / 2 ^ 40 + Q * (k / 2 ^ 40) := by positivity
  push_cast
  have e3 : (j : ℚ) / 2 ^ 40 + Q * (k / 2 ^ 40) = (j + Q * k) / 2 ^ 40 := by ring
  rw [e3] at e1 e2
  calc _ ≤ ((j : ℚ) + Q * k) / 2 ^ 40 := e1
    _ = 20 * ((j + Q * k) / 2 ^ 40) * (1 / 20) := by ring
    _ ≤ 20 * ((j + Q * k) / 2 ^ 40) * b' := mul_le_mul_of_nonneg_left hb' (by positivity)
    _ = _ := by ring

/-- Division by a whole number. -/
theorem div_nat (hF : F.Ok) (h : Near j a' a) {n : ℕ} (hn : 1 ≤ n) {A : ℕ} (ha : |a| ≤ A) (hj : j ≤ 2 ^ 40)
    (hA : A ≤ 1000) : Near (j + 1) (F.div a' n) (a / n) := by
  have hn' : (1 : ℚ) ≤ n := by exact_mod_cast hn
  refine fl hF ?_ (A := A) ?_ hj hA
  · unfold Near at *
    rw [← sub_div, abs_div, abs_of_pos (by linarith : (0 : ℚ) < n)]
    exact (div_le_self (abs_nonneg _) hn').trans h
  · rw [abs_div, abs_of_pos (by linarith : (0 : ℚ) < n)]
    exact (div_le_self (abs_nonneg _) hn').trans ha

end Near

namespace V4

/-- Tenths as floating point numbers. -/
def vals (F : Fp) (o : Option ℕ) : Option ℚ := o.map fun t : ℕ => F.fl ((t : ℚ) / 10)

/-- The proportional distance towards one next lower MacroVector, if it exists. -/
def partOf (t : ℕ) : Option ℕ → ℕ → ℕ → ℚ
  | some l, d, m => ((t : ℚ) - l) * (d / m)
  | none, _, _ => 0

/-- 1 if there is one. -/
def cnt : Option ℕ → ℕ
  | some _ => 1
  | none => 0

theorem interpolate_exact (e1 e2 e3 e4 e5 e6 d1 d2 d36 d4 : ℕ) {t : ℕ} (h : lookupTenths e1 e2 e3 e4 e5 e6 = some t) :
    v4Interpolate e1 e2 e3 e4 e5 e6 d1 d2 d36 d4 =
      t - (partOf t (lookupTenths (e1 + 1) e2 e3 e4 e5 e6) d1 (v4Depth1 e1) +
        partOf t (lookupTenths e1 (e2 + 1) e3 e4 e5 e6) d2 (v4Depth2 e2) +
        partOf t (v4Lower36 e1 e2 e3 e4 e5 e6) d36 (v4Depth36 e3 e6) +
        partOf t (lookupTenths e1 e2 e3 (e4 + 1) e5 e6) d4 (v4Depth4 e4)) /
      ((cnt (lookupTenths (e1 + 1) e2 e3 e4 e5 e6) + cnt (lookupTenths e1 (e2 + 1) e3 e4 e5 e6) +
        cnt (v4Lower36 e1 e2 e3 e4 e5 e6) + cnt (lookupTenths e1 e2 e3 (e4 + 1) e5 e6) +
        cnt (lookupTenths e1 e2 e3 e4 (e5 + 1) e6) : ℕ) : ℚ) := by
  unfold v4Interpolate
  rw [h]
  generalize lookupTenths (e1 + 1) e2 e3 e4 e5 e6 = o1
  generalize lookupTenths e1 (e2 + 1) e3 e4 e5 e6 = o2
  generalize v4Lower36 e1 e2 e3 e4 e5 e6 = o36
  generalize lookupTenths e1 e2 e3 (e4 + 1) e5 e6 = o4
  generalize lookupTenths e1 e2 e3 e4 (e5 + 1) e6 = o5
  cases o1 <;> cases o2 <;> cases o36 <;> cases o4 <;> cases o5 <;> simp [partOf, cnt] <;> ring

/-- What is needed of the table. -/
def lowOk (t : ℕ) (o : Option ℕ) : Bool := o.all fun l => decide (1 ≤ l ∧ l ≤ t)

theorem table_ok : ∀ e1 ∈ List.range 3, ∀ e2 ∈ List.range 2, ∀ p ∈ [(0, 0), (0, 1), (1, 0), (1, 1), (2, 1)],
    ∀ e4 ∈ List.range 3, ∀ e5 ∈ List.range 3,
    ∃ t ∈ lookupTenths e1 e2 p.1 e4 e5 p.2, 1 ≤ t ∧ t ≤ 100 ∧
      lowOk t (lookupTenths (e1 + 1) e2 p.1 e4 e5 p.2) ∧ lowOk t (lookupTenths e1 (e2 + 1) p.1 e4 e5 p.2) ∧
      lowOk t (v4Lower36 e1 e2 p.1 e4 e5 p.2) ∧ lowOk t (lookupTenths e1 e2 p.1 (e4 + 1) e5 p.2) ∧
      lowOk t (lookupTenths e1 e2 p.1 e4 (e5 + 1) p.2) := by
  decide +kernel

theorem partOf_range {t : ℕ} {o : Option ℕ} (ho : lowOk t o = true) {d m : ℕ} (hdm : d ≤ m)
    (hm : 1 ≤ m) : 0 ≤ partOf t o d m ∧ partOf t o d m ≤ ((t : ℚ) - 1) * cnt o := by
  cases o with
  | none => simp [partOf, cnt]
  | some l =>
    simp only [lowOk, Option.all_some, decide_eq_true_eq] at ho
    have h1 : (1 : ℚ) ≤ l := by exact_mod_cast ho.1
    have h2 : (l : ℚ) ≤ t := by exact_mod_cast ho.2
    have h3 : (d : ℚ) ≤ m := by exact_mod_cast hdm
    have h4 : (1 : ℚ) ≤ m := by exact_mod_cast hm
    have h5 : (d : ℚ) / m ≤ 1 := by rw [div_le_one (by linarith)]; exact h3
    have h6 : (0 : ℚ) ≤ (d : ℚ) / m := by positivity
    simp only [partOf, cnt, Nat.cast_one, mul_one]
    constructor
    · exact mul_nonneg (by linarith) h6
    · calc _ ≤ ((t : ℚ) - l) * 1 := mul_le_mul_of_nonneg_left h5 (by linarith)
        _ ≤ _ := by linarith

theorem normalized_near {F : Fp} (hF : F.Ok) {t : ℕ} (ht : t ≤ 100) {o : Option ℕ} (ho : lowOk t o = true)
    {d' : ℚ} {d m : ℕ} (hd : Near 23 d' ((d : ℚ) / 10)) (hdm : d ≤ m) (hm : 1 ≤ m) (hm' : m ≤ 10) :
    (normalized F ((vals F o).map (F.sub (F.fl ((t : ℚ) / 10)))) d' (F.mul (F.fl m) (F.fl 0.1))).2 = cnt o ∧
    Near 7800 (normalized F ((vals F o).map (F.sub (F.fl ((t : ℚ) / 10)))) d' (F.mul (F.fl m) (F.fl 0.1))).1
      (partOf t o d m / 10) := by
  cases o with
  | none =>
    refine ⟨rfl, ?_⟩
    show Near 7800 (F.fl 0) (0 / 10)
    rw [fl_zero hF, zero_div]
    exact (Near.refl 0).mono (by norm_num)
  | some l =>
    refine ⟨rfl, ?_⟩
    simp only [lowOk, Option.all_some, decide_eq_true_eq] at ho
    have h1 : (1 : ℚ) ≤ l := by exact_mod_cast ho.1
    have h2 : (l : ℚ) ≤ t := by exact_mod_cast ho.2
    have h3 : (d : ℚ) ≤ m := by exact_mod_cast hdm
    have h4 : (1 : ℚ) ≤ m := by exact_mod_cast hm
    have h4' : (m : ℚ) ≤ 10 := by exact_mod_cast hm'
    have h7 : (t : ℚ) ≤ 100 := by exact_mod_cast ht
    have h5 : (d : ℚ) / m ≤ 1 := by rw [div_le_one (by linarith)]; exact h3
    have h6 : (0 : ℚ) ≤ (d : ℚ) / m := by positivity
    have a := sub_tenth_near hF ht (ho.2.trans ht)
    have s : Near 1 (F.fl 0.1) 0.1 := Near.lit hF (A := 1) (by norm_num [abs_of_pos]) (by norm_num)
    have b := Near.mul hF (Near.of_eq (fl_nat hF m (by omega))) s (A := 10) (B := 1)
      (by rw [abs_of_nonneg (by linarith)]; exact_mod_cast hm') (by norm_num [abs_of_pos]) (by norm_num) (by norm_num)
      (by norm_num)
    have e : (d : ℚ) / 10 / ((m : ℚ) * 0.1) = d / m := by
      have : (m : ℚ) ≠ 0 := by linarith
      field_simp
      norm_num
      ring
    have q := Near.div hF hd (b.mono (by norm_num : _ ≤ 12)) (by linarith) (Q := 1)
      (by rw [e, abs_of_nonneg h6]; exact_mod_cast h5) (by norm_num) (by norm_num) (by norm_num)
    rw [e] at q
    have r := Near.mul hF a q (A := 10) (B := 1) (by rw [abs_of_nonneg (by linarith)]; push_cast; linarith)
      (by rw [abs_of_nonneg h6]; exact_mod_cast h5) (by norm_num) (by norm_num) (by norm_num)
    show Near 7800 (F.mul (F.sub (F.fl ((t : ℚ) / 10)) (F.fl ((l : ℚ) / 10)))
      (F.div d' (F.mul (F.fl m) (F.fl 0.1)))) (((t : ℚ) - l) * (d / m) / 10)
    rw [show ((t : ℚ) - l) * (d / m) / 10 = ((t : ℚ) - l) / 10 * (d / m) by ring]
    exact r.mono (by norm_num)

theorem normalized5_eq {F : Fp} (hF : F.Ok) (t : ℕ) (o : Option ℕ) :
    (normalized5 F ((vals F o).map (F.sub (F.fl ((t : ℚ) / 10))))).2 = cnt o ∧
    (normalized5 F ((vals F o).map (F.sub (F.fl ((t : ℚ) / 10))))).1 = 0 := by
  cases o with
  | none => exact ⟨rfl, fl_zero hF⟩
  | some l =>
    refine ⟨rfl, ?_⟩
    show F.mul _ (F.fl 0) = 0
    rw [fl_zero hF]
    unfold Fp.mul
    rw [mul_zero, fl_zero hF]

/-- The interpolated score is accurate. -/
theorem interpolate_near {F : Fp} (hF : F.Ok) {t : ℕ} (ht1 : 1 ≤ t) (ht : t ≤ 100) {o1 o2 o36 o4 o5 : Option ℕ}
    (h1 : lowOk t o1 = true) (h2 : lowOk t o2 = true) (h36 : lowOk t o36 = true) (h4 : lowOk t o4 = true)
    {D : Distances} {d1 d2 d36 d4 m1 m2 m36 m4 : ℕ}
    (hd1 : Near 23 (F.add (F.add D.av D.pr) D.ui) ((d1 : ℚ) / 10))
    (hd2 : Near 23 (F.add D.ac D.at_) ((d2 : ℚ) / 10))
    (hd36 : Near 23 (F.add (F.add (F.add (F.add (F.add D.vc D.vi) D.va) D.cr) D.ir) D.ar) ((d36 : ℚ) / 10))
    (hd4 : Near 23 (F.add (F.add D.sc D.si) D.sa) ((d4 : ℚ) / 10))
    (b1 : d1 ≤ m1 ∧ 1 ≤ m1 ∧ m1 ≤ 10) (b2 : d2 ≤ m2 ∧ 1 ≤ m2 ∧ m2 ≤ 10) (b36 : d36 ≤ m36 ∧ 1 ≤ m36 ∧ m36 ≤ 10)
    (b4 : d4 ≤ m4 ∧ 1 ≤ m4 ∧ m4 ≤ 10) (X : ℚ)
    (hX : X = t - (partOf t o1 d1 m1 + partOf t o2 d2 m2 + partOf t o36 d36 m36 + partOf t o4 d4 m4) /
      ((cnt o1 + cnt o2 + cnt o36 + cnt o4 + cnt o5 : ℕ) : ℚ)) :
    Near 40000 (interpolate F (F.fl ((t : ℚ) / 10)) (vals F o1) (vals F o2) (vals F o36) (vals F o4) (vals F o5) D
      m1 m2 m36 m4) (X / 10) ∧ 1 ≤ X ∧ X ≤ 100 := by
  obtain ⟨c1, n1⟩ := normalized_near hF ht h1 hd1 b1.1 b1.2.1 b1.2.2
  obtain ⟨c2, n2⟩ := normalized_near hF ht h2 hd2 b2.1 b2.2.1 b2.2.2
  obtain ⟨c36, n36⟩ := normalized_near hF ht h36 hd36 b36.1 b36.2.1 b36.2.2
  obtain ⟨c4, n4⟩ := normalized_near hF ht h4 hd4 b4.1 b4.2.1 b4.2.2
  obtain ⟨c5, n5⟩ := normalized5_eq hF t o5
  have r1 := partOf_range h1 b1.1 b1.2.1
  have r2 := partOf_range h2 b2.1 b2.2.1
  have r36 := partOf_range h36 b36.1 b36.2.1
  have r4 := partOf_range h4 b4.1 b4.2.1
  have t1 : (1 : ℚ) ≤ t := by exact_mod_cast ht1
  have t100 : (t : ℚ) ≤ 100 := by exact_mod_cast ht
  have tn : Near 1 (F.fl ((t : ℚ) / 10)) ((t : ℚ) / 10) :=
    Near.lit hF (A := 10) (by rw [abs_of_nonneg (by positivity)]; push_cast; linarith) (by norm_num)
  have cle : ∀ o : Option ℕ, ((cnt o : ℕ) : ℚ) ≤ 1 ∧ (0 : ℚ) ≤ cnt o := by
    intro o; cases o <;> simp [cnt]
  have w : ∀ {p : ℚ} {o : Option ℕ}, p ≤ ((t : ℚ) - 1) * cnt o → p ≤ 100 := by
    intro p o h
    have := mul_le_mul_of_nonneg_left (cle o).1 (by linarith : (0 : ℚ) ≤ (t : ℚ) - 1)
    linarith
  have w1 := w r1.2
  have w2 := w r2.2
  have w36 := w r36.2
  have w4 := w r4.2
  unfold interpolate
  simp only [c1, c2, c36, c4, c5, n5]
  by_cases hn : cnt o1 + cnt o2 + cnt o36 + cnt o4 + cnt o5 = 0
  · rw [if_pos hn]
    rw [hn] at hX
    simp only [Nat.cast_zero, div_zero, sub_zero] at hX
    subst hX
    refine ⟨?_, t1, t100⟩
    have := Near.sub hF tn (Near.of_eq (fl_zero hF)) (A := 10)
      (by rw [sub_zero, abs_of_nonneg (by positivity)]; push_cast; linarith) (by norm_num) (by norm_num)
    rw [sub_zero] at this
    exact this.mono (by norm_num)
  · rw [if_neg hn]
    generalize hN : cnt o1 + cnt o2 + cnt o36 + cnt o4 + cnt o5 = N at hX hn
    have hN1 : 1 ≤ N := by omega
    have hN' : (1 : ℚ) ≤ N := by exact_mod_cast hN1
    have hN5 : N ≤ 5 := by
      have c : ∀ o : Option ℕ, cnt o ≤ 1 := by intro o; cases o <;> simp [cnt]
      have := c o1; have := c o2; have := c o36; have := c o4; have := c o5
      omega
    have s1 := Near.add hF n1 n2 (A := 20)
      (by rw [abs_of_nonneg (by linarith [r1.1, r2.1])]; push_cast; linarith) (by norm_num) (by norm_num)
    have s2 := Near.add hF s1 n36 (A := 30)
      (by rw [abs_of_nonneg (by linarith [r1.1, r2.1, r36.1])]; push_cast; linarith) (by norm_num) (by norm_num)
    have s3 := Near.add hF s2 n4 (A := 40)
      (by rw [abs_of_nonneg (by linarith [r1.1, r2.1, r36.1, r4.1])]; push_cast; linarith) (by norm_num) (by norm_num)
    have s4 := Near.add hF s3 (Near.refl 0) (A := 40)
      (by rw [abs_of_nonneg (by linarith [r1.1, r2.1, r36.1, r4.1])]; push_cast; linarith) (by norm_num) (by norm_num)
    have s5 := Near.div_nat hF s4 hN1 (A := 40)
      (by rw [abs_of_nonneg (by linarith [r1.1, r2.1, r36.1, r4.1])]; push_cast; linarith) (by norm_num) (by norm_num)
    have total : partOf t o1 d1 m1 + partOf t o2 d2 m2 + partOf t o36 d36 m36 + partOf t o4 d4 m4 ≤
        ((t : ℚ) - 1) * N := by
      rw [← hN]
      push_cast
      have := mul_nonneg (by linarith : (0 : ℚ) ≤ (t : ℚ) - 1) (cle o5).2
      nlinarith [r1.2, r2.2, r36.2, r4.2]
    have hX1 : 1 ≤ X ∧ X ≤ t := by
      rw [hX]
      constructor
      · have : (partOf t o1 d1 m1 + partOf t o2 d2 m2 + partOf t o36 d36 m36 + partOf t o4 d4 m4) / N ≤ (t : ℚ) - 1 := by
          rw [div_le_iff₀ (by linarith)]
          exact total
        linarith
      · have : 0 ≤ (partOf t o1 d1 m1 + partOf t o2 d2 m2 + partOf t o36 d36 m36 + partOf t o4 d4 m4) / (N : ℚ) :=
          div_nonneg (by linarith [r1.1, r2.1, r36.1, r4.1]) (by linarith)
        linarith
    refine ⟨?_, hX1.1, hX1.2.trans t100⟩
    have e : X / 10 = (t : ℚ) / 10 - (partOf t o1 d1 m1 / 10 + partOf t o2 d2 m2 / 10 + partOf t o36 d36 m36 / 10 +
        partOf t o4 d4 m4 / 10 + 0) / N := by rw [hX]; ring
    have s6 := Near.sub hF tn s5 (A := 10)
      (by rw [← e, abs_of_nonneg (by linarith [hX1.1])]; push_cast; linarith [hX1.2]) (by norm_num) (by norm_num)
    rw [← e] at s6
    rw [fl_nat hF N (by omega)]
    exact s6.mono (by norm_num)

/-! ### Distances -/

theorem two_near {F : Fp} (hF : F.Ok) {j k : ℕ} {x y : ℚ} {i l : ℕ} (h : Near j x ((i : ℚ) / 10))
    (h' : Near k y ((l : ℚ) / 10)) (hb : i + l ≤ 1000) (hjk : j + k ≤ 100) :
    Near (j + k + 1) (F.add x y) (((i + l : ℕ) : ℚ) / 10) := by
  have hb' : (i : ℚ) + l ≤ 1000 := by exact_mod_cast hb
  rw [show ((i + l : ℕ) : ℚ) / 10 = (i : ℚ) / 10 + (l : ℚ) / 10 by push_cast; ring]
  exact Near.add hF h h' (A := 100) (by rw [abs_of_nonneg (by positivity)]; push_cast; linarith) (by omega)
    (by norm_num)

theorem step_near {F : Fp} (hF : F.Ok) {i j : ℕ} (hi : i ≤ 100) (hj : j ≤ i) :
    Near 3 (F.sub (F.fl ((i : ℚ) / 10)) (F.fl ((j : ℚ) / 10))) (((i - j : ℕ) : ℚ) / 10) := by
  rw [Nat.cast_sub hj]
  exact sub_tenth_near hF hi (hj.trans hi)

theorem dist1_near {F : Fp} (hF : F.Ok) (z : ScoringVector) {a : G1} (b : G2) (c : G36) (d : G4) (e : G5)
    (h : z.g1.below a = true) :
    Near 23 (F.add (F.add (distancesFrom F z (composed a b c d e)).av (distancesFrom F z (composed a b c d e)).pr)
      (distancesFrom F z (composed a b c d e)).ui) ((z.g1.dist a : ℚ) / 10) := by
  unfold G1.below at h
  rw [decide_eq_true_iff] at h
  unfold distancesFrom
  simp only [MergedAttackVector.level_step, MergedPrivilegesRequired.level_step, MergedUserInteraction.level_step]
  have := stepAV_le z.av.letter; have := stepPR_le z.pr.letter; have := stepUI_le z.ui.letter
  exact (two_near hF (two_near hF (step_near hF (stepAV_le _) h.1) (step_near hF (stepPR_le _) h.2.1)
    (by simp only [ScoringVector.g1]; omega) (by norm_num))
    (step_near hF (stepUI_le _) h.2.2) (by simp only [ScoringVector.g1]; omega) (by norm_num)).mono (by norm_num)

theorem dist2_near {F : Fp} (hF : F.Ok) (z : ScoringVector) (a : G1) {b : G2} (c : G36) (d : G4) (e : G5)
    (h : z.g2.below b = true) :
    Near 23 (F.add (distancesFrom F z (composed a b c d e)).ac (distancesFrom F z (composed a b c d e)).at_)
      ((z.g2.dist b : ℚ) / 10) := by
  unfold G2.below at h
  rw [decide_eq_true_iff] at h
  unfold distancesFrom
  simp only [MergedAttackComplexity.level_step, MergedAttackRequirements.level_step]
  have := stepAC_le z.ac.letter; have := stepAT_le z.at_.letter
  exact (two_near hF (step_near hF (stepAC_le _) h.1) (step_near hF (stepAT_le _) h.2)
    (by simp only [ScoringVector.g2]; omega) (by norm_num)).mono (by norm_num)

theorem dist4_near {F : Fp} (hF : F.Ok) (z : ScoringVector) (a : G1) (b : G2) (c : G36) {d : G4} (e : G5)
    (h : z.g4.below d = true) :
    Near 23 (F.add (F.add (distancesFrom F z (composed a b c d e)).sc (distancesFrom F z (composed a b c d e)).si)
      (distancesFrom F z (composed a b c d e)).sa) ((z.g4.dist d : ℚ) / 10) := by
  unfold G4.below at h
  rw [decide_eq_true_iff] at h
  unfold distancesFrom
  simp only [MergedConfidentialityImpactToTheSubsequentSystem.level_step,
    MergedIntegrityImpactToTheSubsequentSystem.level_step, MergedAvailabilityImpactToTheSubsequentSystem.level_step]
  have := stepS_le z.sc.letter; have := stepS_le z.si.letter; have := stepS_le z.sa.letter
  exact (two_near hF (two_near hF (step_near hF (stepS_le _) h.1) (step_near hF (stepS_le _) h.2.1)
    (by simp only [ScoringVector.g4]; omega) (by norm_num))
    (step_near hF (stepS_le _) h.2.2) (by simp only [ScoringVector.g4]; omega) (by norm_num)).mono (by norm_num)

theorem dist36_near {F : Fp} (hF : F.Ok) (z : ScoringVector) (a : G1) (b : G2) {c : G36} (d : G4) (e : G5)
    (h : z.g36.below c = true) :
    Near 23 (F.add (F.add (F.add (F.add (F.add (distancesFrom F z (composed a b c d e)).vc
      (distancesFrom F z (composed a b c d e)).vi) (distancesFrom F z (composed a b c d e)).va)
      (distancesFrom F z (composed a b c d e)).cr) (distancesFrom F z (composed a b c d e)).ir)
      (distancesFrom F z (composed a b c d e)).ar) ((z.g36.dist c : ℚ) / 10) := by
  unfold G36.below at h
  rw [decide_eq_true_iff] at h
  obtain ⟨h1, h2, h3, h4, h5, h6⟩ := h
  unfold distancesFrom
  simp only [MergedConfidentialityImpactToTheVulnerableSystem.level_step,
    MergedIntegrityImpactToTheVulnerableSystem.level_step, MergedAvailabilityImpactToTheVulnerableSystem.level_step,
    MergedConfidentialityRequirements.level_step, MergedIntegrityRequirements.level_step,
    MergedAvailabilityRequirements.level_step]
  have := stepV_le z.vc.letter; have := stepV_le z.vi.letter; have := stepV_le z.va.letter
  have := stepR_le z.cr.letter; have := stepR_le z.ir.letter; have := stepR_le z.ar.letter
  have n1 := step_near hF (stepV_le z.g36.vc.letter) h1
  have n2 := step_near hF (stepV_le z.g36.vi.letter) h2
  have n3 := step_near hF (stepV_le z.g36.va.letter) h3
  have n4 := step_near hF (stepR_le z.g36.cr.letter) h4
  have n5 := step_near hF (stepR_le z.g36.ir.letter) h5
  have n6 := step_near hF (stepR_le z.g36.ar.letter) h6
  have s1 := two_near hF n1 n2 (by simp only [ScoringVector.g36]; omega) (by norm_num)
  have s2 := two_near hF s1 n3 (by simp only [ScoringVector.g36]; omega) (by norm_num)
  have s3 := two_near hF s2 n4 (by simp only [ScoringVector.g36]; omega) (by norm_num)
  have s4 := two_near hF s3 n5 (by simp only [ScoringVector.g36]; omega) (by norm_num)
  have s5 := two_near hF s4 n6 (by simp only [ScoringVector.g36]; omega) (by norm_num)
  exact s5.mono (by norm_num)

/-! ### The next lower MacroVector in EQ3 and EQ6 -/

theorem nextLower36_eq {F : Fp} (hF : F.Ok) : ∀ e1 ∈ List.range 3, ∀ e2 ∈ List.range 2,
    ∀ p ∈ [(0, 0), (0, 1), (1, 0), (1, 1), (2, 1)], ∀ e4 ∈ List.range 3, ∀ e5 ∈ List.range 3,
    nextLower36 F ⟨e1, e2, p.1, e4, e5, p.2⟩ = vals F (v4Lower36 e1 e2 p.1 e4 e5 p.2) := by
  intro e1 h1 e2 h2 p hp e4 h4 e5 h5
  simp only [List.mem_cons, List.not_mem_nil, or_false] at hp
  rcases hp with rfl | rfl | rfl | rfl | rfl
  · obtain ⟨a, ha, _, ha', _⟩ := table_ok e1 h1 e2 h2 (0, 1) (by decide) e4 h4 e5 h5
    obtain ⟨b, hb, _, hb', _⟩ := table_ok e1 h1 e2 h2 (1, 0) (by decide) e4 h4 e5 h5
    rw [Option.mem_def] at ha hb
    have hlt : F.fl ((b : ℚ) / 10) < F.fl ((a : ℚ) / 10) ↔ b < a := by
      have := fl_tenth_lt_iff hF (j := b) (k := a) (by rw [abs_of_nonneg (by positivity)]; omega)
        (by rw [abs_of_nonneg (by positivity)]; omega)
      rwa [Nat.cast_lt, Int.cast_natCast, Int.cast_natCast] at this
    show (if optGt (vals F (lookupTenths e1 e2 0 e4 e5 1)) (vals F (lookupTenths e1 e2 1 e4 e5 0)) = true then
      vals F (lookupTenths e1 e2 0 e4 e5 1) else vals F (lookupTenths e1 e2 1 e4 e5 0)) =
      vals F (max (lookupTenths e1 e2 0 e4 e5 1) (lookupTenths e1 e2 1 e4 e5 0))
    rw [ha, hb]
    simp only [vals, Option.map_some, optGt, hlt, decide_eq_true_eq]
    split_ifs with h
    · show _ = Option.map _ (some (max a b))
      rw [max_eq_left h.le]; rfl
    · show _ = Option.map _ (some (max a b))
      rw [max_eq_right (not_lt.mp h)]; rfl
  · rfl
  · rfl
  · rfl
  · have : ∀ e1 ∈ List.range 3, ∀ e2 ∈ List.range 2, ∀ e4 ∈ List.range 3, ∀ e5 ∈ List.range 3,
        lookupTenths e1 e2 3 e4 e5 1 = none := by decide +kernel
    show vals F (lookupTenths e1 e2 3 e4 e5 1) = vals F none
    rw [this e1 h1 e2 h2 e4 h4 e5 h5]

/-! ### The score -/

theorem eq5_lt (z : ScoringVector) : z.eq5 < 3 := by
  unfold ScoringVector.eq5; split_ifs <;> norm_num

theorem max5_single (n : ℕ) : ∃ e, max5 n = [e] := by
  unfold max5; split <;> exact ⟨_, rfl⟩

theorem depths : (∀ n < 3, maxSeverity (.eq1 n) = .ok (v4Depth1 n) ∧ dmax1 n ≤ v4Depth1 n ∧ 1 ≤ v4Depth1 n ∧ v4Depth1 n ≤ 10 ∧ 840 % v4Depth1 n = 0) ∧
    (∀ n < 2, maxSeverity (.eq2 n) = .ok (v4Depth2 n) ∧ dmax2 n ≤ v4Depth2 n ∧ 1 ≤ v4Depth2 n ∧ v4Depth2 n ≤ 10 ∧ 840 % v4Depth2 n = 0) ∧
    (∀ p ∈ [(0, 0), (0, 1), (1, 0), (1, 1), (2, 1)], maxSeverity (.eq3eq6 p.1 p.2) = .ok (v4Depth36 p.1 p.2) ∧
      dmax36 p.1 p.2 ≤ v4Depth36 p.1 p.2 ∧ 1 ≤ v4Depth36 p.1 p.2 ∧ v4Depth36 p.1 p.2 ≤ 10 ∧ 840 % v4Depth36 p.1 p.2 = 0) ∧
    (∀ n < 3, maxSeverity (.eq4 n) = .ok (v4Depth4 n) ∧ dmax4 n ≤ v4Depth4 n ∧ 1 ≤ v4Depth4 n ∧ v4Depth4 n ≤ 10 ∧ 840 % v4Depth4 n = 0) := by
  refine ⟨?_, ?_, ?_, ?_⟩ <;> decide +kernel

theorem partOf_int {t : ℕ} (o : Option ℕ) (d : ℕ) {m : ℕ} (hm : 840 % m = 0) (hm1 : 1 ≤ m) :
    ∃ k : ℤ, 840 * partOf t o d m = k := by
  cases o with
  | none => exact ⟨0, by simp [partOf]⟩
  | some l =>
    obtain ⟨c, hc⟩ := Nat.dvd_of_mod_eq_zero hm
    refine ⟨((t : ℤ) - l) * d * c, ?_⟩
    have hm0 : (m : ℚ) ≠ 0 := by exact_mod_cast (by omega : m ≠ 0)
    have hc' : (840 : ℚ) = m * c := by exact_mod_cast hc
    simp only [partOf]
    rw [hc']
    push_cast
    field_simp

/-- The model's score before rounding: never a panic, and near the exact one, which is a multiple of 1/50400
between 1 and 100 tenths. -/
theorem score_near {F : Fp} (hF : F.Ok) (z : ScoringVector)
    (hz : ¬ (z.vc = .none ∧ z.vi = .none ∧ z.va = .none ∧ z.sc = .none ∧ z.si = .none ∧ z.sa = .none)) :
    ∃ x, z.score F = .ok x ∧ Near 40000 x (z.eff.raw / 10) ∧ 1 ≤ z.eff.raw ∧ z.eff.raw ≤ 100 ∧
      ∃ k : ℤ, 50400 * z.eff.raw = k := by
  obtain ⟨c1, a, _, fa, da, la⟩ := g1_ok z.g1
  obtain ⟨c2, b, _, fb, db, lb⟩ := g2_ok z.g2
  obtain ⟨c36, c, _, fc, dc, lc⟩ := g36_ok z.g36
  obtain ⟨c4, d, _, fd, dd, ld⟩ := g4_ok z.g4
  have c5 := eq5_lt z
  obtain ⟨e, he⟩ := max5_single z.eq5
  obtain ⟨D1, D2, D36, D4⟩ := depths
  obtain ⟨s1, x1, y1, w1, u1⟩ := D1 _ c1
  obtain ⟨s2, x2, y2, w2, u2⟩ := D2 _ c2
  obtain ⟨s36, x36, y36, w36, u36⟩ := D36 _ c36
  obtain ⟨s4, x4, y4, w4, u4⟩ := D4 _ c4
  obtain ⟨t, ht, t1, t100, o1, o2, o36, o4, -⟩ := table_ok _ (List.mem_range.mpr c1) _ (List.mem_range.mpr c2) _ c36 _
    (List.mem_range.mpr c4) _ (List.mem_range.mpr c5)
  have hraw : z.eff.raw = v4Interpolate z.g1.cls z.g2.cls z.g36.cls3 z.g4.cls z.eq5 z.g36.cls6 (z.g1.dist a)
      (z.g2.dist b) (z.g36.dist c) (z.g4.dist d) := by
    unfold Eff.raw Eff.distance1 Eff.distance2 Eff.distance36 Eff.distance4
    rw [eff_eq1, eff_eq2, eff_eq3, eff_eq4, eff_eq5, eff_eq6]
    have p1 : v4Distance [stepAV, stepPR, stepUI] [z.eff.AV, z.eff.PR, z.eff.UI] (v4Max1 z.g1.cls) = _ := da
    have p2 : v4Distance [stepAC, stepAT] [z.eff.AC, z.eff.AT] (v4Max2 z.g2.cls) = _ := db
    have p36 : v4Distance [stepV, stepV, stepV, stepR, stepR, stepR]
      [z.eff.VC, z.eff.VI, z.eff.VA, z.eff.CR, z.eff.IR, z.eff.AR] (v4Max36 z.g36.cls3 z.g36.cls6) = _ := dc
    have p4 : v4Distance [stepS, stepS, stepS] [z.eff.SC, z.eff.SI, z.eff.SA] (v4Max4 z.g4.cls) = _ := dd
    rw [p1, p2, p36, p4]
    rfl
  rw [Option.mem_def] at ht
  have hX := interpolate_exact _ _ _ _ _ _ (z.g1.dist a) (z.g2.dist b) (z.g36.dist c) (z.g4.dist d) ht
  rw [← hraw] at hX
  have near := interpolate_near hF t1 t100 o1 o2 o36 o4
    (dist1_near hF z b c d e (List.find?_some fa)) (dist2_near hF z a c d e (List.find?_some fb))
    (dist36_near hF z a b d e (List.find?_some fc)) (dist4_near hF z a b c e (List.find?_some fd))
    ⟨la.trans x1, y1, w1⟩ ⟨lb.trans x2, y2, w2⟩ ⟨lc.trans x36, y36, w36⟩ ⟨ld.trans x4, y4, w4⟩ _ hX
  refine ⟨_, ?_, near.1, near.2.1, near.2.2, ?_⟩
  · unfold ScoringVector.score
    rw [if_neg hz]
    show (do
      let value ← ScoringVector.unwrap (vals F (lookupTenths z.g1.cls z.g2.cls z.g36.cls3 z.g4.cls z.eq5 z.g36.cls6))
      let l1 ← maxComposed (.eq1 z.g1.cls)
      let l2 ← maxComposed (.eq2 z.g2.cls)
      let l36 ← maxComposed (.eq3eq6 z.g36.cls3 z.g36.cls6)
      let l4 ← maxComposed (.eq4 z.g4.cls)
      let l5 ← maxComposed (.eq5 z.eq5)
      let d ← searchMax F z (composeMaxes l1 l2 l36 l4 l5) (Distances.zero F)
      let m1 ← maxSeverity (.eq1 z.g1.cls)
      let m2 ← maxSeverity (.eq2 z.g2.cls)
      let m36 ← maxSeverity (.eq3eq6 z.g36.cls3 z.g36.cls6)
      let m4 ← maxSeverity (.eq4 z.g4.cls)
      Outcome.ok (interpolate F value (vals F (lookupTenths (z.g1.cls + 1) z.g2.cls z.g36.cls3 z.g4.cls z.eq5 z.g36.cls6))
        (vals F (lookupTenths z.g1.cls (z.g2.cls + 1) z.g36.cls3 z.g4.cls z.eq5 z.g36.cls6))
        (nextLower36 F ⟨z.g1.cls, z.g2.cls, z.g36.cls3, z.g4.cls, z.eq5, z.g36.cls6⟩)
        (vals F (lookupTenths z.g1.cls z.g2.cls z.g36.cls3 (z.g4.cls + 1) z.eq5 z.g36.cls6))
        (vals F (lookupTenths z.g1.cls z.g2.cls z.g36.cls3 z.g4.cls (z.eq5 + 1) z.g36.cls6)) d m1 m2 m36 m4)) = _
    rw [ht, max1_str _ c1, max2_str _ c2, max36_str _ c36, max4_str _ c4, max5_str _ c5, s1, s2, s36, s4, he]
    simp only [vals, Option.map_some, ScoringVector.unwrap, Outcome.bind_ok]
    rw [search_ok hF z _ _ _ _ e fa fb fc fd]
    simp only [Outcome.bind_ok]
    have := nextLower36_eq hF _ (List.mem_range.mpr c1) _ (List.mem_range.mpr c2) _ c36 _ (List.mem_range.mpr c4) _
      (List.mem_range.mpr c5)
    simp only at this
    rw [this]
    rfl
  · obtain ⟨k1, hk1⟩ := partOf_int (t := t) (lookupTenths (z.g1.cls + 1) z.g2.cls z.g36.cls3 z.g4.cls z.eq5 z.g36.cls6) (z.g1.dist a) u1 y1
    obtain ⟨k2, hk2⟩ := partOf_int (t := t) (lookupTenths z.g1.cls (z.g2.cls + 1) z.g36.cls3 z.g4.cls z.eq5 z.g36.cls6) (z.g2.dist b) u2 y2
    obtain ⟨k3, hk3⟩ := partOf_int (t := t) (v4Lower36 z.g1.cls z.g2.cls z.g36.cls3 z.g4.cls z.eq5 z.g36.cls6) (z.g36.dist c) u36 y36
    obtain ⟨k4, hk4⟩ := partOf_int (t := t) (lookupTenths z.g1.cls z.g2.cls z.g36.cls3 (z.g4.cls + 1) z.eq5 z.g36.cls6) (z.g4.dist d) u4 y4
    rw [hX]
    simp only at hk3 ⊢
    generalize hN : cnt (lookupTenths (z.g1.cls + 1) z.g2.cls z.g36.cls3 z.g4.cls z.eq5 z.g36.cls6) +
      cnt (lookupTenths z.g1.cls (z.g2.cls + 1) z.g36.cls3 z.g4.cls z.eq5 z.g36.cls6) +
      cnt (v4Lower36 z.g1.cls z.g2.cls z.g36.cls3 z.g4.cls z.eq5 z.g36.cls6) +
      cnt (lookupTenths z.g1.cls z.g2.cls z.g36.cls3 (z.g4.cls + 1) z.eq5 z.g36.cls6) +
      cnt (lookupTenths z.g1.cls z.g2.cls z.g36.cls3 z.g4.cls (z.eq5 + 1) z.g36.cls6) = N
    have hN5 : N ≤ 5 := by
      have c : ∀ o : Option ℕ, cnt o ≤ 1 := by intro o; cases o <;> simp [cnt]
      rw [← hN]
      exact Nat.add_le_add (Nat.add_le_add (Nat.add_le_add (Nat.add_le_add (c _) (c _)) (c _)) (c _)) (c _)
    have hq : ∃ q : ℤ, 60 / (N : ℚ) = q := by
      have : N = 0 ∨ N = 1 ∨ N = 2 ∨ N = 3 ∨ N = 4 ∨ N = 5 := by omega
      rcases this with h | h | h | h | h | h <;> rw [h]
      · exact ⟨0, by norm_num⟩
      · exact ⟨60, by norm_num⟩
      · exact ⟨30, by norm_num⟩
      · exact ⟨20, by norm_num⟩
      · exact ⟨15, by norm_num⟩
      · exact ⟨12, by norm_num⟩
    obtain ⟨q, hq⟩ := hq
    refine ⟨50400 * t - (k1 + k2 + k3 + k4) * q, ?_⟩
    push_cast
    rw [← hk1, ← hk2, ← hk3, ← hk4, ← hq]
    ring

end V4

end Verif.Cvss
