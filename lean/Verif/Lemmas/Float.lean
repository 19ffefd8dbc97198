import Verif.Model.Float
import Mathlib.Data.Int.Log
import Mathlib.Data.Rat.Cast.Order
import Mathlib.Algebra.Order.Archimedean.Basic
import Mathlib.Tactic.Linarith
import Mathlib.Tactic.NormNum
import Mathlib.Tactic.Ring
import Mathlib.Tactic.Positivity
import Mathlib.Tactic.FieldSimp

/-!
# Floating point: binary64 has the assumed properties; error propagation
-/

namespace Verif.Cvss

/-! ### IEEE binary64 -/

/-- Round to the nearest integer, ties to even. -/
def roundEven (y : ℚ) : ℤ :=
  if y - ⌊y⌋ < 1 / 2 then ⌊y⌋
  else if 1 / 2 < y - ⌊y⌋ then ⌊y⌋ + 1
  else if ⌊y⌋ % 2 = 0 then ⌊y⌋ else ⌊y⌋ + 1

theorem roundEven_err (y : ℚ) : |(roundEven y : ℚ) - y| ≤ 1 / 2 := by
  have h1 := Int.floor_le y
  have h2 := Int.lt_floor_add_one y
  unfold roundEven
  split_ifs <;> push_cast <;> rw [abs_le] <;> constructor <;> linarith

theorem roundEven_int (n : ℤ) : roundEven n = n := by
  unfold roundEven
  rw [if_pos]
  · exact Int.floor_intCast n
  · rw [Int.floor_intCast]; norm_num

/-- The spacing of the binary64 numbers around `x`. -/
def ulp64 (x : ℚ) : ℚ := 2 ^ max (Int.log 2 |x| - 52) (-1074)

/-- Rounding to binary64, ignoring overflow: 53 significant bits, ties to even, gradual underflow. -/
def fl64 (x : ℚ) : ℚ := roundEven (x / ulp64 x) * ulp64 x

theorem ulp64_pos (x : ℚ) : 0 < ulp64 x := by unfold ulp64; exact zpow_pos (by norm_num) _

theorem fl64_err (x : ℚ) : |fl64 x - x| ≤ ulp64 x / 2 := by
  have h := roundEven_err (x / ulp64 x)
  have hp := ulp64_pos x
  have : fl64 x - x = ((roundEven (x / ulp64 x) : ℚ) - x / ulp64 x) * ulp64 x := by
    unfold fl64
    field_simp
  rw [this, abs_mul, abs_of_pos hp]
  nlinarith [abs_nonneg ((roundEven (x / ulp64 x) : ℚ) - x / ulp64 x)]

theorem ulp64_le {x : ℚ} (hx : x ≠ 0) : ulp64 x ≤ |x| / 2 ^ 52 + 1 / 2 ^ 100 := by
  unfold ulp64
  rcases le_total (Int.log 2 |x| - 52) (-1074) with h | h
  · rw [max_eq_right h]
    have h1 : (2 : ℚ) ^ (-1074 : ℤ) ≤ 2 ^ (-100 : ℤ) := zpow_le_zpow_right₀ (by norm_num) (by norm_num)
    have h2 : (2 : ℚ) ^ (-100 : ℤ) = 1 / 2 ^ 100 := by
      rw [zpow_neg, one_div]; norm_cast
    have : (0 : ℚ) ≤ |x| / 2 ^ 52 := by positivity
    exact h1.trans (h2.le.trans (le_add_of_nonneg_left this))
  · rw [max_eq_left h]
    have hpos : 0 < |x| := abs_pos.mpr hx
    have hl := Int.zpow_log_le_self (b := 2) (r := |x|) (by norm_num) hpos
    have : (2 : ℚ) ^ (Int.log 2 |x| - 52) = 2 ^ Int.log 2 |x| / 2 ^ 52 := by
      rw [zpow_sub₀ (by norm_num)]; norm_cast
    rw [this]
    have h3 : (2 : ℚ) ^ Int.log 2 |x| / 2 ^ 52 ≤ |x| / 2 ^ 52 := by
      apply div_le_div_of_nonneg_right _ (by positivity)
      exact_mod_cast hl
    have : (0 : ℚ) < 1 / 2 ^ 100 := by positivity
    linarith

theorem fl64_zero : fl64 0 = 0 := by
  unfold fl64
  rw [zero_div, show roundEven 0 = 0 from roundEven_int 0]
  simp

theorem fl64_int (n : ℤ) (hn : |n| ≤ 2 ^ 53) : fl64 n = n := by
  rcases eq_or_ne n 0 with rfl | h0
  · simpa using fl64_zero
  have hpos : (0 : ℚ) < |(n : ℚ)| := abs_pos.mpr (by exact_mod_cast h0)
  have hl := Int.zpow_log_le_self (b := 2) (r := |(n : ℚ)|) (by norm_num) hpos
  have hge : (1 : ℚ) ≤ |(n : ℚ)| := by
    have : (1 : ℤ) ≤ |n| := Int.one_le_abs h0
    exact_mod_cast this
  have hlog0 : 0 ≤ Int.log 2 |(n : ℚ)| := by
    rw [Int.log_of_one_le_right _ hge]; positivity
  -- `n / ulp` is an integer
  have key : ∃ m : ℤ, (n : ℚ) / ulp64 n = m := by
    unfold ulp64
    rw [max_eq_left (by omega)]
    rcases le_or_gt (Int.log 2 |(n : ℚ)|) 52 with h52 | h53
    · obtain ⟨k, hk⟩ := Int.eq_ofNat_of_zero_le (sub_nonneg.mpr h52)
      refine ⟨n * 2 ^ k, ?_⟩
      rw [show Int.log 2 |(n : ℚ)| - 52 = -(k : ℤ) by omega, zpow_neg, div_inv_eq_mul, zpow_natCast]
      push_cast
      ring
    · -- then `|n| = 2^53`
      have h1 : (2 : ℚ) ^ (53 : ℤ) ≤ 2 ^ Int.log 2 |(n : ℚ)| := zpow_le_zpow_right₀ (by norm_num) (by omega)
      have h2 : |(n : ℚ)| ≤ 2 ^ 53 := by exact_mod_cast hn
      have hl' : (2 : ℚ) ^ Int.log 2 |(n : ℚ)| ≤ |(n : ℚ)| := by exact_mod_cast hl
      have h3 : (2 : ℚ) ^ (53 : ℤ) = 2 ^ 53 := by norm_cast
      have hn' : |(n : ℚ)| = 2 ^ 53 := by linarith
      have hlog : Int.log 2 |(n : ℚ)| = 53 := by
        rw [hn', ← h3]
        exact_mod_cast Int.log_zpow (R := ℚ) (b := 2) (by norm_num) 53
      rw [hlog]
      rcases abs_choice (n : ℚ) with h | h
      · refine ⟨2 ^ 52, ?_⟩
        rw [← h, hn']
        norm_num
      · refine ⟨-2 ^ 52, ?_⟩
        have : (n : ℚ) = -2 ^ 53 := by linarith
        rw [this]
        norm_num
  obtain ⟨m, hm⟩ := key
  unfold fl64
  rw [hm, roundEven_int, ← hm]
  have := ulp64_pos n
  field_simp

/-- IEEE binary64 rounding to nearest, ties to even, with a correctly rounded `powf(15.0)`. -/
def binary64 : Fp := ⟨fl64, fun x => fl64 (x ^ 15)⟩

theorem binary64_err (x : ℚ) : |fl64 x - x| ≤ |x| / 2 ^ 52 + 1 / 2 ^ 100 := by
  rcases eq_or_ne x 0 with rfl | hx
  · rw [fl64_zero]; norm_num
  · have h1 := fl64_err x
    have h2 := ulp64_le hx
    have h3 := ulp64_pos x
    linarith

/-- Binary64 has the properties assumed of the arithmetic. -/
theorem binary64_ok : binary64.Ok where
  err x _ := binary64_err x
  int n h := fl64_int n h
  pow x hx := by
    have h := binary64_err (x ^ 15)
    have h1 : |x ^ 15| ≤ 1 := by rw [abs_pow]; exact pow_le_one₀ (abs_nonneg x) hx
    have h2 : |x ^ 15| / 2 ^ 52 ≤ 1 / 2 ^ 52 := by
      apply div_le_div_of_nonneg_right h1 (by positivity)
    show |fl64 (x ^ 15) - x ^ 15| ≤ 1 / 2 ^ 40
    have : (1 : ℚ) / 2 ^ 52 + 1 / 2 ^ 100 ≤ 1 / 2 ^ 40 := by norm_num
    linarith

/-- Exact arithmetic has them too. -/
theorem exact_ok : (⟨id, fun x => x ^ 15⟩ : Fp).Ok where
  err x _ := by simp; positivity
  int n _ := rfl
  pow x _ := by simp

/-! ### Error propagation, in units of `2^-40` -/

/-- `a'` differs from `a` by at most `k` units of `2^-40`. -/
def Near (k : ℕ) (a' a : ℚ) : Prop := |a' - a| ≤ k / 2 ^ 40

namespace Near

variable {F : Fp} {a a' b b' : ℚ} {j k m : ℕ}

theorem refl (a : ℚ) : Near 0 a a := by unfold Near; simp

theorem of_eq (h : a' = a) : Near 0 a' a := h ▸ refl a

theorem mono (h : Near j a' a) (hjk : j ≤ k) : Near k a' a := by
  unfold Near at *
  have : (j : ℚ) ≤ k := by exact_mod_cast hjk
  have : (j : ℚ) / 2 ^ 40 ≤ k / 2 ^ 40 := div_le_div_of_nonneg_right this (by positivity)
  linarith

theorem bound (h : Near k a' a) {A : ℕ} (ha : |a| ≤ A) (hk : k ≤ 2 ^ 40) : |a'| ≤ A + 1 := by
  unfold Near at h
  have : (k : ℚ) ≤ 2 ^ 40 := by exact_mod_cast hk
  have : (k : ℚ) / 2 ^ 40 ≤ 1 := by rw [div_le_one (by positivity)]; exact this
  have h3 := abs_sub_abs_le_abs_sub a' a
  linarith

theorem fl (hF : F.Ok) (h : Near k a' a) {A : ℕ} (ha : |a| ≤ A) (hk : k ≤ 2 ^ 40) (hA : A ≤ 1000) :
    Near (k + 1) (F.fl a') a := by
  have hb := h.bound ha hk
  have hA' : (A : ℚ) ≤ 1000 := by exact_mod_cast hA
  have he := hF.err a' (by
    have : (1001 : ℚ) ≤ 2 ^ 60 := by norm_num
    linarith)
  unfold Near at *
  have h2 : |F.fl a' - a| ≤ |F.fl a' - a'| + |a' - a| := abs_sub_le _ _ _
  have h3 : |a'| / 2 ^ 52 ≤ 1001 / 2 ^ 52 := by
    apply div_le_div_of_nonneg_right _ (by positivity)
    linarith
  have h4 : (1001 : ℚ) / 2 ^ 52 + 1 / 2 ^ 100 ≤ 1 / 2 ^ 40 := by norm_num
  push_cast
  rw [add_div]
  linarith

theorem lit (hF : F.Ok) {A : ℕ} (ha : |a| ≤ A) (hA : A ≤ 1000) : Near 1 (F.fl a) a := by
  simpa using fl hF (refl a) ha (by norm_num) hA

theorem add (hF : F.Ok) (h : Near j a' a) (h' : Near k b' b) {A : ℕ} (ha : |a + b| ≤ A) (hjk : j + k ≤ 2 ^ 40)
    (hA : A ≤ 1000) : Near (j + k + 1) (F.add a' b') (a + b) := by
  refine fl hF ?_ ha hjk hA
  unfold Near at *
  have : a' + b' - (a + b) = (a' - a) + (b' - b) := by ring
  rw [this]
  push_cast
  rw [add_div]
  exact (abs_add_le _ _).trans (by linarith)

theorem sub (hF : F.Ok) (h : Near j a' a) (h' : Near k b' b) {A : ℕ} (ha : |a - b| ≤ A) (hjk : j + k ≤ 2 ^ 40)
    (hA : A ≤ 1000) : Near (j + k + 1) (F.sub a' b') (a - b) := by
  refine fl hF ?_ ha hjk hA
  unfold Near at *
  have : a' - b' - (a - b) = (a' - a) - (b' - b) := by ring
  rw [this]
  push_cast
  rw [add_div]
  exact (abs_sub _ _).trans (by linarith)

theorem mul_exact (h : Near j a' a) (h' : Near k b' b) {A B : ℕ} (ha : |a| ≤ A) (hb : |b| ≤ B) (hj : j ≤ 2 ^ 40) :
    Near (j * B + k * (A + 1)) (a' * b') (a * b) := by
  have hab := h.bound ha hj
  unfold Near at *
  have : a' * b' - a * b = (a' - a) * b + (b' - b) * a' := by ring
  rw [this]
  have h1 : |(a' - a) * b| ≤ j / 2 ^ 40 * B := by
    rw [abs_mul]; exact mul_le_mul h hb (abs_nonneg _) (by positivity)
  have h2 : |(b' - b) * a'| ≤ k / 2 ^ 40 * (A + 1) := by
    rw [abs_mul]; exact mul_le_mul h' hab (abs_nonneg _) (by positivity)
  have h3 := abs_add_le ((a' - a) * b) ((b' - b) * a')
  push_cast
  have : ((j : ℚ) * B + k * (A + 1)) / 2 ^ 40 = j / 2 ^ 40 * B + k / 2 ^ 40 * (A + 1) := by ring
  linarith

theorem mul (hF : F.Ok) (h : Near j a' a) (h' : Near k b' b) {A B : ℕ} (ha : |a| ≤ A) (hb : |b| ≤ B)
    (hj : j ≤ 2 ^ 40) (hm : j * B + k * (A + 1) ≤ 2 ^ 40) (hA : A * B ≤ 1000) :
    Near (j * B + k * (A + 1) + 1) (F.mul a' b') (a * b) := by
  refine fl hF (mul_exact h h' ha hb hj) (A := A * B) ?_ hm hA
  rw [abs_mul]
  push_cast
  exact mul_le_mul ha hb (abs_nonneg _) (by positivity)

end Near

/-! ### Rounding functions -/

theorem floor_eq_of_bounds {x : ℚ} {n : ℤ} (h1 : (n : ℚ) ≤ x) (h2 : x < n + 1) : ⌊x⌋ = n :=
  Int.floor_eq_iff.mpr ⟨h1, h2⟩

theorem roundAway_eq {x : ℚ} {n : ℤ} (h1 : (n : ℚ) - 1 / 2 < x) (h2 : x < n + 1 / 2) : roundAway x = n := by
  unfold roundAway
  split_ifs with h
  · rw [floor_eq_of_bounds (n := -n)] <;> push_cast <;> linarith
  · rw [floor_eq_of_bounds (n := n)] <;> linarith

theorem fl_nat {F : Fp} (hF : F.Ok) (n : ℕ) (h : n ≤ 2 ^ 53) : F.fl n = n := by
  have := hF.int n (by rw [abs_of_nonneg (by positivity)]; exact_mod_cast h)
  exact_mod_cast this

theorem fl_zero {F : Fp} (hF : F.Ok) : F.fl 0 = 0 := by simpa using fl_nat hF 0 (by norm_num)

theorem fl_one {F : Fp} (hF : F.Ok) : F.fl 1 = 1 := by simpa using fl_nat hF 1 (by norm_num)

theorem fl_ten {F : Fp} (hF : F.Ok) : F.fl 10 = 10 := by simpa using fl_nat hF 10 (by norm_num)

theorem near_pos {k : ℕ} {a' a : ℚ} (h : Near k a' a) (hk : k ≤ 2 ^ 30) (ha : 0.1 ≤ a) : 0 < a' := by
  unfold Near at h
  have h1 : (k : ℚ) ≤ 2 ^ 30 := by exact_mod_cast hk
  have h2 : (k : ℚ) / 2 ^ 40 ≤ 2 ^ 30 / 2 ^ 40 := div_le_div_of_nonneg_right h1 (by positivity)
  have h3 : (2 : ℚ) ^ 30 / 2 ^ 40 < 0.01 := by norm_num
  have := abs_le.mp h
  linarith [this.1]

theorem near_neg {k : ℕ} {a' a : ℚ} (h : Near k a' a) (hk : k ≤ 2 ^ 30) (ha : a ≤ -0.1) : a' < 0 := by
  unfold Near at h
  have h1 : (k : ℚ) ≤ 2 ^ 30 := by exact_mod_cast hk
  have h2 : (k : ℚ) / 2 ^ 40 ≤ 2 ^ 30 / 2 ^ 40 := div_le_div_of_nonneg_right h1 (by positivity)
  have h3 : (2 : ℚ) ^ 30 / 2 ^ 40 < 0.01 := by norm_num
  have := abs_le.mp h
  linarith [this.2]

theorem near_min {k : ℕ} {a' a c : ℚ} (h : Near k a' a) : Near k (minF a' c) (min a c) := by
  unfold Near minF at *
  have := abs_le.mp h
  rw [abs_le]
  rcases le_total a c with hc | hc
  · rw [min_eq_left hc]
    split_ifs with h' <;> constructor <;> linarith [this.1, this.2]
  · rw [min_eq_right hc]
    split_ifs with h' <;> constructor <;> linarith [this.1, this.2]

theorem near_max {k : ℕ} {a' a c : ℚ} (h : Near k a' a) : Near k (maxF a' c) (max a c) := by
  unfold Near maxF at *
  have := abs_le.mp h
  rw [abs_le]
  rcases le_total a c with hc | hc
  · rw [max_eq_right hc]
    split_ifs with h' <;> constructor <;> linarith [this.1, this.2]
  · rw [max_eq_left hc]
    split_ifs with h' <;> constructor <;> linarith [this.1, this.2]

/-! ### Tenths -/

theorem fl_tenth_near {F : Fp} (hF : F.Ok) {k : ℤ} (h : |k| ≤ 1000) : |F.fl ((k : ℚ) / 10) - k / 10| ≤ 1 / 1000 := by
  have hk : |(k : ℚ)| ≤ 1000 := by exact_mod_cast h
  have h1 : |(k : ℚ) / 10| ≤ 100 := by rw [abs_div, abs_of_pos (by norm_num : (0 : ℚ) < 10)]; linarith
  have h2 := hF.err ((k : ℚ) / 10) (by norm_num; linarith)
  have h3 : |(k : ℚ) / 10| / 2 ^ 52 ≤ 100 / 2 ^ 52 := div_le_div_of_nonneg_right h1 (by positivity)
  have h4 : (100 : ℚ) / 2 ^ 52 + 1 / 2 ^ 100 ≤ 1 / 1000 := by norm_num
  linarith

/-- Rounding keeps tenths apart and in order. -/
theorem fl_tenth_lt {F : Fp} (hF : F.Ok) {j k : ℤ} (hj : |j| ≤ 1000) (hk : |k| ≤ 1000) (h : j < k) :
    F.fl ((j : ℚ) / 10) < F.fl ((k : ℚ) / 10) := by
  have h1 := abs_le.mp (fl_tenth_near hF hj)
  have h2 := abs_le.mp (fl_tenth_near hF hk)
  have : (j : ℚ) + 1 ≤ k := by exact_mod_cast h
  linarith [h1.2, h2.1]

theorem fl_tenth_le {F : Fp} (hF : F.Ok) {j k : ℤ} (hj : |j| ≤ 1000) (hk : |k| ≤ 1000) (h : j ≤ k) :
    F.fl ((j : ℚ) / 10) ≤ F.fl ((k : ℚ) / 10) := by
  rcases eq_or_lt_of_le h with rfl | h
  · exact le_rfl
  · exact (fl_tenth_lt hF hj hk h).le

theorem fl_tenth_lt_iff {F : Fp} (hF : F.Ok) {j k : ℤ} (hj : |j| ≤ 1000) (hk : |k| ≤ 1000) :
    F.fl ((j : ℚ) / 10) < F.fl ((k : ℚ) / 10) ↔ j < k := by
  constructor
  · intro h
    by_contra hn
    exact absurd (fl_tenth_le hF hk hj (not_lt.mp hn)) (not_le.mpr h)
  · exact fl_tenth_lt hF hj hk

end Verif.Cvss
