import Verif.Model.CvssV3Score
import Verif.Lemmas.Float
import Verif.Spec.CvssScore
import Mathlib.Algebra.Order.Ring.Abs
import Mathlib.Algebra.Ring.GeomSum

/-!
# CVSS v3 scores: floating point against the exact formula
-/

namespace Verif.Cvss.V3

open Verif.Cvss.Spec

/-- The exploitability values, scope unchanged. -/
def explU : List ℚ :=
  [0, 3784077/31250000, 2075139/12500000, 26488539/125000000, 4344681/15625000, 14525973/50000000,
   41624847/125000000, 117306387/312500000, 2382567/6250000, 22826529/50000000, 30412767/62500000,
   64329309/125000000, 1306569/2500000, 291373929/500000000, 821144709/1250000000, 16677969/25000000,
   35277363/50000000, 47791491/62500000, 159785703/200000000, 134685111/156250000, 450305163/500000000,
   9145983/10000000, 26208237/25000000, 73859577/62500000, 246941541/200000000, 334540437/250000000,
   14372259/10000000, 942795777/625000000, 40503639/25000000, 183457659/100000000, 517017039/250000000,
   22211673/10000000, 100605813/40000000, 283525473/100000000, 155481711/40000000]

/-- The exploitability values, scope changed. -/
def explC : List ℚ :=
  [0, 140151/625000, 2382567/7812500, 76857/250000, 2382567/6250000, 981057/2500000, 1306569/3125000,
   1306569/2500000, 16677969/31250000, 537999/1000000, 1541661/2500000, 16677969/25000000, 4344681/6250000,
   9145983/12500000, 26208237/31250000, 845427/1000000, 9145983/10000000, 73859577/78125000, 2382567/2500000,
   26208237/25000000, 10791627/10000000, 14372259/12500000, 73859577/62500000, 30412767/25000000,
   40503639/31250000, 1306569/1000000, 14372259/10000000, 183457659/125000000, 5917989/4000000,
   40503639/25000000, 517017039/312500000, 16677969/10000000, 22211673/12500000, 183457659/100000000,
   100605813/50000000, 517017039/250000000, 22211673/10000000, 283525473/125000000, 9145983/4000000,
   100605813/40000000, 283525473/100000000, 155481711/50000000, 155481711/40000000]

/-- The impact sub-scores. -/
def issL : List ℚ :=
  [0, 11/50, 979/2500, 65681/125000, 14/25, 821/1250, 45769/62500, 504/625, 26531/31250, 14294/15625]


/-- The scoped impact, exactly. -/
def impactX (changed : Bool) (iss : ℚ) : ℚ :=
  if changed then 7.52 * (iss - 0.029) - 3.25 * (iss - 0.02) ^ 15 else 6.42 * iss

/-- The base equation from the two sub-scores, exactly. -/
def equationX (changed : Bool) (e iss : ℚ) : ℚ :=
  if impactX changed iss ≤ 0 then 0
  else if changed then min (1.08 * (impactX changed iss + e)) 10
  else min (impactX changed iss + e) 10

theorem v3Equation_eq (changed : Bool) (av ac pr ui c i a : ℚ) :
    v3Equation changed av ac pr ui c i a =
      equationX changed (8.22 * av * ac * pr * ui) (1 - (1 - c) * (1 - i) * (1 - a)) := rfl

/-- Far enough above the next lower tenth for the truncation of `Roundup` not to hide it. -/
def Clear (x : ℚ) : Prop := (⌈10 * x⌉ : ℚ) - 1 + 11 / 100000 ≤ 10 * x

instance (x : ℚ) : Decidable (Clear x) := by unfold Clear; infer_instance

theorem clear_unchanged : ∀ i ∈ issL, ∀ e ∈ explU, Clear (equationX false e i) := by decide +kernel

theorem clear_changed : ∀ i ∈ issL, ∀ e ∈ explC, Clear (equationX true e i) := by decide +kernel

theorem iss_range : ∀ i ∈ issL, 0 ≤ i ∧ i ≤ 0.92 ∧ (i = 0 ∨ 0.2 ≤ i) := by decide +kernel

theorem impact_range : ∀ i ∈ issL, |7.52 * (i - 0.029)| ≤ 8 ∧ |impactX true i| ≤ 8 ∧ |impactX false i| ≤ 8 ∧
    (impactX true i ≤ -0.1 ∨ 0.1 ≤ impactX true i) ∧ (impactX false i = 0 ∨ 0.1 ≤ impactX false i) := by
  decide +kernel

theorem explU_range : ∀ e ∈ explU, 0 ≤ e ∧ e ≤ 4 := by decide +kernel

theorem explC_range : ∀ e ∈ explC, 0 ≤ e ∧ e ≤ 4 := by decide +kernel

theorem near_pow15 {F : Fp} (hF : F.Ok) {x' x : ℚ} (h : Near 15 x' x) (hx : |x| ≤ 0.95) :
    Near 226 (F.pow15 x') (x ^ 15) := by
  unfold Near at *
  have h3 := abs_sub_abs_le_abs_sub x' x
  have hx' : |x'| ≤ 1 := by
    have : ((15 : ℕ) : ℚ) / 2 ^ 40 ≤ 0.01 := by norm_num
    linarith
  have h1 := hF.pow x' hx'
  have h2 := abs_pow_sub_pow_le x' x 15
  have hm : max |x'| |x| ^ (15 - 1) ≤ 1 := by
    apply pow_le_one₀
    · exact le_max_of_le_left (abs_nonneg _)
    · exact max_le hx' (by linarith)
  have h4 : |x' - x| * (15 : ℕ) * max |x'| |x| ^ (15 - 1) ≤ |x' - x| * (15 : ℕ) := by
    apply mul_le_of_le_one_right (by positivity) hm
  have h5 : |F.pow15 x' - x ^ 15| ≤ |F.pow15 x' - x' ^ 15| + |x' ^ 15 - x ^ 15| := abs_sub_le _ _ _
  push_cast at *
  have : (226 : ℚ) / 2 ^ 40 = 1 / 2 ^ 40 + 15 / 2 ^ 40 * 15 := by ring
  linarith

/-- The arithmetic before `roundup` is accurate. -/
theorem rawScore_near {F : Fp} (hF : F.Ok) (changed : Bool) {e' e i' i : ℚ} (he : Near 45 e' e)
    (he0 : 0 ≤ e ∧ e ≤ 4) (hi : Near 13 i' i) (hiL : i ∈ issL) (hi0 : i = 0 → i' = 0) :
    Near 4000 (rawScore F changed e' i') (equationX changed e i) := by
  obtain ⟨i0, i1, hi2⟩ := iss_range i hiL
  obtain ⟨m0, m1, m2, m3, m4⟩ := impact_range i hiL
  cases changed with
  | false =>
    unfold rawScore equationX
    simp only [Bool.not_false, if_true, Bool.false_eq_true, if_false]
    have hs : Near 106 (F.mul (F.fl 6.42) i') (6.42 * i) := by
      have h1 : Near 1 (F.fl 6.42) 6.42 := Near.lit hF (A := 7) (by norm_num [abs_of_nonneg]) (by norm_num)
      have := Near.mul hF h1 hi (A := 7) (B := 1) (by norm_num [abs_of_nonneg])
        (by rw [abs_of_nonneg i0]; push_cast; linarith) (by norm_num) (by norm_num) (by norm_num)
      simpa using this
    have hx : impactX false i = 6.42 * i := rfl
    rw [hx] at m2 m4 ⊢
    rw [fl_zero hF, fl_ten hF]
    rcases m4 with m4 | m4
    · have hz : i = 0 := by linarith
      have : F.mul (F.fl 6.42) 0 = 0 := by unfold Fp.mul; rw [mul_zero, fl_zero hF]
      rw [hi0 hz, if_pos this.le, if_pos m4.le]
      exact (Near.refl 0).mono (by norm_num)
    · rw [if_neg (not_le.mpr (near_pos hs (by norm_num) m4)), if_neg (by linarith)]
      apply near_min
      have := Near.add hF hs he (A := 12) (by
        rw [abs_of_nonneg (by linarith)]; rw [abs_le] at m2; push_cast; linarith [m2.2]) (by norm_num) (by norm_num)
      exact this.mono (by norm_num)
  | true =>
    unfold rawScore equationX
    simp only [Bool.not_true, Bool.false_eq_true, if_false, if_true]
    have a1 : |i - 0.029| ≤ ((1 : ℕ) : ℚ) := by rw [abs_le]; push_cast; constructor <;> linarith
    have a2 : |i - 0.02| ≤ 0.95 := by rw [abs_le]; constructor <;> linarith
    have hs : Near 1270 (F.sub (F.mul (F.fl 7.52) (F.sub i' (F.fl 0.029)))
        (F.mul (F.fl 3.25) (F.pow15 (F.sub i' (F.fl 0.02))))) (impactX true i) := by
      have hx : impactX true i = 7.52 * (i - 0.029) - 3.25 * (i - 0.02) ^ 15 := rfl
      have l1 : Near 1 (F.fl 7.52) 7.52 := Near.lit hF (A := 8) (by norm_num [abs_of_nonneg]) (by norm_num)
      have l2 : Near 1 (F.fl 0.029) 0.029 := Near.lit hF (A := 1) (by norm_num [abs_of_nonneg]) (by norm_num)
      have l3 : Near 1 (F.fl 3.25) 3.25 := Near.lit hF (A := 4) (by norm_num [abs_of_nonneg]) (by norm_num)
      have l4 : Near 1 (F.fl 0.02) 0.02 := Near.lit hF (A := 1) (by norm_num [abs_of_nonneg]) (by norm_num)
      have s1 : Near 15 (F.sub i' (F.fl 0.029)) (i - 0.029) :=
        (Near.sub hF hi l2 a1 (by norm_num) (by norm_num)).mono (by norm_num)
      have s2 : Near 15 (F.sub i' (F.fl 0.02)) (i - 0.02) :=
        (Near.sub hF hi l4 (A := 1) (a2.trans (by norm_num)) (by norm_num) (by norm_num)).mono (by norm_num)
      have p := near_pow15 hF s2 a2
      have p1 : |(i - 0.02) ^ 15| ≤ ((1 : ℕ) : ℚ) := by
        rw [abs_pow]; push_cast; exact pow_le_one₀ (abs_nonneg _) (a2.trans (by norm_num))
      have t1 := Near.mul hF l1 s1 (A := 8) (B := 1) (by norm_num [abs_of_nonneg]) a1 (by norm_num) (by norm_num)
        (by norm_num)
      have t2 := Near.mul hF l3 p (A := 4) (B := 1) (by norm_num [abs_of_nonneg]) p1 (by norm_num) (by norm_num)
        (by norm_num)
      have := Near.sub hF t1 t2 (A := 8) (by rw [← hx]; exact_mod_cast m1) (by norm_num) (by norm_num)
      rw [hx]
      exact this.mono (by norm_num)
    rw [fl_zero hF, fl_ten hF]
    rcases m3 with m3 | m3
    · rw [if_pos (near_neg hs (by norm_num) m3).le, if_pos (by linarith)]
      exact (Near.refl 0).mono (by norm_num)
    · rw [if_neg (not_le.mpr (near_pos hs (by norm_num) m3)), if_neg (by linarith)]
      apply near_min
      have hb : |impactX true i + e| ≤ ((12 : ℕ) : ℚ) := by
        rw [abs_of_nonneg (by linarith)]; rw [abs_le] at m1; push_cast; linarith [m1.2]
      have s := Near.add hF hs he hb (by norm_num) (by norm_num)
      have l : Near 1 (F.fl 1.08) 1.08 := Near.lit hF (A := 2) (by norm_num [abs_of_nonneg]) (by norm_num)
      have := Near.mul hF l s (A := 2) (B := 12) (by norm_num [abs_of_nonneg]) hb (by norm_num) (by norm_num)
        (by norm_num)
      exact this.mono (by norm_num)

/-- `roundup` finds the next tenth in spite of an inaccurate input. -/
theorem roundup_eq {F : Fp} (hF : F.Ok) {x' x : ℚ} (h : Near 4000 x' x) (h0 : 0 ≤ x) (h10 : x ≤ 10)
    (hc : Clear x) : roundup F x' = F.fl ((⌈10 * x⌉ : ℚ) / 10) := by
  obtain ⟨K, hK⟩ : ∃ K : ℕ, ⌈10 * x⌉ = K := Int.eq_ofNat_of_zero_le (Int.ceil_nonneg (by linarith))
  have hK1 : 10 * x ≤ K := by have := Int.le_ceil (10 * x); rw [hK] at this; exact_mod_cast this
  have hK2 : (K : ℚ) - 1 + 11 / 100000 ≤ 10 * x := by unfold Clear at hc; rw [hK] at hc; exact_mod_cast hc
  have hK100 : K ≤ 100 := by
    have : ⌈10 * x⌉ ≤ 100 := Int.ceil_le.mpr (by push_cast; linarith)
    omega
  rw [hK]
  unfold Near at h
  have h5 : F.fl 100000 = 100000 := by simpa using fl_nat hF 100000 (by norm_num)
  have h4 : F.fl 10000 = 10000 := by simpa using fl_nat hF 10000 (by norm_num)
  have hab := abs_le.mp h
  have e1 : ((4000 : ℕ) : ℚ) / 2 ^ 40 ≤ 1 / 10 ^ 8 := by norm_num
  -- the scaled value
  have hy := hF.err (x' * 100000) (by
    rw [abs_le]; constructor <;> norm_num <;> linarith [hab.1, hab.2])
  have hyb : |x' * 100000| ≤ 2000000 := by rw [abs_le]; constructor <;> linarith [hab.1, hab.2]
  have hye : |x' * 100000| / 2 ^ 52 + 1 / 2 ^ 100 ≤ 1 / 10 ^ 4 := by
    have : |x' * 100000| / 2 ^ 52 ≤ 2000000 / 2 ^ 52 := div_le_div_of_nonneg_right hyb (by positivity)
    have : (2000000 : ℚ) / 2 ^ 52 + 1 / 2 ^ 100 ≤ 1 / 10 ^ 4 := by norm_num
    linarith
  have hyab := abs_le.mp (hy.trans hye)
  unfold roundup
  simp only
  rw [h5, h4, fl_one hF, fl_ten hF]
  -- the truncated value
  have hn : ∀ n : ℕ, n = castU64 (F.mul x' 100000) → (K = 0 → n = 0) ∧ n ≤ K * 10000 ∧
      (0 < K → (K - 1) * 10000 + 1 ≤ n) := by
    intro n hn
    have hfl : castU64 (F.mul x' 100000) = ⌊F.mul x' 100000⌋.toNat := by
      unfold castU64 Fp.mul
      apply min_eq_left
      have : ⌊F.fl (x' * 100000)⌋ < 2000001 := by
        rw [Int.floor_lt]; push_cast; linarith [(abs_le.mp hyb).2, hyab.2]
      omega
    rw [hfl] at hn
    unfold Fp.mul at hn
    have up : F.fl (x' * 100000) < K * 10000 + 1 := by linarith [hab.2, hyab.2]
    have up' : ⌊F.fl (x' * 100000)⌋ < K * 10000 + 1 := by
      rw [Int.floor_lt]; push_cast; exact up
    refine ⟨fun hk => ?_, ?_, fun hk => ?_⟩
    · subst hk; omega
    · omega
    · have lo : ((K : ℚ) - 1) * 10000 + 1 ≤ F.fl (x' * 100000) := by linarith [hab.1, hyab.1]
      have lo' : ((K : ℤ) - 1) * 10000 + 1 ≤ ⌊F.fl (x' * 100000)⌋ := by
        rw [Int.le_floor]; push_cast; exact lo
      omega
  obtain ⟨n0, n1, n2⟩ := hn _ rfl
  generalize castU64 (F.mul x' 100000) = n at n0 n1 n2 ⊢
  have hnf : F.fl n = n := fl_nat hF n (by omega)
  rw [hnf]
  by_cases hmod : n % 10000 = 0
  · rw [if_pos hmod]
    have : n = K * 10000 := by
      rcases Nat.eq_zero_or_pos K with hk | hk
      · rw [n0 hk, hk]
      · have := n2 hk; omega
    unfold Fp.div
    rw [this]
    congr 1
    push_cast
    ring
  · rw [if_neg hmod]
    have hk : 0 < K := by
      rcases Nat.eq_zero_or_pos K with hk | hk
      · exfalso; apply hmod; rw [n0 hk]
      · exact hk
    have hlo := n2 hk
    have hhi : n + 1 ≤ K * 10000 := by
      rcases Nat.lt_or_ge n (K * 10000) with h | h
      · exact h
      · exfalso; apply hmod; have : n = K * 10000 := by omega
        rw [this]; simp
    have hK' : (((K - 1 : ℕ) : ℤ) : ℚ) = (K : ℚ) - 1 := by
      have : ((K - 1 : ℕ) : ℤ) = (K : ℤ) - 1 := by omega
      rw [this]; push_cast; ring
    have hd := hF.err ((n : ℚ) / 10000) (by
      rw [abs_of_nonneg (by positivity)]
      have : (n : ℚ) ≤ 1000000 := by exact_mod_cast (by omega : n ≤ 1000000)
      have : (n : ℚ) / 10000 ≤ 1000000 / 10000 := div_le_div_of_nonneg_right this (by positivity)
      norm_num at this ⊢
      linarith)
    have hde : |(n : ℚ) / 10000| / 2 ^ 52 + 1 / 2 ^ 100 ≤ 1 / 10 ^ 5 := by
      rw [abs_of_nonneg (by positivity)]
      have : (n : ℚ) ≤ 1000000 := by exact_mod_cast (by omega : n ≤ 1000000)
      have : (n : ℚ) / 10000 / 2 ^ 52 ≤ 1000000 / 10000 / 2 ^ 52 := by
        apply div_le_div_of_nonneg_right _ (by positivity)
        exact div_le_div_of_nonneg_right this (by positivity)
      have : (1000000 : ℚ) / 10000 / 2 ^ 52 + 1 / 2 ^ 100 ≤ 1 / 10 ^ 5 := by norm_num
      linarith
    have hdab := abs_le.mp (hd.trans hde)
    have q1 : ((K : ℚ) - 1) * 10000 + 1 ≤ n := by
      have : ((K : ℤ) - 1) * 10000 + 1 ≤ n := by omega
      exact_mod_cast this
    have q2 : (n : ℚ) + 1 ≤ K * 10000 := by exact_mod_cast hhi
    have hfl : ⌊F.fl ((n : ℚ) / 10000)⌋ = ((K - 1 : ℕ) : ℤ) := by
      apply floor_eq_of_bounds
      · rw [hK']; linarith [hdab.1]
      · rw [hK']; linarith [hdab.2]
    unfold floorF Fp.div Fp.add
    rw [hfl, hK']
    congr 1
    have : (K : ℚ) - 1 + 1 = K := by ring
    rw [this, fl_nat hF K (by omega)]
    push_cast
    rfl

end Verif.Cvss.V3
