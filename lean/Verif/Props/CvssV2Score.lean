import Verif.Lemmas.CvssV2Score
import Verif.Props.CvssV3Score

/-!
# C36, C37, C60, C63: CVSS v2 scores
-/

namespace Verif.Cvss

open Verif.Cvss.Spec V2

namespace V2

/-- The weights of the model are those of the specification. -/
theorem weights (v : scheme.Metrics) (F : Fp) :
    (weightOr F AccessVector.score 0 (v .AV) = F.fl (v2Value v .AV) ∧
    weightOr F AccessComplexity.score 0 (v .AC) = F.fl (v2Value v .AC) ∧
    weightOr F Authentication.score 0 (v .Au) = F.fl (v2Value v .Au)) ∧
    (weightOr F ConfidentialityImpact.score 0 (v .C) = F.fl (v2Value v .C) ∧
    weightOr F IntegrityImpact.score 0 (v .I) = F.fl (v2Value v .I) ∧
    weightOr F AvailabilityImpact.score 0 (v .A) = F.fl (v2Value v .A)) ∧
    (weightOr F ConfidentialityRequirement.score 1 (v .CR) = F.fl (v2Value v .CR) ∧
    weightOr F IntegrityRequirement.score 1 (v .IR) = F.fl (v2Value v .IR) ∧
    weightOr F AvailabilityRequirement.score 1 (v .AR) = F.fl (v2Value v .AR)) ∧
    (weightOr F Exploitability.score 1 (v .E) = F.fl (v2Value v .E) ∧
    weightOr F RemediationLevel.score 1 (v .RL) = F.fl (v2Value v .RL) ∧
    weightOr F ReportConfidence.score 1 (v .RC) = F.fl (v2Value v .RC)) ∧
    weightOr F CollateralDamagePotential.score 0 (v .CDP) = F.fl (v2Value v .CDP) ∧
    weightOr F TargetDistribution.score 1 (v .TD) = F.fl (v2Value v .TD) := by
  unfold v2Value
  refine ⟨⟨?_, ?_, ?_⟩, ⟨?_, ?_, ?_⟩, ⟨?_, ?_, ?_⟩, ⟨?_, ?_, ?_⟩, ?_, ?_⟩
  · cases v .AV with
    | none => rfl
    | some x => exact congrArg F.fl (by cases x <;> norm_num [AccessVector.score, v2Weight])
  · cases v .AC with
    | none => rfl
    | some x => exact congrArg F.fl (by cases x <;> norm_num [AccessComplexity.score, v2Weight])
  · cases v .Au with
    | none => rfl
    | some x => exact congrArg F.fl (by cases x <;> norm_num [Authentication.score, v2Weight])
  · cases v .C with
    | none => rfl
    | some x => exact congrArg F.fl (by cases x <;> norm_num [ConfidentialityImpact.score, v2Weight])
  · cases v .I with
    | none => rfl
    | some x => exact congrArg F.fl (by cases x <;> norm_num [IntegrityImpact.score, v2Weight])
  · cases v .A with
    | none => rfl
    | some x => exact congrArg F.fl (by cases x <;> norm_num [AvailabilityImpact.score, v2Weight])
  · cases v .CR with
    | none => rfl
    | some x => exact congrArg F.fl (by cases x <;> norm_num [ConfidentialityRequirement.score, v2Weight])
  · cases v .IR with
    | none => rfl
    | some x => exact congrArg F.fl (by cases x <;> norm_num [IntegrityRequirement.score, v2Weight])
  · cases v .AR with
    | none => rfl
    | some x => exact congrArg F.fl (by cases x <;> norm_num [AvailabilityRequirement.score, v2Weight])
  · cases v .E with
    | none => rfl
    | some x => exact congrArg F.fl (by cases x <;> norm_num [Exploitability.score, v2Weight])
  · cases v .RL with
    | none => rfl
    | some x => exact congrArg F.fl (by cases x <;> norm_num [RemediationLevel.score, v2Weight])
  · cases v .RC with
    | none => rfl
    | some x => exact congrArg F.fl (by cases x <;> norm_num [ReportConfidence.score, v2Weight])
  · cases v .CDP with
    | none => rfl
    | some x => exact congrArg F.fl (by cases x <;> norm_num [CollateralDamagePotential.score, v2Weight])
  · cases v .TD with
    | none => rfl
    | some x => exact congrArg F.fl (by cases x <;> norm_num [TargetDistribution.score, v2Weight])

theorem value_mem (v : scheme.Metrics) :
    (v2Value v .AV ∈ [0, 0.395, 0.646, 1] ∧ v2Value v .AC ∈ [0, 0.35, 0.61, 0.71] ∧
      v2Value v .Au ∈ [0, 0.45, 0.56, 0.704]) ∧
    (v2Value v .C ∈ [0, 0.275, 0.66] ∧ v2Value v .I ∈ [0, 0.275, 0.66] ∧ v2Value v .A ∈ [0, 0.275, 0.66]) ∧
    (v2Value v .CR ∈ [0.5, 1, 1.51] ∧ v2Value v .IR ∈ [0.5, 1, 1.51] ∧ v2Value v .AR ∈ [0.5, 1, 1.51]) ∧
    (v2Value v .E ∈ [0.85, 0.9, 0.95, 1] ∧ v2Value v .RL ∈ [0.87, 0.9, 0.95, 1] ∧
      v2Value v .RC ∈ [0.9, 0.95, 1]) ∧
    v2Value v .CDP ∈ [0, 0.1, 0.3, 0.4, 0.5] ∧ v2Value v .TD ∈ [0, 0.25, 0.75, 1] := by
  unfold v2Value
  refine ⟨⟨?_, ?_, ?_⟩, ⟨?_, ?_, ?_⟩, ⟨?_, ?_, ?_⟩, ⟨?_, ?_, ?_⟩, ?_, ?_⟩
  · cases v .AV with
    | none => simp [v2Default]
    | some x => cases x <;> simp [v2Weight]
  · cases v .AC with
    | none => simp [v2Default]
    | some x => cases x <;> simp [v2Weight]
  · cases v .Au with
    | none => simp [v2Default]
    | some x => cases x <;> simp [v2Weight]
  · cases v .C with
    | none => simp [v2Default]
    | some x => cases x <;> simp [v2Weight]
  · cases v .I with
    | none => simp [v2Default]
    | some x => cases x <;> simp [v2Weight]
  · cases v .A with
    | none => simp [v2Default]
    | some x => cases x <;> simp [v2Weight]
  · cases v .CR with
    | none => simp [v2Default]
    | some x => cases x <;> simp [v2Weight]
  · cases v .IR with
    | none => simp [v2Default]
    | some x => cases x <;> simp [v2Weight]
  · cases v .AR with
    | none => simp [v2Default]
    | some x => cases x <;> simp [v2Weight]
  · cases v .E with
    | none => simp [v2Default]
    | some x => cases x <;> simp [v2Weight]
  · cases v .RL with
    | none => simp [v2Default]
    | some x => cases x <;> simp [v2Weight]
  · cases v .RC with
    | none => simp [v2Default]
    | some x => cases x <;> simp [v2Weight]
  · cases v .CDP with
    | none => simp [v2Default]
    | some x => cases x <;> simp [v2Weight]
  · cases v .TD with
    | none => simp [v2Default]
    | some x => cases x <;> simp [v2Weight]

theorem unit_range : ∀ l ∈ [[(0 : ℚ), 0.395, 0.646, 1], [(0 : ℚ), 0.35, 0.61, 0.71], [(0 : ℚ), 0.45, 0.56, 0.704],
    [(0 : ℚ), 0.275, 0.66], [(0.85 : ℚ), 0.9, 0.95, 1], [(0.87 : ℚ), 0.9, 0.95, 1], [(0.9 : ℚ), 0.95, 1],
    [(0 : ℚ), 0.1, 0.3, 0.4, 0.5], [(0 : ℚ), 0.25, 0.75, 1]], ∀ x ∈ l, 0 ≤ x ∧ x ≤ 1 := by
  decide +kernel

theorem req_range : ∀ x ∈ [(0.5 : ℚ), 1, 1.51], 0 ≤ x ∧ x ≤ 2 := by decide +kernel

theorem abs_one {x : ℚ} (h : 0 ≤ x ∧ x ≤ 1) : |x| ≤ ((1 : ℕ) : ℚ) := by
  rw [abs_of_nonneg h.1]; exact_mod_cast h.2

theorem mul_one_bound {x y : ℚ} {A : ℕ} (hx : |x| ≤ (A : ℚ)) (hy : |y| ≤ ((1 : ℕ) : ℚ)) : |x * y| ≤ (A : ℚ) := by
  rw [abs_mul]
  have := mul_le_mul hx hy (abs_nonneg _) (by positivity)
  simpa using this

theorem lit1 {F : Fp} (hF : F.Ok) {x : ℚ} (h : 0 ≤ x ∧ x ≤ 1) : Near 1 (F.fl x) x :=
  Near.lit hF (abs_one h) (by norm_num)

theorem exploitability_near {F : Fp} (hF : F.Ok) {av ac au : ℚ} (h1 : 0 ≤ av ∧ av ≤ 1) (h2 : 0 ≤ ac ∧ ac ≤ 1)
    (h3 : 0 ≤ au ∧ au ≤ 1) :
    Near 100 (F.mul (F.mul (F.mul (F.fl 20) (F.fl av)) (F.fl ac)) (F.fl au)) (20 * av * ac * au) := by
  have l : Near 1 (F.fl 20) 20 := Near.lit hF (A := 20) (by norm_num [abs_of_nonneg]) (by norm_num)
  have b0 : |(20 : ℚ)| ≤ ((20 : ℕ) : ℚ) := by norm_num [abs_of_nonneg]
  have s1 := Near.mul hF l (lit1 hF h1) b0 (abs_one h1) (by norm_num) (by norm_num) (by norm_num)
  have s2 := Near.mul hF s1 (lit1 hF h2) (mul_one_bound b0 (abs_one h1)) (abs_one h2) (by norm_num) (by norm_num)
    (by norm_num)
  have s3 := Near.mul hF s2 (lit1 hF h3) (mul_one_bound (mul_one_bound b0 (abs_one h1)) (abs_one h2)) (abs_one h3)
    (by norm_num) (by norm_num) (by norm_num)
  exact s3.mono (by norm_num)

/-- One minus the product of the complements, from approximate factors. -/
theorem iss_near {F : Fp} (hF : F.Ok) {k : ℕ} (hk : k ≤ 10) {c' i' a' c i a : ℚ} (n1 : Near k c' c) (n2 : Near k i' i)
    (n3 : Near k a' a) (h1 : 0 ≤ c ∧ c ≤ 1) (h2 : 0 ≤ i ∧ i ≤ 1) (h3 : 0 ≤ a ∧ a ≤ 1) :
    Near 2000 (F.mul (F.fl 10.41) (F.sub 1 (F.mul (F.mul (F.sub 1 c') (F.sub 1 i')) (F.sub 1 a'))))
      (10.41 * (1 - (1 - c) * (1 - i) * (1 - a))) := by
  have comp : ∀ {x : ℚ}, 0 ≤ x ∧ x ≤ 1 → 0 ≤ 1 - x ∧ 1 - x ≤ 1 := fun h => ⟨by linarith [h.2], by linarith [h.1]⟩
  have w : ∀ {x' x : ℚ}, Near k x' x → 0 ≤ x ∧ x ≤ 1 → Near 11 (F.sub 1 x') (1 - x) := by
    intro x' x hn hx
    exact (Near.sub hF (Near.refl 1) (hn.mono hk) (A := 1) (abs_one (comp hx)) (by norm_num) (by norm_num)).mono
      (by norm_num)
  have p1 : 0 ≤ (1 - c) * (1 - i) ∧ (1 - c) * (1 - i) ≤ 1 :=
    ⟨mul_nonneg (comp h1).1 (comp h2).1, mul_le_one₀ (comp h1).2 (comp h2).1 (comp h2).2⟩
  have p2 : 0 ≤ (1 - c) * (1 - i) * (1 - a) ∧ (1 - c) * (1 - i) * (1 - a) ≤ 1 :=
    ⟨mul_nonneg p1.1 (comp h3).1, mul_le_one₀ p1.2 (comp h3).1 (comp h3).2⟩
  have s1 := Near.mul hF (w n1 h1) (w n2 h2) (abs_one (comp h1)) (abs_one (comp h2)) (by norm_num) (by norm_num)
    (by norm_num)
  have s2 := Near.mul hF s1 (w n3 h3) (abs_one p1) (abs_one (comp h3)) (by norm_num) (by norm_num) (by norm_num)
  have s3 := Near.sub hF (Near.refl 1) s2 (A := 1) (abs_one (comp p2)) (by norm_num) (by norm_num)
  have l : Near 1 (F.fl 10.41) 10.41 := Near.lit hF (A := 11) (by norm_num [abs_of_nonneg]) (by norm_num)
  have s4 := Near.mul hF l s3 (A := 11) (B := 1) (by norm_num [abs_of_nonneg]) (abs_one (comp p2)) (by norm_num)
    (by norm_num) (by norm_num)
  exact s4.mono (by norm_num)

theorem minF_comm (x y : ℚ) : minF x y = minF y x := by
  unfold minF
  split_ifs with h1 h2 h2 <;> linarith

/-- The arithmetic of the base equation is accurate. -/
theorem rawBase_near {F : Fp} (hF : F.Ok) {i' i e' e : ℚ} (ni : Near 2000 i' i) (hi : i ∈ impL) (h0 : i = 0 → i' = 0)
    (ne : Near 100 e' e) (he : e ∈ explL) : Near 20000 (Vector.rawBase F i' e') (v2Equation i e) := by
  obtain ⟨hz, i0, i1⟩ := range_lists.2.1 i hi
  obtain ⟨e0, e1⟩ := range_lists.1 e he
  unfold Vector.rawBase v2Equation
  simp only
  rw [fl_zero hF]
  rcases hz with hz | hz
  · rw [if_pos (h0 hz), if_pos hz]
    unfold Fp.mul
    rw [mul_zero, mul_zero, fl_zero hF]
    exact (Near.refl 0).mono (by norm_num)
  · have hi0 : i' ≠ 0 := by
      have := near_pos ni (by norm_num) (by linarith)
      exact ne_of_gt this
    rw [if_neg hi0, if_neg (by linarith)]
    have l1 : Near 1 (F.fl 0.6) 0.6 := Near.lit hF (A := 1) (by norm_num [abs_of_nonneg]) (by norm_num)
    have l2 : Near 1 (F.fl 0.4) 0.4 := Near.lit hF (A := 1) (by norm_num [abs_of_nonneg]) (by norm_num)
    have l3 : Near 1 (F.fl 1.5) 1.5 := Near.lit hF (A := 2) (by norm_num [abs_of_nonneg]) (by norm_num)
    have l4 : Near 1 (F.fl 1.176) 1.176 := Near.lit hF (A := 2) (by norm_num [abs_of_nonneg]) (by norm_num)
    have s1 := Near.mul hF l1 ni (A := 1) (B := 11) (by norm_num [abs_of_nonneg])
      (by rw [abs_of_nonneg i0]; exact_mod_cast i1) (by norm_num) (by norm_num) (by norm_num)
    have s2 := Near.mul hF l2 ne (A := 1) (B := 10) (by norm_num [abs_of_nonneg])
      (by rw [abs_of_nonneg e0]; exact_mod_cast e1) (by norm_num) (by norm_num) (by norm_num)
    have s3 := Near.add hF s1 s2 (A := 20) (by rw [abs_of_nonneg (by linarith)]; push_cast; linarith) (by norm_num)
      (by norm_num)
    have b4 : |0.6 * i + 0.4 * e - 1.5| ≤ ((20 : ℕ) : ℚ) := by rw [abs_le]; push_cast; constructor <;> linarith
    have s4 := Near.sub hF s3 l3 b4 (by norm_num) (by norm_num)
    have s5 := Near.mul hF s4 l4 b4 (B := 2) (by norm_num [abs_of_nonneg]) (by norm_num) (by norm_num) (by norm_num)
    exact s5.mono (by norm_num)

/-- An impact computed in floating point, with its exact value. -/
structure ImpactOk (i' i : ℚ) : Prop where
  near : Near 2000 i' i
  mem : i ∈ impL
  zero : i = 0 → i' = 0

theorem v2Exploitability_mem (v : scheme.Metrics) : v2Exploitability v ∈ explL := by
  obtain ⟨⟨m1, m2, m3⟩, -⟩ := value_mem v
  exact expl_mem _ m1 _ m2 _ m3

theorem expl_near {F : Fp} (hF : F.Ok) (v : scheme.Metrics) :
    Near 100 (Vector.exploitability F v) (v2Exploitability v) := by
  obtain ⟨⟨m1, m2, m3⟩, -⟩ := value_mem v
  obtain ⟨⟨w1, w2, w3⟩, -⟩ := weights v F
  unfold Vector.exploitability v2Exploitability
  simp only
  rw [w1, w2, w3]
  exact exploitability_near hF (unit_range _ (by simp) _ m1) (unit_range _ (by simp) _ m2)
    (unit_range _ (by simp) _ m3)

theorem impact_ok {F : Fp} (hF : F.Ok) (v : scheme.Metrics) : ImpactOk (Vector.impact F v) (v2Impact v) := by
  obtain ⟨-, ⟨m1, m2, m3⟩, -⟩ := value_mem v
  obtain ⟨-, ⟨w1, w2, w3⟩, -⟩ := weights v F
  have u1 := unit_range _ (by simp) _ m1
  have u2 := unit_range _ (by simp) _ m2
  have u3 := unit_range _ (by simp) _ m3
  obtain ⟨hm, hz⟩ := imp_mem _ m1 _ m2 _ m3
  unfold Vector.impact v2Impact
  simp only
  rw [w1, w2, w3, fl_one hF]
  refine ⟨iss_near hF (k := 1) (by norm_num) (lit1 hF u1) (lit1 hF u2) (lit1 hF u3) u1 u2 u3, hm, ?_⟩
  intro h0
  obtain ⟨z1, z2, z3⟩ := hz.mp h0
  rw [z1, z2, z3, fl_zero hF]
  unfold Fp.sub Fp.mul
  simp [fl_one hF, fl_zero hF]

theorem adjustedImpact_ok {F : Fp} (hF : F.Ok) (v : scheme.Metrics) :
    ImpactOk (Vector.adjustedImpact F v) (v2AdjustedImpact v) := by
  obtain ⟨-, ⟨m1, m2, m3⟩, ⟨r1, r2, r3⟩, -⟩ := value_mem v
  obtain ⟨-, ⟨w1, w2, w3⟩, ⟨q1, q2, q3⟩, -⟩ := weights v F
  have u1 := unit_range _ (by simp) _ m1
  have u2 := unit_range _ (by simp) _ m2
  have u3 := unit_range _ (by simp) _ m3
  have a1 := (adj_mem _ m1).2 _ r1
  have a2 := (adj_mem _ m2).2 _ r2
  have a3 := (adj_mem _ m3).2 _ r3
  obtain ⟨hm, hz⟩ := adjImp_mem _ a1 _ a2 _ a3
  have pr : ∀ {x r : ℚ}, 0 ≤ x ∧ x ≤ 1 → r ∈ [(0.5 : ℚ), 1, 1.51] → Near 5 (F.mul (F.fl x) (F.fl r)) (x * r) := by
    intro x r hx hr
    obtain ⟨r0, r1⟩ := req_range _ hr
    have br : |r| ≤ ((2 : ℕ) : ℚ) := by rw [abs_of_nonneg r0]; exact_mod_cast r1
    exact (Near.mul hF (lit1 hF hx) (Near.lit hF br (by norm_num)) (abs_one hx) br (by norm_num) (by norm_num)
      (by norm_num)).mono (by norm_num)
  unfold Vector.adjustedImpact v2AdjustedImpact
  simp only
  rw [w1, w2, w3, q1, q2, q3, fl_one hF, fl_ten hF]
  have rl := range_lists.2.2.2
  have hn := iss_near hF (k := 5) (by norm_num) (pr u1 r1) (pr u2 r2) (pr u3 r3) (rl _ a1) (rl _ a2) (rl _ a3)
  refine ⟨?_, hm, ?_⟩
  · rw [minF_comm, min_comm]
    exact near_min hn
  · intro h0
    obtain ⟨z1, z2, z3⟩ := hz.mp h0
    have zc : ∀ {x r : ℚ}, r ∈ [(0.5 : ℚ), 1, 1.51] → x * r = 0 → x = 0 := by
      intro x r hr h
      rcases mul_eq_zero.mp h with h | h
      · exact h
      · subst h; exact absurd hr (by decide +kernel)
    rw [zc r1 z1, zc r2 z2, zc r3 z3, fl_zero hF]
    unfold Fp.sub Fp.mul minF
    simp [fl_one hF, fl_zero hF]

theorem baseInternal_eq {F : Fp} (hF : F.Ok) (v : scheme.Metrics) {i' i : ℚ} (h : ImpactOk i' i) :
    Vector.baseInternal F v i' = F.fl ((v2BaseOf v i : ℚ) / 10) ∧ -8 ≤ v2BaseOf v i ∧ v2BaseOf v i ≤ 100 := by
  obtain ⟨c, lo, hi⟩ := clear_base _ h.mem _ (v2Exploitability_mem v)
  have hn := rawBase_near hF h.near h.mem h.zero (expl_near hF v) (v2Exploitability_mem v)
  refine ⟨?_, lo, hi⟩
  refine roundup_tie hF hn (by norm_num) ?_ c
  have f1 : (round1 (v2Equation i (v2Exploitability v)) : ℚ) ≤ 10 * v2Equation i (v2Exploitability v) + 1 / 2 :=
    Int.floor_le _
  unfold ClearTie at c
  have lo' : (-8 : ℚ) ≤ (round1 (v2Equation i (v2Exploitability v)) : ℚ) := by exact_mod_cast lo
  have hi' : (round1 (v2Equation i (v2Exploitability v)) : ℚ) ≤ 100 := by exact_mod_cast hi
  rw [abs_le]
  constructor <;> linarith

theorem round1_mono {x y : ℚ} (h : x ≤ y) : round1 x ≤ round1 y := Int.floor_mono (by linarith)

theorem round1_int (k : ℤ) : round1 ((k : ℚ) / 10) = k := by
  unfold round1
  rw [show 10 * ((k : ℚ) / 10) + 1 / 2 = k + 1 / 2 by ring]
  apply floor_eq_of_bounds <;> linarith

/-- Rounding does not leave a range with integral tenths. -/
theorem round1_range {x : ℚ} {a b : ℤ} (h1 : (a : ℚ) / 10 ≤ x) (h2 : x ≤ (b : ℚ) / 10) : a ≤ round1 x ∧ round1 x ≤ b :=
  ⟨by rw [← round1_int a]; exact round1_mono h1, by rw [← round1_int b]; exact round1_mono h2⟩

theorem tenth_near {F : Fp} (hF : F.Ok) {k : ℤ} (h0 : -8 ≤ k) (h1 : k ≤ 100) : Near 1 (F.fl ((k : ℚ) / 10)) ((k : ℚ) / 10) := by
  apply Near.lit hF (A := 10) _ (by norm_num)
  have h0' : (-8 : ℚ) ≤ k := by exact_mod_cast h0
  have h1' : (k : ℚ) ≤ 100 := by exact_mod_cast h1
  rw [abs_le]
  push_cast
  constructor <;> linarith

theorem tenth_abs {k : ℤ} (h0 : -8 ≤ k) (h1 : k ≤ 100) : |(k : ℚ) / 10| ≤ ((10 : ℕ) : ℚ) := by
  have h0' : (-8 : ℚ) ≤ k := by exact_mod_cast h0
  have h1' : (k : ℚ) ≤ 100 := by exact_mod_cast h1
  rw [abs_le]
  push_cast
  constructor <;> linarith

theorem temporalInternal_eq {F : Fp} (hF : F.Ok) (v : scheme.Metrics) {i' i : ℚ} (h : ImpactOk i' i) :
    Vector.temporalInternal F v i' = F.fl ((v2TemporalOf v i : ℚ) / 10) ∧ -8 ≤ v2TemporalOf v i ∧
      v2TemporalOf v i ≤ 100 := by
  obtain ⟨hb, lo, hi⟩ := baseInternal_eq hF v h
  obtain ⟨-, -, -, ⟨m1, m2, m3⟩, -⟩ := value_mem v
  obtain ⟨-, -, -, ⟨w1, w2, w3⟩, -⟩ := weights v F
  have u1 := unit_range _ (by simp) _ m1
  have u2 := unit_range _ (by simp) _ m2
  have u3 := unit_range _ (by simp) _ m3
  have hw := temp_mem _ m1 _ m2 _ m3
  obtain ⟨t0, t1⟩ := range_lists.2.2.1 _ hw
  have hx : (v2BaseOf v i : ℚ) / 10 * v2Value v .E * v2Value v .RL * v2Value v .RC =
      (v2BaseOf v i : ℚ) / 10 * (v2Value v .E * v2Value v .RL * v2Value v .RC) := by ring
  have c := clear_temporal _ (mem_tenthsL.mpr ⟨lo, hi⟩) _ hw
  rw [← hx] at c
  have b0 := tenth_abs lo hi
  have s1 := Near.mul hF (tenth_near hF lo hi) (lit1 hF u1) b0 (abs_one u1) (by norm_num) (by norm_num) (by norm_num)
  have b1 := mul_one_bound b0 (abs_one u1)
  have s2 := Near.mul hF s1 (lit1 hF u2) b1 (abs_one u2) (by norm_num) (by norm_num) (by norm_num)
  have b2 := mul_one_bound b1 (abs_one u2)
  have s3 := Near.mul hF s2 (lit1 hF u3) b2 (abs_one u3) (by norm_num) (by norm_num) (by norm_num)
  have b3 := mul_one_bound b2 (abs_one u3)
  have lo' : (-8 : ℚ) ≤ v2BaseOf v i := by exact_mod_cast lo
  have hi' : (v2BaseOf v i : ℚ) ≤ 100 := by exact_mod_cast hi
  refine ⟨?_, ?_⟩
  · unfold Vector.temporalInternal
    simp only
    rw [hb, w1, w2, w3]
    exact roundup_tie hF s3 (by norm_num) (b3.trans (by norm_num)) c
  · unfold v2TemporalOf
    apply round1_range
    · rw [hx]; push_cast; nlinarith
    · rw [hx]; push_cast; nlinarith

theorem maxF_tenth {F : Fp} (hF : F.Ok) {k : ℤ} (h0 : -8 ≤ k) (h1 : k ≤ 100) :
    maxF (F.fl ((k : ℚ) / 10)) (F.fl 0) = F.fl (((max k 0 : ℤ) : ℚ) / 10) := by
  have e : F.fl 0 = F.fl (((0 : ℤ) : ℚ) / 10) := by norm_num
  rw [e]
  have hk : |k| ≤ 1000 := by rw [abs_le]; omega
  unfold maxF
  rcases le_total k 0 with h | h
  · rw [if_pos (fl_tenth_le hF hk (by norm_num) h), max_eq_right h]
  · rw [max_eq_left h]
    split_ifs with hle
    · exact le_antisymm (fl_tenth_le hF (by norm_num) hk h) hle
    · rfl

theorem env_range (v : scheme.Metrics) {k : ℤ} (lo : -8 ≤ k) (hi : k ≤ 100) :
    |((k : ℚ) / 10 + (10 - (k : ℚ) / 10) * v2Value v .CDP) * v2Value v .TD| ≤ 10 ∧
    -8 ≤ round1 (((k : ℚ) / 10 + (10 - (k : ℚ) / 10) * v2Value v .CDP) * v2Value v .TD) ∧
    round1 (((k : ℚ) / 10 + (10 - (k : ℚ) / 10) * v2Value v .CDP) * v2Value v .TD) ≤ 100 := by
  obtain ⟨-, -, -, -, m1, m2⟩ := value_mem v
  obtain ⟨c0, c1⟩ := unit_range _ (by simp) _ m1
  obtain ⟨d0, d1⟩ := unit_range _ (by simp) _ m2
  have lo' : (-8 : ℚ) ≤ k := by exact_mod_cast lo
  have hi' : (k : ℚ) ≤ 100 := by exact_mod_cast hi
  have a0 : (-8 : ℚ) / 10 ≤ (k : ℚ) / 10 + (10 - (k : ℚ) / 10) * v2Value v .CDP := by nlinarith
  have a1 : (k : ℚ) / 10 + (10 - (k : ℚ) / 10) * v2Value v .CDP ≤ 10 := by nlinarith
  have b0 : (-8 : ℚ) / 10 ≤ ((k : ℚ) / 10 + (10 - (k : ℚ) / 10) * v2Value v .CDP) * v2Value v .TD := by nlinarith
  have b1 : ((k : ℚ) / 10 + (10 - (k : ℚ) / 10) * v2Value v .CDP) * v2Value v .TD ≤ 10 := by nlinarith
  refine ⟨by rw [abs_le]; constructor <;> linarith, round1_range ?_ ?_⟩
  · push_cast; exact b0
  · push_cast; linarith

end V2

/-- **C60** (v2) In every arithmetic with the error bounds of binary64, the base, temporal and environmental
scores of a v2 vector are the (rounded) decimals with the tenths that the guide's equations give in exact
arithmetic. -/
theorem C60_v2 (F : Fp) (hF : F.Ok) (v : V2.Vector) :
    Vector.score F v = F.fl ((v2Base v : ℚ) / 10) ∧ Vector.temporalScore F v = F.fl ((v2Temporal v : ℚ) / 10) ∧
    Vector.environmentalScore F v = F.fl ((v2Environmental v : ℚ) / 10) := by
  refine ⟨?_, ?_, ?_⟩
  · obtain ⟨h, lo, hi⟩ := baseInternal_eq hF v (impact_ok hF v)
    unfold Vector.score v2Base
    rw [h, maxF_tenth hF lo hi]
  · obtain ⟨h, lo, hi⟩ := temporalInternal_eq hF v (impact_ok hF v)
    unfold Vector.temporalScore v2Temporal
    rw [h, maxF_tenth hF lo hi]
  · obtain ⟨h, lo, hi⟩ := temporalInternal_eq hF v (adjustedImpact_ok hF v)
    obtain ⟨-, -, -, -, m1, m2⟩ := value_mem v
    obtain ⟨-, -, -, -, w1, w2⟩ := weights v F
    have u1 := unit_range _ (by simp) _ m1
    have u2 := unit_range _ (by simp) _ m2
    have c := clear_env _ (mem_tenthsL.mpr ⟨lo, hi⟩) _ m1 _ m2
    obtain ⟨r0, r1, r2⟩ := env_range v lo hi
    have lo' : (-8 : ℚ) ≤ v2TemporalOf v (v2AdjustedImpact v) := by exact_mod_cast lo
    have hi' : (v2TemporalOf v (v2AdjustedImpact v) : ℚ) ≤ 100 := by exact_mod_cast hi
    unfold Vector.environmentalScore v2Environmental
    simp only
    rw [h, w1, w2]
    generalize hk : v2TemporalOf v (v2AdjustedImpact v) = k at lo hi c r0 r1 r2 lo' hi' ⊢
    have b1 : |10 - (k : ℚ) / 10| ≤ ((11 : ℕ) : ℚ) := by rw [abs_le]; push_cast; constructor <;> linarith
    have s1 := Near.sub hF (Near.refl 10) (tenth_near hF lo hi) b1 (by norm_num) (by norm_num)
    have s2 := Near.mul hF s1 (lit1 hF u1) b1 (abs_one u1) (by norm_num) (by norm_num) (by norm_num)
    have b3 : |(k : ℚ) / 10 + (10 - (k : ℚ) / 10) * v2Value v .CDP| ≤ ((21 : ℕ) : ℚ) := by
      have := abs_add_le ((k : ℚ) / 10) ((10 - (k : ℚ) / 10) * v2Value v .CDP)
      have h1 := tenth_abs lo hi
      have h2 := mul_one_bound b1 (abs_one u1)
      push_cast at *
      linarith
    have s3 := Near.add hF (tenth_near hF lo hi) s2 b3 (by norm_num) (by norm_num)
    have s4 := Near.mul hF s3 (lit1 hF u2) b3 (abs_one u2) (by norm_num) (by norm_num) (by norm_num)
    rw [fl_ten hF]
    have hr := roundup_tie hF s4 (by norm_num) (r0.trans (by norm_num)) c
    rw [show F.fl 10 = 10 from fl_ten hF] at hr
    unfold roundup
    rw [fl_ten hF, hr, maxF_tenth hF r1 r2]

theorem v2_range (v : V2.Vector) : (0 ≤ v2Base v ∧ v2Base v ≤ 100) ∧ (0 ≤ v2Temporal v ∧ v2Temporal v ≤ 100) ∧
    (0 ≤ v2Environmental v ∧ v2Environmental v ≤ 100) := by
  have hF := exact_ok
  obtain ⟨-, -, b2⟩ := baseInternal_eq hF v (impact_ok hF v)
  obtain ⟨-, -, t2⟩ := temporalInternal_eq hF v (impact_ok hF v)
  obtain ⟨-, a1, a2⟩ := temporalInternal_eq hF v (adjustedImpact_ok hF v)
  obtain ⟨-, -, r2⟩ := env_range v a1 a2
  unfold v2Base v2Temporal v2Environmental
  simp only
  omega

theorem fl_tenths_range {F : Fp} (hF : F.Ok) {k : ℤ} (h0 : 0 ≤ k) (h1 : k ≤ 100) :
    ∃ n : ℕ, n ≤ 100 ∧ F.fl ((k : ℚ) / 10) = F.fl ((n : ℚ) / 10) ∧ 0 ≤ F.fl ((k : ℚ) / 10) ∧
      F.fl ((k : ℚ) / 10) ≤ 10 := by
  obtain ⟨n, hn⟩ := Int.eq_ofNat_of_zero_le h0
  refine ⟨n, by omega, by rw [hn]; rfl, ?_, ?_⟩
  · have := fl_tenth_le hF (j := 0) (k := k) (by norm_num) (by rw [abs_of_nonneg h0]; omega) h0
    simpa [fl_zero hF] using this
  · have := fl_tenth_le hF (j := k) (k := 100) (by rw [abs_of_nonneg h0]; omega) (by norm_num) h1
    have h10 : F.fl (((100 : ℤ) : ℚ) / 10) = 10 := by
      rw [show (((100 : ℤ) : ℚ) / 10) = 10 by norm_num, fl_ten hF]
    rwa [h10] at this

/-- **C36** (v2) A v2 base, temporal or environmental score is a (rounded) decimal with one digit after the point,
from 0 to 10. -/
theorem C36_v2 (F : Fp) (hF : F.Ok) (v : V2.Vector) (s : ℚ)
    (hs : s = Vector.score F v ∨ s = Vector.temporalScore F v ∨ s = Vector.environmentalScore F v) :
    ∃ k : ℕ, k ≤ 100 ∧ s = F.fl ((k : ℚ) / 10) ∧ 0 ≤ s ∧ s ≤ 10 := by
  obtain ⟨c1, c2, c3⟩ := C60_v2 F hF v
  obtain ⟨⟨a0, a1⟩, ⟨b0, b1⟩, ⟨d0, d1⟩⟩ := v2_range v
  rcases hs with h | h | h
  · rw [h, c1]; exact fl_tenths_range hF a0 a1
  · rw [h, c2]; exact fl_tenths_range hF b0 b1
  · rw [h, c3]; exact fl_tenths_range hF d0 d1

/-- **C37** (v2) The severity of a v2 vector is the NVD range of its base score. -/
theorem C37_v2 (F : Fp) (hF : F.Ok) (v : V2.Vector) : BandV2 (v2Base v) (Vector.severity F v) := by
  obtain ⟨⟨h0, h1⟩, -⟩ := v2_range v
  have hk : |v2Base v| ≤ 1000 := by rw [abs_of_nonneg h0]; omega
  have e40 := fl_tenth_lt_iff hF hk (k := 40) (by norm_num)
  have e70 := fl_tenth_lt_iff hF hk (k := 70) (by norm_num)
  rw [show ((40 : ℤ) : ℚ) / 10 = 4 by norm_num] at e40
  rw [show ((70 : ℤ) : ℚ) / 10 = 7 by norm_num] at e70
  unfold Vector.severity severityV2 BandV2
  rw [(C60_v2 F hF v).1]
  simp only [e40, e70]
  split_ifs
  · left; exact ⟨rfl, by omega, by omega⟩
  · right; left; exact ⟨rfl, by omega, by omega⟩
  · right; right; exact ⟨rfl, by omega, by omega⟩

/-! ### C63: more severe metric values -/

namespace V2

theorem v2_set_same (v : scheme.Metrics) (m : MetricType) (x : m.Val) : Scheme.set v m x m = some x := by
  unfold Scheme.set
  rw [dif_pos rfl]

theorem v2_set_ne (v : scheme.Metrics) {m m' : MetricType} (x : m.Val) (h : m' ≠ m) :
    Scheme.set v m x m' = v m' := by
  unfold Scheme.set
  rw [dif_neg h]

theorem v2_weight_mono : ∀ (m : MetricType) (x y : m.Val), v2Rank m x ≤ v2Rank m y → v2Weight m x ≤ v2Weight m y := by
  intro m x y
  cases m <;> cases x <;> cases y <;>
    first
    | (intro h; norm_num [v2Weight]; done)
    | (intro h; exact absurd h (by decide))

theorem v2Value_set (v : scheme.Metrics) (m : MetricType) (x y : m.Val) (h : v2Rank m x ≤ v2Rank m y)
    (m' : MetricType) : v2Value (Scheme.set v m x) m' ≤ v2Value (Scheme.set v m y) m' := by
  unfold v2Value
  by_cases hm : m' = m
  · subst hm
    rw [v2_set_same, v2_set_same]
    exact v2_weight_mono _ _ _ h
  · rw [v2_set_ne _ _ hm, v2_set_ne _ _ hm]

theorem v2Value_nonneg (v : scheme.Metrics) (m : MetricType) : 0 ≤ v2Value v m := by
  unfold v2Value
  cases h : v m with
  | none => cases m <;> norm_num [v2Default]
  | some x => cases m <;> cases x <;> norm_num [v2Weight]

section
variable {v v' : scheme.Metrics} (h : ∀ m, v2Value v m ≤ v2Value v' m)
include h

theorem v2Expl_mono : v2Exploitability v ≤ v2Exploitability v' := by
  unfold v2Exploitability
  have n := fun m => v2Value_nonneg v m
  have n' := fun m => v2Value_nonneg v' m
  refine mul_le_mul (mul_le_mul (mul_le_mul le_rfl (h .AV) (n .AV) (by norm_num)) (h .AC) (n .AC) ?_) (h .Au) (n .Au) ?_
  · exact mul_nonneg (by norm_num) (n' .AV)
  · exact mul_nonneg (mul_nonneg (by norm_num) (n' .AV)) (n' .AC)

theorem v2Impact_mono : v2Impact v ≤ v2Impact v' := by
  unfold v2Impact
  obtain ⟨-, ⟨m1, m2, m3⟩, -⟩ := value_mem v
  obtain ⟨-, ⟨k1, k2, k3⟩, -⟩ := value_mem v'
  obtain ⟨-, c1⟩ := unit_range _ (by simp) _ m1
  obtain ⟨-, i1⟩ := unit_range _ (by simp) _ m2
  obtain ⟨-, a1⟩ := unit_range _ (by simp) _ m3
  obtain ⟨-, c2⟩ := unit_range _ (by simp) _ k1
  obtain ⟨-, i2⟩ := unit_range _ (by simp) _ k2
  obtain ⟨-, a2⟩ := unit_range _ (by simp) _ k3
  have h1 : (1 - v2Value v' .C) * (1 - v2Value v' .I) ≤ (1 - v2Value v .C) * (1 - v2Value v .I) :=
    mul_le_mul (by linarith [h .C]) (by linarith [h .I]) (by linarith) (by linarith)
  have h2 : (1 - v2Value v' .C) * (1 - v2Value v' .I) * (1 - v2Value v' .A) ≤
      (1 - v2Value v .C) * (1 - v2Value v .I) * (1 - v2Value v .A) :=
    mul_le_mul h1 (by linarith [h .A]) (by linarith) (mul_nonneg (by linarith) (by linarith))
  linarith

end

theorem v2Impact_cases (v : scheme.Metrics) : v2Impact v = 0 ∨ 2.8 ≤ v2Impact v := by
  obtain ⟨-, ⟨m1, m2, m3⟩, -⟩ := value_mem v
  have : ∀ c ∈ [(0 : ℚ), 0.275, 0.66], ∀ i ∈ [(0 : ℚ), 0.275, 0.66], ∀ a ∈ [(0 : ℚ), 0.275, 0.66],
    10.41 * (1 - (1 - c) * (1 - i) * (1 - a)) = 0 ∨ 2.8 ≤ 10.41 * (1 - (1 - c) * (1 - i) * (1 - a)) := by
    decide +kernel
  exact this _ m1 _ m2 _ m3

theorem v2Expl_nonneg (v : scheme.Metrics) : 0 ≤ v2Exploitability v := by
  unfold v2Exploitability
  exact mul_nonneg (mul_nonneg (mul_nonneg (by norm_num) (v2Value_nonneg v _)) (v2Value_nonneg v _)) (v2Value_nonneg v _)

theorem v2Equation_nonneg (v : scheme.Metrics) : 0 ≤ v2Equation (v2Impact v) (v2Exploitability v) := by
  unfold v2Equation
  have := v2Expl_nonneg v
  rcases v2Impact_cases v with h | h
  · rw [if_pos h]; norm_num
  · rw [if_neg (by linarith)]
    apply mul_nonneg _ (by norm_num)
    linarith

theorem v2BaseOf_mono {v v' : scheme.Metrics} (h : ∀ m, v2Value v m ≤ v2Value v' m) :
    v2BaseOf v (v2Impact v) ≤ v2BaseOf v' (v2Impact v') := by
  unfold v2BaseOf
  apply round1_mono
  have n0 := v2Equation_nonneg v'
  have hi := v2Impact_mono h
  have he := v2Expl_mono h
  rcases v2Impact_cases v with h0 | h0
  · have : v2Equation (v2Impact v) (v2Exploitability v) = 0 := by unfold v2Equation; rw [if_pos h0, mul_zero]
    rw [this]; exact n0
  · unfold v2Equation
    rw [if_neg (by linarith), if_neg (by linarith)]
    apply mul_le_mul_of_nonneg_right _ (by norm_num)
    linarith

theorem v2BaseOf_nonneg (v : scheme.Metrics) : 0 ≤ v2BaseOf v (v2Impact v) := by
  unfold v2BaseOf round1
  exact Int.floor_nonneg.mpr (by linarith [v2Equation_nonneg v])

theorem v2TemporalOf_mono {v v' : scheme.Metrics} (h : ∀ m, v2Value v m ≤ v2Value v' m) :
    v2TemporalOf v (v2Impact v) ≤ v2TemporalOf v' (v2Impact v') := by
  unfold v2TemporalOf
  apply round1_mono
  have b0 : (0 : ℚ) ≤ v2BaseOf v (v2Impact v) / 10 := by
    have : (0 : ℚ) ≤ v2BaseOf v (v2Impact v) := by exact_mod_cast v2BaseOf_nonneg v
    linarith
  have b1 : (v2BaseOf v (v2Impact v) : ℚ) / 10 ≤ v2BaseOf v' (v2Impact v') / 10 := by
    have : (v2BaseOf v (v2Impact v) : ℚ) ≤ v2BaseOf v' (v2Impact v') := by exact_mod_cast v2BaseOf_mono h
    linarith
  have n := fun m => v2Value_nonneg v m
  have n' := fun m => v2Value_nonneg v' m
  have b2 : (0 : ℚ) ≤ v2BaseOf v' (v2Impact v') / 10 := b0.trans b1
  refine mul_le_mul (mul_le_mul (mul_le_mul b1 (h .E) (n .E) b2) (h .RL) (n .RL) ?_) (h .RC) (n .RC) ?_
  · exact mul_nonneg b2 (n' .E)
  · exact mul_nonneg (mul_nonneg b2 (n' .E)) (n' .RL)

end V2

/-- **C63** Replacing the value of any one metric of a v2 vector by a more severe one never lowers its base score
or its temporal score. -/
theorem C63_monotone (F : Fp) (hF : F.Ok) (v : V2.Vector) (m : V2.MetricType) (x y : m.Val)
    (h : v2Rank m x ≤ v2Rank m y) :
    Vector.score F (Scheme.set v m x) ≤ Vector.score F (Scheme.set v m y) ∧
    Vector.temporalScore F (Scheme.set v m x) ≤ Vector.temporalScore F (Scheme.set v m y) := by
  have hv := v2Value_set v m x y h
  obtain ⟨x1, x2, -⟩ := C60_v2 F hF (Scheme.set v m x)
  obtain ⟨y1, y2, -⟩ := C60_v2 F hF (Scheme.set v m y)
  obtain ⟨⟨a0, a1⟩, ⟨b0, b1⟩, -⟩ := v2_range (Scheme.set v m x)
  obtain ⟨⟨c0, c1⟩, ⟨d0, d1⟩, -⟩ := v2_range (Scheme.set v m y)
  rw [x1, x2, y1, y2]
  constructor
  · apply fl_tenth_le hF (by rw [abs_of_nonneg a0]; omega) (by rw [abs_of_nonneg c0]; omega)
    exact max_le_max (v2BaseOf_mono hv) le_rfl
  · apply fl_tenth_le hF (by rw [abs_of_nonneg b0]; omega) (by rw [abs_of_nonneg d0]; omega)
    exact max_le_max (v2TemporalOf_mono hv) le_rfl

/-- **C63** A larger collateral damage potential or target distribution never lowers the environmental score. -/
theorem C63_environmental (F : Fp) (hF : F.Ok) (v : V2.Vector) (m : V2.MetricType) (hm : m = .CDP ∨ m = .TD)
    (x y : m.Val) (h : v2Rank m x ≤ v2Rank m y) :
    Vector.environmentalScore F (Scheme.set v m x) ≤ Vector.environmentalScore F (Scheme.set v m y) := by
  have hv := v2Value_set v m x y h
  obtain ⟨-, -, x3⟩ := C60_v2 F hF (Scheme.set v m x)
  obtain ⟨-, -, y3⟩ := C60_v2 F hF (Scheme.set v m y)
  obtain ⟨-, -, ⟨a0, a1⟩⟩ := v2_range (Scheme.set v m x)
  obtain ⟨-, -, ⟨c0, c1⟩⟩ := v2_range (Scheme.set v m y)
  rw [x3, y3]
  apply fl_tenth_le hF (by rw [abs_of_nonneg a0]; omega) (by rw [abs_of_nonneg c0]; omega)
  have same : ∀ m', m' ≠ m → v2Value (Scheme.set v m x) m' = v2Value (Scheme.set v m y) m' := by
    intro m' hne
    unfold v2Value
    rw [v2_set_ne _ _ hne, v2_set_ne _ _ hne]
  have ne : ∀ m', m' ≠ .CDP → m' ≠ .TD → m' ≠ m := by
    rintro m' h1 h2 rfl
    rcases hm with hm | hm
    · exact h1 hm
    · exact h2 hm
  have hA : v2AdjustedImpact (Scheme.set v m x) = v2AdjustedImpact (Scheme.set v m y) := by
    unfold v2AdjustedImpact
    rw [same .C (ne _ (by decide) (by decide)), same .I (ne _ (by decide) (by decide)),
      same .A (ne _ (by decide) (by decide)), same .CR (ne _ (by decide) (by decide)),
      same .IR (ne _ (by decide) (by decide)), same .AR (ne _ (by decide) (by decide))]
  have hT : v2TemporalOf (Scheme.set v m x) (v2AdjustedImpact (Scheme.set v m x)) =
      v2TemporalOf (Scheme.set v m y) (v2AdjustedImpact (Scheme.set v m y)) := by
    rw [hA]
    unfold v2TemporalOf v2BaseOf v2Exploitability
    rw [same .AV (ne _ (by decide) (by decide)), same .AC (ne _ (by decide) (by decide)),
      same .Au (ne _ (by decide) (by decide)), same .E (ne _ (by decide) (by decide)),
      same .RL (ne _ (by decide) (by decide)), same .RC (ne _ (by decide) (by decide))]
  obtain ⟨-, lo, hi⟩ := temporalInternal_eq exact_ok (Scheme.set v m y) (adjustedImpact_ok exact_ok (Scheme.set v m y))
  unfold v2Environmental
  simp only
  rw [hT]
  have hi' : (v2TemporalOf (Scheme.set v m y) (v2AdjustedImpact (Scheme.set v m y)) : ℚ) ≤ 100 := by exact_mod_cast hi
  generalize (v2TemporalOf (Scheme.set v m y) (v2AdjustedImpact (Scheme.set v m y)) : ℚ) = k at hi'
  have hc := hv .CDP
  have hd := hv .TD
  have d0 := v2Value_nonneg (Scheme.set v m x) .TD
  have hx : k / 10 + (10 - k / 10) * v2Value (Scheme.set v m x) .CDP ≤
      k / 10 + (10 - k / 10) * v2Value (Scheme.set v m y) .CDP := by
    have := mul_le_mul_of_nonneg_left hc (by linarith : 0 ≤ 10 - k / 10)
    linarith
  rcases le_total 0 (k / 10 + (10 - k / 10) * v2Value (Scheme.set v m y) .CDP) with hp | hp
  · apply max_le_max _ le_rfl
    apply round1_mono
    calc _ ≤ (k / 10 + (10 - k / 10) * v2Value (Scheme.set v m y) .CDP) * v2Value (Scheme.set v m x) .TD :=
          mul_le_mul_of_nonneg_right hx d0
      _ ≤ _ := mul_le_mul_of_nonneg_left hd hp
  · have : round1 ((k / 10 + (10 - k / 10) * v2Value (Scheme.set v m x) .CDP) * v2Value (Scheme.set v m x) .TD) ≤ 0 := by
      have h0 : (k / 10 + (10 - k / 10) * v2Value (Scheme.set v m x) .CDP) * v2Value (Scheme.set v m x) .TD ≤ 0 :=
        mul_nonpos_of_nonpos_of_nonneg (hx.trans hp) d0
      have := round1_mono h0
      rwa [show round1 0 = 0 by unfold round1; norm_num] at this
    rw [max_eq_right this]
    exact le_max_right _ _

/-- `AV:L/AC:H/Au:M/C:N/I:N/A:N/CDP:H/CR:L`. -/
def exV2none : V2.Vector := fun m => match m with
  | .AV => some .local | .AC => some .high | .Au => some .multiple | .C => some .none | .I => some .none
  | .A => some .none | .CDP => some .high | .CR => some .low | _ => none

/-- **C63**, what fails: the environmental score of a v2 vector can fall when an impact is made more severe: an
adjusted base score can be negative (here -0.2), and the clamp at 0 comes only at the end.  With partial instead
of no confidentiality impact, the score of this vector goes from 5.0 to 4.9. -/
theorem C63_environmental_violation :
    v2Rank .C V2.ConfidentialityImpact.none ≤ v2Rank .C V2.ConfidentialityImpact.part ∧
    Vector.environmentalScore binary64 (Scheme.set (S := V2.scheme) exV2none .C V2.ConfidentialityImpact.part) <
      Vector.environmentalScore binary64 (Scheme.set (S := V2.scheme) exV2none .C V2.ConfidentialityImpact.none) := by
  refine ⟨by decide, ?_⟩
  rw [(C60_v2 binary64 binary64_ok _).2.2, (C60_v2 binary64 binary64_ok _).2.2]
  have v1 : ∀ m, v2Value (Scheme.set (S := V2.scheme) exV2none .C V2.ConfidentialityImpact.part) m =
      match m with
      | .AV => 0.395 | .AC => 0.35 | .Au => 0.45 | .C => 0.275 | .I => 0 | .A => 0 | .E => 1 | .RL => 1 | .RC => 1
      | .CDP => 0.5 | .TD => 1 | .CR => 0.5 | .IR => 1 | .AR => 1 := by
    intro m
    cases m <;> rfl
  have v2 : ∀ m, v2Value (Scheme.set (S := V2.scheme) exV2none .C V2.ConfidentialityImpact.none) m =
      match m with
      | .AV => 0.395 | .AC => 0.35 | .Au => 0.45 | .C => 0 | .I => 0 | .A => 0 | .E => 1 | .RL => 1 | .RC => 1
      | .CDP => 0.5 | .TD => 1 | .CR => 0.5 | .IR => 1 | .AR => 1 := by
    intro m
    cases m <;> rfl
  have e1 : v2Environmental (Scheme.set (S := V2.scheme) exV2none .C V2.ConfidentialityImpact.part) = 49 := by
    unfold v2Environmental v2TemporalOf v2BaseOf v2AdjustedImpact v2Exploitability v2Equation round1
    simp only [v1]
    decide +kernel
  have e2 : v2Environmental (Scheme.set (S := V2.scheme) exV2none .C V2.ConfidentialityImpact.none) = 50 := by
    unfold v2Environmental v2TemporalOf v2BaseOf v2AdjustedImpact v2Exploitability v2Equation round1
    simp only [v2]
    decide +kernel
  rw [e1, e2]
  exact fl_tenth_lt binary64_ok (by norm_num) (by norm_num) (by norm_num)

/-! ### A concrete case: `exV2`, the first example of section 3.3 of the guide (base 7.8, temporal 6.4) -/

theorem v2_exV2 : v2Base exV2 = 78 ∧ v2Temporal exV2 = 64 := by
  have h (m : V2.MetricType) (x : ℚ) (hx : v2Value exV2 m = x) : v2Value exV2 m = x := hx
  unfold v2Base v2Temporal v2TemporalOf v2BaseOf v2Impact v2Exploitability v2Equation round1
  rw [h .AV 1 rfl, h .AC 0.71 rfl, h .Au 0.704 rfl, h .C 0 rfl, h .I 0 rfl, h .A 0.66 rfl, h .E 0.95 rfl,
    h .RL 0.87 rfl, h .RC 1 rfl]
  decide +kernel

example : Vector.score binary64 exV2 = binary64.fl 7.8 ∧ Vector.temporalScore binary64 exV2 = binary64.fl 6.4 := by
  obtain ⟨h1, h2, -⟩ := C60_v2 binary64 binary64_ok exV2
  rw [h1, h2, v2_exV2.1, v2_exV2.2]
  norm_num

example : v2Rank .AV V2.AccessVector.local ≤ v2Rank .AV V2.AccessVector.network := by decide

end Verif.Cvss
