import Verif.Lemmas.CvssV4Chain

/-!
# CVSS v4: monotonicity of the whole
-/

namespace Verif.Cvss.V4

open Verif.Cvss.Spec

section rows
variable {a b : Row} {δ δ' d d' d1 d2 d36 d4 D1 D2 D36 D4 : ℕ}

theorem at_ge1 (h : ge1 a b δ δ' D2 D36 D4 = true) (hd : d ≤ δ) (hd' : δ' ≤ d') (ha : 0 ≤ a.k1) (hb : 0 ≤ b.k1)
    (h2 : d2 ≤ D2) (h36 : d36 ≤ D36) (h4 : d4 ≤ D4) : b.at d' d2 d36 d4 ≤ a.at d d2 d36 d4 := by
  unfold ge1 at h
  rw [decide_eq_true_iff] at h
  have e1 := mul_le_mul_of_nonneg_left (by exact_mod_cast hd : (d : ℤ) ≤ δ) ha
  have e2 := mul_le_mul_of_nonneg_left (by exact_mod_cast hd' : (δ' : ℤ) ≤ d') hb
  have p2 := le_pos (x := a.k2 - b.k2) h2
  have p36 := le_pos (x := a.k36 - b.k36) h36
  have p4 := le_pos (x := a.k4 - b.k4) h4
  unfold Row.at
  rw [sub_mul] at p2 p36 p4
  linarith

theorem at_ge2 (h : ge2 a b δ δ' D1 D36 D4 = true) (hd : d ≤ δ) (hd' : δ' ≤ d') (ha : 0 ≤ a.k2) (hb : 0 ≤ b.k2)
    (h1 : d1 ≤ D1) (h36 : d36 ≤ D36) (h4 : d4 ≤ D4) : b.at d1 d' d36 d4 ≤ a.at d1 d d36 d4 := by
  unfold ge2 at h
  rw [decide_eq_true_iff] at h
  have e1 := mul_le_mul_of_nonneg_left (by exact_mod_cast hd : (d : ℤ) ≤ δ) ha
  have e2 := mul_le_mul_of_nonneg_left (by exact_mod_cast hd' : (δ' : ℤ) ≤ d') hb
  have p1 := le_pos (x := a.k1 - b.k1) h1
  have p36 := le_pos (x := a.k36 - b.k36) h36
  have p4 := le_pos (x := a.k4 - b.k4) h4
  unfold Row.at
  rw [sub_mul] at p1 p36 p4
  linarith

theorem at_ge36 (h : ge36 a b δ δ' D1 D2 D4 = true) (hd : d ≤ δ) (hd' : δ' ≤ d') (ha : 0 ≤ a.k36) (hb : 0 ≤ b.k36)
    (h1 : d1 ≤ D1) (h2 : d2 ≤ D2) (h4 : d4 ≤ D4) : b.at d1 d2 d' d4 ≤ a.at d1 d2 d d4 := by
  unfold ge36 at h
  rw [decide_eq_true_iff] at h
  have e1 := mul_le_mul_of_nonneg_left (by exact_mod_cast hd : (d : ℤ) ≤ δ) ha
  have e2 := mul_le_mul_of_nonneg_left (by exact_mod_cast hd' : (δ' : ℤ) ≤ d') hb
  have p1 := le_pos (x := a.k1 - b.k1) h1
  have p2 := le_pos (x := a.k2 - b.k2) h2
  have p4 := le_pos (x := a.k4 - b.k4) h4
  unfold Row.at
  rw [sub_mul] at p1 p2 p4
  linarith

theorem at_ge4 (h : ge4 a b δ δ' D1 D2 D36 = true) (hd : d ≤ δ) (hd' : δ' ≤ d') (ha : 0 ≤ a.k4) (hb : 0 ≤ b.k4)
    (h1 : d1 ≤ D1) (h2 : d2 ≤ D2) (h36 : d36 ≤ D36) : b.at d1 d2 d36 d' ≤ a.at d1 d2 d36 d := by
  unfold ge4 at h
  rw [decide_eq_true_iff] at h
  have e1 := mul_le_mul_of_nonneg_left (by exact_mod_cast hd : (d : ℤ) ≤ δ) ha
  have e2 := mul_le_mul_of_nonneg_left (by exact_mod_cast hd' : (δ' : ℤ) ≤ d') hb
  have p1 := le_pos (x := a.k1 - b.k1) h1
  have p2 := le_pos (x := a.k2 - b.k2) h2
  have p36 := le_pos (x := a.k36 - b.k36) h36
  unfold Row.at
  rw [sub_mul] at p1 p2 p36
  linarith

theorem at_ge5 (h : ge5 a b D1 D2 D36 D4 = true) (h1 : d1 ≤ D1) (h2 : d2 ≤ D2) (h36 : d36 ≤ D36) (h4 : d4 ≤ D4) :
    b.at d1 d2 d36 d4 ≤ a.at d1 d2 d36 d4 := by
  unfold ge5 at h
  rw [decide_eq_true_iff] at h
  have p1 := le_pos (x := a.k1 - b.k1) h1
  have p2 := le_pos (x := a.k2 - b.k2) h2
  have p36 := le_pos (x := a.k36 - b.k36) h36
  have p4 := le_pos (x := a.k4 - b.k4) h4
  unfold Row.at
  rw [sub_mul] at p1 p2 p36 p4
  linarith

end rows

theorem d1_le (x : G1) : x.d ≤ dmax1 x.cls ∧ x.cls < 3 := by
  obtain ⟨h, m, _, f, _, l⟩ := g1_ok x
  unfold G1.d; rw [f]; exact ⟨l, h⟩
theorem d2_le (x : G2) : x.d ≤ dmax2 x.cls ∧ x.cls < 2 := by
  obtain ⟨h, m, _, f, _, l⟩ := g2_ok x
  unfold G2.d; rw [f]; exact ⟨l, h⟩
theorem d4_le (x : G4) : x.d ≤ dmax4 x.cls ∧ x.cls < 3 := by
  obtain ⟨h, m, _, f, _, l⟩ := g4_ok x
  unfold G4.d; rw [f]; exact ⟨l, h⟩
theorem d36_le (x : G36) : x.d ≤ dmax36 x.cls3 x.cls6 ∧ (x.cls3, x.cls6) ∈ P36 := by
  obtain ⟨h, m, _, f, _, l⟩ := g36_ok x
  unfold G36.d; rw [f]; exact ⟨l, h⟩

/-- The exact score before rounding, times 50400. -/
def total (x1 : G1) (x2 : G2) (x36 : G36) (x4 : G4) (e5 : ℕ) : ℤ :=
  (row x1.cls x2.cls x36.cls3 x4.cls e5 x36.cls6).at x1.d x2.d x36.d x4.d

theorem raw_total (z : ScoringVector) : (50400 : ℚ) * z.eff.raw = total z.g1 z.g2 z.g36 z.g4 z.eq5 := by
  obtain ⟨c1, a, _, fa, da, _⟩ := g1_ok z.g1
  obtain ⟨c2, b, _, fb, db, _⟩ := g2_ok z.g2
  obtain ⟨c36, c, _, fc, dc, _⟩ := g36_ok z.g36
  obtain ⟨c4, d, _, fd, dd, _⟩ := g4_ok z.g4
  have hraw : z.eff.raw = v4Interpolate z.g1.cls z.g2.cls z.g36.cls3 z.g4.cls z.eq5 z.g36.cls6 z.g1.d z.g2.d
      z.g36.d z.g4.d := by
    unfold Eff.raw Eff.distance1 Eff.distance2 Eff.distance36 Eff.distance4
    rw [eff_eq1, eff_eq2, eff_eq3, eff_eq4, eff_eq5, eff_eq6]
    have p1 : v4Distance [stepAV, stepPR, stepUI] [z.eff.AV, z.eff.PR, z.eff.UI] (v4Max1 z.g1.cls) = _ := da
    have p2 : v4Distance [stepAC, stepAT] [z.eff.AC, z.eff.AT] (v4Max2 z.g2.cls) = _ := db
    have p36 : v4Distance [stepV, stepV, stepV, stepR, stepR, stepR]
      [z.eff.VC, z.eff.VI, z.eff.VA, z.eff.CR, z.eff.IR, z.eff.AR] (v4Max36 z.g36.cls3 z.g36.cls6) = _ := dc
    have p4 : v4Distance [stepS, stepS, stepS] [z.eff.SC, z.eff.SI, z.eff.SA] (v4Max4 z.g4.cls) = _ := dd
    unfold G1.d G2.d G36.d G4.d
    rw [p1, p2, p36, p4, fa, fb, fc, fd]
    rfl
  rw [hraw, row_eq c1 c2 c36 c4 (eq5_lt z)]
  rfl

section moves
variable (x1 : G1) (x2 : G2) (x36 : G36) (x4 : G4) {e5 : ℕ} (h5 : e5 < 3)
include h5

theorem move1 {y : G1} (h : x1.rel y = true) : total y x2 x36 x4 e5 ≤ total x1 x2 x36 x4 e5 := by
  obtain ⟨b2, c2⟩ := d2_le x2
  obtain ⟨b36, c36⟩ := d36_le x36
  obtain ⟨b4, c4⟩ := d4_le x4
  have px := (checkPos _ (List.mem_range.mpr (d1_le x1).2) _ (List.mem_range.mpr c2) _ c36 _ (List.mem_range.mpr c4) _
    (List.mem_range.mpr h5)).1
  have py := (checkPos _ (List.mem_range.mpr (d1_le y).2) _ (List.mem_range.mpr c2) _ c36 _ (List.mem_range.mpr c4) _
    (List.mem_range.mpr h5)).1
  unfold G1.rel rel at h
  rw [Bool.or_eq_true] at h
  rcases h with h | h
  · simp only [Bool.and_eq_true, beq_iff_eq, decide_eq_true_eq] at h
    unfold total
    rw [← h.1]
    have := mul_le_mul_of_nonneg_left (by exact_mod_cast h.2 : (x1.d : ℤ) ≤ y.d) px
    unfold Row.at
    linarith
  · rw [List.any_eq_true] at h
    obtain ⟨t, ht, h⟩ := h
    simp only [Bool.and_eq_true, beq_iff_eq, decide_eq_true_eq] at h
    obtain ⟨⟨⟨h1, h2⟩, h3⟩, h4⟩ := h
    have := check1 t ht _ (List.mem_range.mpr c2) _ c36 _ (List.mem_range.mpr c4) _ (List.mem_range.mpr h5)
    rw [h1, h2] at this
    exact at_ge1 this h3 h4 px py b2 b36 b4

theorem move2 {y : G2} (h : x2.rel y = true) : total x1 y x36 x4 e5 ≤ total x1 x2 x36 x4 e5 := by
  obtain ⟨b1, c1⟩ := d1_le x1
  obtain ⟨b36, c36⟩ := d36_le x36
  obtain ⟨b4, c4⟩ := d4_le x4
  have px := (checkPos _ (List.mem_range.mpr c1) _ (List.mem_range.mpr (d2_le x2).2) _ c36 _ (List.mem_range.mpr c4) _
    (List.mem_range.mpr h5)).2.1
  have py := (checkPos _ (List.mem_range.mpr c1) _ (List.mem_range.mpr (d2_le y).2) _ c36 _ (List.mem_range.mpr c4) _
    (List.mem_range.mpr h5)).2.1
  unfold G2.rel rel at h
  rw [Bool.or_eq_true] at h
  rcases h with h | h
  · simp only [Bool.and_eq_true, beq_iff_eq, decide_eq_true_eq] at h
    unfold total
    rw [← h.1]
    have := mul_le_mul_of_nonneg_left (by exact_mod_cast h.2 : (x2.d : ℤ) ≤ y.d) px
    unfold Row.at
    linarith
  · rw [List.any_eq_true] at h
    obtain ⟨t, ht, h⟩ := h
    simp only [Bool.and_eq_true, beq_iff_eq, decide_eq_true_eq] at h
    obtain ⟨⟨⟨h1, h2⟩, h3⟩, h4⟩ := h
    have := check2 t ht _ (List.mem_range.mpr c1) _ c36 _ (List.mem_range.mpr c4) _ (List.mem_range.mpr h5)
    rw [h1, h2] at this
    exact at_ge2 this h3 h4 px py b1 b36 b4

theorem move4 {y : G4} (h : x4.rel y = true) : total x1 x2 x36 y e5 ≤ total x1 x2 x36 x4 e5 := by
  obtain ⟨b1, c1⟩ := d1_le x1
  obtain ⟨b36, c36⟩ := d36_le x36
  obtain ⟨b2, c2⟩ := d2_le x2
  have px := (checkPos _ (List.mem_range.mpr c1) _ (List.mem_range.mpr c2) _ c36 _ (List.mem_range.mpr (d4_le x4).2) _
    (List.mem_range.mpr h5)).2.2.2
  have py := (checkPos _ (List.mem_range.mpr c1) _ (List.mem_range.mpr c2) _ c36 _ (List.mem_range.mpr (d4_le y).2) _
    (List.mem_range.mpr h5)).2.2.2
  unfold G4.rel rel at h
  rw [Bool.or_eq_true] at h
  rcases h with h | h
  · simp only [Bool.and_eq_true, beq_iff_eq, decide_eq_true_eq] at h
    unfold total
    rw [← h.1]
    have := mul_le_mul_of_nonneg_left (by exact_mod_cast h.2 : (x4.d : ℤ) ≤ y.d) px
    unfold Row.at
    linarith
  · rw [List.any_eq_true] at h
    obtain ⟨t, ht, h⟩ := h
    simp only [Bool.and_eq_true, beq_iff_eq, decide_eq_true_eq] at h
    obtain ⟨⟨⟨h1, h2⟩, h3⟩, h4⟩ := h
    have := check4 t ht _ (List.mem_range.mpr c1) _ (List.mem_range.mpr c2) _ c36 _ (List.mem_range.mpr h5)
    rw [h1, h2] at this
    exact at_ge4 this h3 h4 px py b1 b2 b36

theorem move36 {y : G36} (h : x36.rel y = true) : total x1 x2 y x4 e5 ≤ total x1 x2 x36 x4 e5 := by
  obtain ⟨b1, c1⟩ := d1_le x1
  obtain ⟨b2, c2⟩ := d2_le x2
  obtain ⟨b4, c4⟩ := d4_le x4
  have px := (checkPos _ (List.mem_range.mpr c1) _ (List.mem_range.mpr c2) _ (d36_le x36).2 _ (List.mem_range.mpr c4) _
    (List.mem_range.mpr h5)).2.2.1
  have py := (checkPos _ (List.mem_range.mpr c1) _ (List.mem_range.mpr c2) _ (d36_le y).2 _ (List.mem_range.mpr c4) _
    (List.mem_range.mpr h5)).2.2.1
  unfold G36.rel at h
  rw [Bool.or_eq_true] at h
  rcases h with h | h
  · simp only [Bool.and_eq_true, beq_iff_eq, decide_eq_true_eq] at h
    unfold total
    rw [← h.1.1, ← h.1.2]
    have := mul_le_mul_of_nonneg_left (by exact_mod_cast h.2 : (x36.d : ℤ) ≤ y.d) px
    unfold Row.at
    linarith
  · rw [List.any_eq_true] at h
    obtain ⟨t, ht, h⟩ := h
    simp only [Bool.and_eq_true, beq_iff_eq, decide_eq_true_eq] at h
    obtain ⟨⟨⟨⟨⟨h1, h2⟩, h3⟩, h4⟩, h6⟩, h7⟩ := h
    have := check36 t ht _ (List.mem_range.mpr c1) _ (List.mem_range.mpr c2) _ (List.mem_range.mpr c4) _
      (List.mem_range.mpr h5)
    rw [h1, h2, h3, h4] at this
    exact at_ge36 this h6 h7 px py b1 b2 b4

theorem move5 {f5 : ℕ} (hf : f5 < 3) (h : e5 ≤ f5) : total x1 x2 x36 x4 f5 ≤ total x1 x2 x36 x4 e5 := by
  obtain ⟨b1, c1⟩ := d1_le x1
  obtain ⟨b2, c2⟩ := d2_le x2
  obtain ⟨b36, c36⟩ := d36_le x36
  obtain ⟨b4, c4⟩ := d4_le x4
  rcases Nat.eq_or_lt_of_le h with rfl | hlt
  · exact le_rfl
  · have : (e5, f5) ∈ [(0, 1), (0, 2), (1, 2)] := by
      simp only [List.mem_cons, Prod.mk.injEq, List.not_mem_nil, or_false]
      omega
    have := check5 _ this _ (List.mem_range.mpr c1) _ (List.mem_range.mpr c2) _ c36 _ (List.mem_range.mpr c4)
    exact at_ge5 this b1 b2 b36 b4

end moves

/-- `z` is in every metric at least as severe as `y`. -/
def Above (z y : ScoringVector) : Prop :=
  (stepAV z.av.letter ≤ stepAV y.av.letter ∧ stepPR z.pr.letter ≤ stepPR y.pr.letter ∧
    stepUI z.ui.letter ≤ stepUI y.ui.letter) ∧
  (stepAC z.ac.letter ≤ stepAC y.ac.letter ∧ stepAT z.at_.letter ≤ stepAT y.at_.letter) ∧
  (stepV z.vc.letter ≤ stepV y.vc.letter ∧ stepV z.vi.letter ≤ stepV y.vi.letter ∧
    stepV z.va.letter ≤ stepV y.va.letter) ∧
  (stepR z.cr.letter ≤ stepR y.cr.letter ∧ stepR z.ir.letter ≤ stepR y.ir.letter ∧
    stepR z.ar.letter ≤ stepR y.ar.letter) ∧
  (stepS z.sc.letter ≤ stepS y.sc.letter ∧ stepS z.si.letter ≤ stepS y.si.letter ∧
    stepS z.sa.letter ≤ stepS y.sa.letter) ∧ stepE z.e.letter ≤ stepE y.e.letter

theorem eq5_step (z : ScoringVector) : z.eq5 = stepE z.e.letter := by
  unfold ScoringVector.eq5
  cases z.e <;> rfl

/-- The exact score before rounding is monotone. -/
theorem raw_mono {z y : ScoringVector} (h : Above z y) : y.eff.raw ≤ z.eff.raw := by
  obtain ⟨⟨a1, a2, a3⟩, ⟨b1, b2⟩, ⟨c1, c2, c3⟩, ⟨c4, c5, c6⟩, ⟨d1, d2, d3⟩, e⟩ := h
  have hz := eq5_lt z
  have hy := eq5_lt y
  rw [← eq5_step, ← eq5_step] at e
  have key : total y.g1 y.g2 y.g36 y.g4 y.eq5 ≤ total z.g1 z.g2 z.g36 z.g4 z.eq5 := by
    calc total y.g1 y.g2 y.g36 y.g4 y.eq5
        ≤ total ⟨z.av, y.pr, y.ui⟩ y.g2 y.g36 y.g4 y.eq5 := move1 _ _ _ _ hy (rel1_av _
          (MergedPrivilegesRequired.mem_all _) _ (MergedUserInteraction.mem_all _) _ (MergedAttackVector.mem_all _) _
          (MergedAttackVector.mem_all _) a1)
      _ ≤ total ⟨z.av, z.pr, y.ui⟩ y.g2 y.g36 y.g4 y.eq5 := move1 _ _ _ _ hy (rel1_pr _
          (MergedAttackVector.mem_all _) _ (MergedUserInteraction.mem_all _) _ (MergedPrivilegesRequired.mem_all _) _
          (MergedPrivilegesRequired.mem_all _) a2)
      _ ≤ total z.g1 y.g2 y.g36 y.g4 y.eq5 := move1 _ _ _ _ hy (rel1_ui _
          (MergedAttackVector.mem_all _) _ (MergedPrivilegesRequired.mem_all _) _ (MergedUserInteraction.mem_all _) _
          (MergedUserInteraction.mem_all _) a3)
      _ ≤ total z.g1 ⟨z.ac, y.at_⟩ y.g36 y.g4 y.eq5 := move2 _ _ _ _ hy (rel2_ac _
          (MergedAttackRequirements.mem_all _) _ (MergedAttackComplexity.mem_all _) _
          (MergedAttackComplexity.mem_all _) b1)
      _ ≤ total z.g1 z.g2 y.g36 y.g4 y.eq5 := move2 _ _ _ _ hy (rel2_at _
          (MergedAttackComplexity.mem_all _) _ (MergedAttackRequirements.mem_all _) _
          (MergedAttackRequirements.mem_all _) b2)
      _ ≤ total z.g1 z.g2 ⟨z.vc, y.vi, y.va, y.cr, y.ir, y.ar⟩ y.g4 y.eq5 := move36 _ _ _ _ hy (rel36_vc _
          (MergedIntegrityImpactToTheVulnerableSystem.mem_all _) _
          (MergedAvailabilityImpactToTheVulnerableSystem.mem_all _) _ (MergedConfidentialityRequirements.mem_all _) _
          (MergedIntegrityRequirements.mem_all _) _ (MergedAvailabilityRequirements.mem_all _) _
          (MergedConfidentialityImpactToTheVulnerableSystem.mem_all _) _
          (MergedConfidentialityImpactToTheVulnerableSystem.mem_all _) c1)
      _ ≤ total z.g1 z.g2 ⟨z.vc, z.vi, y.va, y.cr, y.ir, y.ar⟩ y.g4 y.eq5 := move36 _ _ _ _ hy (rel36_vi _
          (MergedConfidentialityImpactToTheVulnerableSystem.mem_all _) _
          (MergedAvailabilityImpactToTheVulnerableSystem.mem_all _) _ (MergedConfidentialityRequirements.mem_all _) _
          (MergedIntegrityRequirements.mem_all _) _ (MergedAvailabilityRequirements.mem_all _) _
          (MergedIntegrityImpactToTheVulnerableSystem.mem_all _) _
          (MergedIntegrityImpactToTheVulnerableSystem.mem_all _) c2)
      _ ≤ total z.g1 z.g2 ⟨z.vc, z.vi, z.va, y.cr, y.ir, y.ar⟩ y.g4 y.eq5 := move36 _ _ _ _ hy (rel36_va _
          (MergedConfidentialityImpactToTheVulnerableSystem.mem_all _) _
          (MergedIntegrityImpactToTheVulnerableSystem.mem_all _) _ (MergedConfidentialityRequirements.mem_all _) _
          (MergedIntegrityRequirements.mem_all _) _ (MergedAvailabilityRequirements.mem_all _) _
          (MergedAvailabilityImpactToTheVulnerableSystem.mem_all _) _
          (MergedAvailabilityImpactToTheVulnerableSystem.mem_all _) c3)
      _ ≤ total z.g1 z.g2 ⟨z.vc, z.vi, z.va, z.cr, y.ir, y.ar⟩ y.g4 y.eq5 := move36 _ _ _ _ hy (rel36_cr _
          (MergedConfidentialityImpactToTheVulnerableSystem.mem_all _) _
          (MergedIntegrityImpactToTheVulnerableSystem.mem_all _) _
          (MergedAvailabilityImpactToTheVulnerableSystem.mem_all _) _
          (MergedIntegrityRequirements.mem_all _) _ (MergedAvailabilityRequirements.mem_all _) _
          (MergedConfidentialityRequirements.mem_all _) _ (MergedConfidentialityRequirements.mem_all _) c4)
      _ ≤ total z.g1 z.g2 ⟨z.vc, z.vi, z.va, z.cr, z.ir, y.ar⟩ y.g4 y.eq5 := move36 _ _ _ _ hy (rel36_ir _
          (MergedConfidentialityImpactToTheVulnerableSystem.mem_all _) _
          (MergedIntegrityImpactToTheVulnerableSystem.mem_all _) _
          (MergedAvailabilityImpactToTheVulnerableSystem.mem_all _) _
          (MergedConfidentialityRequirements.mem_all _) _ (MergedAvailabilityRequirements.mem_all _) _
          (MergedIntegrityRequirements.mem_all _) _ (MergedIntegrityRequirements.mem_all _) c5)
      _ ≤ total z.g1 z.g2 z.g36 y.g4 y.eq5 := move36 _ _ _ _ hy (rel36_ar _
          (MergedConfidentialityImpactToTheVulnerableSystem.mem_all _) _
          (MergedIntegrityImpactToTheVulnerableSystem.mem_all _) _
          (MergedAvailabilityImpactToTheVulnerableSystem.mem_all _) _
          (MergedConfidentialityRequirements.mem_all _) _ (MergedIntegrityRequirements.mem_all _) _
          (MergedAvailabilityRequirements.mem_all _) _ (MergedAvailabilityRequirements.mem_all _) c6)
      _ ≤ total z.g1 z.g2 z.g36 ⟨z.sc, y.si, y.sa⟩ y.eq5 := move4 _ _ _ _ hy (rel4_sc _
          (MergedIntegrityImpactToTheSubsequentSystem.mem_all _) _
          (MergedAvailabilityImpactToTheSubsequentSystem.mem_all _) _
          (MergedConfidentialityImpactToTheSubsequentSystem.mem_all _) _
          (MergedConfidentialityImpactToTheSubsequentSystem.mem_all _) d1)
      _ ≤ total z.g1 z.g2 z.g36 ⟨z.sc, z.si, y.sa⟩ y.eq5 := move4 _ _ _ _ hy (rel4_si _
          (MergedConfidentialityImpactToTheSubsequentSystem.mem_all _) _
          (MergedAvailabilityImpactToTheSubsequentSystem.mem_all _) _
          (MergedIntegrityImpactToTheSubsequentSystem.mem_all _) _
          (MergedIntegrityImpactToTheSubsequentSystem.mem_all _) d2)
      _ ≤ total z.g1 z.g2 z.g36 z.g4 y.eq5 := move4 _ _ _ _ hy (rel4_sa _
          (MergedConfidentialityImpactToTheSubsequentSystem.mem_all _) _
          (MergedIntegrityImpactToTheSubsequentSystem.mem_all _) _
          (MergedAvailabilityImpactToTheSubsequentSystem.mem_all _) _
          (MergedAvailabilityImpactToTheSubsequentSystem.mem_all _) d3)
      _ ≤ total z.g1 z.g2 z.g36 z.g4 z.eq5 := move5 _ _ _ _ hz hy e
  have : ((total y.g1 y.g2 y.g36 y.g4 y.eq5 : ℤ) : ℚ) ≤ total z.g1 z.g2 z.g36 z.g4 z.eq5 := by exact_mod_cast key
  rw [← raw_total, ← raw_total] at this
  linarith

end Verif.Cvss.V4
