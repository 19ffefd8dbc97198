import Verif.Lemmas.CvssV4Parse

/-!
# CVSS v4: from vectors to the letters that count
-/

namespace Verif.Cvss.V4

open Verif.Cvss.Spec

theorem eff_AV (v : scheme.Metrics) {x : AttackVector} (h : v .AV = some x) :
    v4Modified v .AV .MAV = some (x.merge (v .MAV)).letter := by
  unfold v4Modified v4Letter
  rw [h]
  cases v .MAV with
  | none => cases x <;> rfl
  | some y => cases y <;> first | rfl | (cases x <;> rfl)

theorem eff_PR (v : scheme.Metrics) {x : PrivilegesRequired} (h : v .PR = some x) :
    v4Modified v .PR .MPR = some (x.merge (v .MPR)).letter := by
  unfold v4Modified v4Letter
  rw [h]
  cases v .MPR with
  | none => cases x <;> rfl
  | some y => cases y <;> first | rfl | (cases x <;> rfl)

theorem eff_UI (v : scheme.Metrics) {x : UserInteraction} (h : v .UI = some x) :
    v4Modified v .UI .MUI = some (x.merge (v .MUI)).letter := by
  unfold v4Modified v4Letter
  rw [h]
  cases v .MUI with
  | none => cases x <;> rfl
  | some y => cases y <;> first | rfl | (cases x <;> rfl)

theorem eff_AC (v : scheme.Metrics) {x : AttackComplexity} (h : v .AC = some x) :
    v4Modified v .AC .MAC = some (x.merge (v .MAC)).letter := by
  unfold v4Modified v4Letter
  rw [h]
  cases v .MAC with
  | none => cases x <;> rfl
  | some y => cases y <;> first | rfl | (cases x <;> rfl)

theorem eff_AT (v : scheme.Metrics) {x : AttackRequirements} (h : v .AT = some x) :
    v4Modified v .AT .MAT = some (x.merge (v .MAT)).letter := by
  unfold v4Modified v4Letter
  rw [h]
  cases v .MAT with
  | none => cases x <;> rfl
  | some y => cases y <;> first | rfl | (cases x <;> rfl)

theorem eff_VC (v : scheme.Metrics) {x : ConfidentialityImpactToTheVulnerableSystem} (h : v .VC = some x) :
    v4Modified v .VC .MVC = some (x.merge (v .MVC)).letter := by
  unfold v4Modified v4Letter
  rw [h]
  cases v .MVC with
  | none => cases x <;> rfl
  | some y => cases y <;> first | rfl | (cases x <;> rfl)

theorem eff_VI (v : scheme.Metrics) {x : IntegrityImpactToTheVulnerableSystem} (h : v .VI = some x) :
    v4Modified v .VI .MVI = some (x.merge (v .MVI)).letter := by
  unfold v4Modified v4Letter
  rw [h]
  cases v .MVI with
  | none => cases x <;> rfl
  | some y => cases y <;> first | rfl | (cases x <;> rfl)

theorem eff_VA (v : scheme.Metrics) {x : AvailabilityImpactToTheVulnerableSystem} (h : v .VA = some x) :
    v4Modified v .VA .MVA = some (x.merge (v .MVA)).letter := by
  unfold v4Modified v4Letter
  rw [h]
  cases v .MVA with
  | none => cases x <;> rfl
  | some y => cases y <;> first | rfl | (cases x <;> rfl)

theorem eff_SC (v : scheme.Metrics) {x : ConfidentialityImpactToTheSubsequentSystem} (h : v .SC = some x) :
    v4Modified v .SC .MSC = some (x.merge (v .MSC)).letter := by
  unfold v4Modified v4Letter
  rw [h]
  cases v .MSC with
  | none => cases x <;> rfl
  | some y => cases y <;> first | rfl | (cases x <;> rfl)

theorem eff_SI (v : scheme.Metrics) {x : IntegrityImpactToTheSubsequentSystem} (h : v .SI = some x) :
    v4Modified v .SI .MSI = some (x.merge (v .MSI)).letter := by
  unfold v4Modified v4Letter
  rw [h]
  cases v .MSI with
  | none => cases x <;> rfl
  | some y => cases y <;> first | rfl | (cases x <;> rfl)

theorem eff_SA (v : scheme.Metrics) {x : AvailabilityImpactToTheSubsequentSystem} (h : v .SA = some x) :
    v4Modified v .SA .MSA = some (x.merge (v .MSA)).letter := by
  unfold v4Modified v4Letter
  rw [h]
  cases v .MSA with
  | none => cases x <;> rfl
  | some y => cases y <;> first | rfl | (cases x <;> rfl)

theorem eff_E (v : scheme.Metrics) :
    v4Or v .E 'A' = (ExploitMaturity.merge ((v .E).getD ExploitMaturity.default)).letter := by
  unfold v4Or v4Letter
  cases v .E with
  | none => rfl
  | some y => cases y <;> rfl

theorem eff_CR (v : scheme.Metrics) :
    v4Or v .CR 'H' = (ConfidentialityRequirements.merge ((v .CR).getD ConfidentialityRequirements.default)).letter := by
  unfold v4Or v4Letter
  cases v .CR with
  | none => rfl
  | some y => cases y <;> rfl

theorem eff_IR (v : scheme.Metrics) :
    v4Or v .IR 'H' = (IntegrityRequirements.merge ((v .IR).getD IntegrityRequirements.default)).letter := by
  unfold v4Or v4Letter
  cases v .IR with
  | none => rfl
  | some y => cases y <;> rfl

theorem eff_AR (v : scheme.Metrics) :
    v4Or v .AR 'H' = (AvailabilityRequirements.merge ((v .AR).getD AvailabilityRequirements.default)).letter := by
  unfold v4Or v4Letter
  cases v .AR with
  | none => rfl
  | some y => cases y <;> rfl

theorem ofVector_ok (w : Vector) (h : ∀ m ∈ v4Mandatory, w.metrics m ≠ none) :
    ∃ z, ScoringVector.ofVector w = .ok z ∧ v4Eff w.metrics = some z.eff := by
  obtain ⟨xAC, hAC⟩ := Option.ne_none_iff_exists'.mp (h .AC (by decide))
  obtain ⟨xAT, hAT⟩ := Option.ne_none_iff_exists'.mp (h .AT (by decide))
  obtain ⟨xAV, hAV⟩ := Option.ne_none_iff_exists'.mp (h .AV (by decide))
  obtain ⟨xPR, hPR⟩ := Option.ne_none_iff_exists'.mp (h .PR (by decide))
  obtain ⟨xSA, hSA⟩ := Option.ne_none_iff_exists'.mp (h .SA (by decide))
  obtain ⟨xSC, hSC⟩ := Option.ne_none_iff_exists'.mp (h .SC (by decide))
  obtain ⟨xSI, hSI⟩ := Option.ne_none_iff_exists'.mp (h .SI (by decide))
  obtain ⟨xUI, hUI⟩ := Option.ne_none_iff_exists'.mp (h .UI (by decide))
  obtain ⟨xVA, hVA⟩ := Option.ne_none_iff_exists'.mp (h .VA (by decide))
  obtain ⟨xVC, hVC⟩ := Option.ne_none_iff_exists'.mp (h .VC (by decide))
  obtain ⟨xVI, hVI⟩ := Option.ne_none_iff_exists'.mp (h .VI (by decide))
  unfold ScoringVector.ofVector v4Eff
  rw [hAC, hAT, hAV, hPR, hSA, hSC, hSI, hUI, hVA, hVC, hVI]
  rw [eff_AC w.metrics hAC, eff_AT w.metrics hAT, eff_AV w.metrics hAV, eff_PR w.metrics hPR, eff_SA w.metrics hSA, eff_SC w.metrics hSC, eff_SI w.metrics hSI, eff_UI w.metrics hUI, eff_VA w.metrics hVA, eff_VC w.metrics hVC, eff_VI w.metrics hVI, eff_E, eff_CR, eff_IR, eff_AR]
  exact ⟨_, rfl, rfl⟩

theorem ofVector_panic (w : Vector) (h : ¬ ∀ m ∈ v4Mandatory, w.metrics m ≠ none) :
    ScoringVector.ofVector w = .panic := by
  unfold ScoringVector.ofVector
  cases hAC : w.metrics .AC with
  | none => rfl
  | some xAC =>
  set_option linter.unusedSimpArgs false in
  simp only [ScoringVector.unwrap, Outcome.bind_ok]
  cases hAT : w.metrics .AT with
  | none => rfl
  | some xAT =>
  set_option linter.unusedSimpArgs false in
  simp only [ScoringVector.unwrap, Outcome.bind_ok]
  cases hAV : w.metrics .AV with
  | none => rfl
  | some xAV =>
  set_option linter.unusedSimpArgs false in
  simp only [ScoringVector.unwrap, Outcome.bind_ok]
  cases hPR : w.metrics .PR with
  | none => rfl
  | some xPR =>
  set_option linter.unusedSimpArgs false in
  simp only [ScoringVector.unwrap, Outcome.bind_ok]
  cases hSA : w.metrics .SA with
  | none => rfl
  | some xSA =>
  set_option linter.unusedSimpArgs false in
  simp only [ScoringVector.unwrap, Outcome.bind_ok]
  cases hSC : w.metrics .SC with
  | none => rfl
  | some xSC =>
  set_option linter.unusedSimpArgs false in
  simp only [ScoringVector.unwrap, Outcome.bind_ok]
  cases hSI : w.metrics .SI with
  | none => rfl
  | some xSI =>
  set_option linter.unusedSimpArgs false in
  simp only [ScoringVector.unwrap, Outcome.bind_ok]
  cases hUI : w.metrics .UI with
  | none => rfl
  | some xUI =>
  set_option linter.unusedSimpArgs false in
  simp only [ScoringVector.unwrap, Outcome.bind_ok]
  cases hVA : w.metrics .VA with
  | none => rfl
  | some xVA =>
  set_option linter.unusedSimpArgs false in
  simp only [ScoringVector.unwrap, Outcome.bind_ok]
  cases hVC : w.metrics .VC with
  | none => rfl
  | some xVC =>
  set_option linter.unusedSimpArgs false in
  simp only [ScoringVector.unwrap, Outcome.bind_ok]
  cases hVI : w.metrics .VI with
  | none => rfl
  | some xVI =>
  set_option linter.unusedSimpArgs false in
  simp only [ScoringVector.unwrap, Outcome.bind_ok]
  exfalso
  apply h
  intro m hm
  simp only [v4Mandatory, List.mem_cons, List.not_mem_nil, or_false] at hm
  rcases hm with h | h | h | h | h | h | h | h | h | h | h <;> subst h <;> simp [*]

end Verif.Cvss.V4