import Verif.Model.CvssV3Score

/-!
# CVSS v2 scores
-/

namespace Verif.Cvss.V2

/-- `Score::roundup`: cvss/src/v2/score.rs:31-35. -/
def roundup (F : Fp) (x : ℚ) : ℚ := F.div (roundAway (F.mul (F.add x (F.fl (1 / 10 ^ 6))) (F.fl 10))) (F.fl 10)

/-- `Score::severity`: cvss/src/v2/score.rs:40-48. -/
def severityV2 (F : Fp) (x : ℚ) : Adv.Severity :=
  if x < F.fl 4 then .low else if x < F.fl 7 then .medium else .high

namespace Vector

/-- `exploitability`: cvss/src/v2/vector.rs:114-120. -/
def exploitability (F : Fp) (v : Vector) : ℚ :=
  let av := weightOr F AccessVector.score 0 (v .AV)
  let ac := weightOr F AccessComplexity.score 0 (v .AC)
  let au := weightOr F Authentication.score 0 (v .Au)
  F.mul (F.mul (F.mul (F.fl 20) av) ac) au

/-- `impact`: cvss/src/v2/vector.rs:131-136. -/
def impact (F : Fp) (v : Vector) : ℚ :=
  let c := weightOr F ConfidentialityImpact.score 0 (v .C)
  let i := weightOr F IntegrityImpact.score 0 (v .I)
  let a := weightOr F AvailabilityImpact.score 0 (v .A)
  F.mul (F.fl 10.41)
    (F.sub (F.fl 1) (F.mul (F.mul (F.sub (F.fl 1) c) (F.sub (F.fl 1) i)) (F.sub (F.fl 1) a)))

/-- `adjusted_impact`: cvss/src/v2/vector.rs:156-173. -/
def adjustedImpact (F : Fp) (v : Vector) : ℚ :=
  let c := weightOr F ConfidentialityImpact.score 0 (v .C)
  let i := weightOr F IntegrityImpact.score 0 (v .I)
  let a := weightOr F AvailabilityImpact.score 0 (v .A)
  let cr := weightOr F ConfidentialityRequirement.score 1 (v .CR)
  let ir := weightOr F IntegrityRequirement.score 1 (v .IR)
  let ar := weightOr F AvailabilityRequirement.score 1 (v .AR)
  minF (F.fl 10) (F.mul (F.fl 10.41) (F.sub (F.fl 1)
    (F.mul (F.mul (F.sub (F.fl 1) (F.mul c cr)) (F.sub (F.fl 1) (F.mul i ir))) (F.sub (F.fl 1) (F.mul a ar)))))

/-- The arithmetic of `base_score_internal`: cvss/src/v2/vector.rs:99-102. -/
def rawBase (F : Fp) (impact exploitability : ℚ) : ℚ :=
  let fImpact := if impact = F.fl 0 then F.fl 0 else F.fl 1.176
  F.mul (F.sub (F.add (F.mul (F.fl 0.6) impact) (F.mul (F.fl 0.4) exploitability)) (F.fl 1.5)) fImpact

/-- `base_score_internal`: cvss/src/v2/vector.rs:98-104. -/
def baseInternal (F : Fp) (v : Vector) (impact : ℚ) : ℚ := roundup F (rawBase F impact (exploitability F v))

/-- `score`: cvss/src/v2/vector.rs:84-89. -/
def score (F : Fp) (v : Vector) : ℚ := maxF (baseInternal F v (impact F v)) (F.fl 0)

/-- `temporal_score_internal`: cvss/src/v2/vector.rs:201-209. -/
def temporalInternal (F : Fp) (v : Vector) (impact : ℚ) : ℚ :=
  let base := baseInternal F v impact
  let e := weightOr F Exploitability.score 1 (v .E)
  let rl := weightOr F RemediationLevel.score 1 (v .RL)
  let rc := weightOr F ReportConfidence.score 1 (v .RC)
  roundup F (F.mul (F.mul (F.mul base e) rl) rc)

/-- `temporal_score`: cvss/src/v2/vector.rs:181-186. -/
def temporalScore (F : Fp) (v : Vector) : ℚ := maxF (temporalInternal F v (impact F v)) (F.fl 0)

/-- `environmental_score`: cvss/src/v2/vector.rs:144-152. -/
def environmentalScore (F : Fp) (v : Vector) : ℚ :=
  let at' := temporalInternal F v (adjustedImpact F v)
  let cdp := weightOr F CollateralDamagePotential.score 0 (v .CDP)
  let td := weightOr F TargetDistribution.score 1 (v .TD)
  maxF (roundup F (F.mul (F.add at' (F.mul (F.sub (F.fl 10) at') cdp)) td)) (F.fl 0)

/-- `Cvss::severity` of a v2 vector is that of its base score: cvss/src/cvss.rs:64-76. -/
def severity (F : Fp) (v : Vector) : Adv.Severity := severityV2 F (score F v)

end Vector

end Verif.Cvss.V2
