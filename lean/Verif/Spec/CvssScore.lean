import Verif.Model.CvssText
import Verif.Model.Advisory
import Verif.Model.CvssV4Lookup
import Mathlib.Data.Rat.Floor

/-!
# Specification of CVSS scores

The formulas of the CVSS v2, v3.1 and v4.0 documents, in exact arithmetic.  Scores are counted in tenths.
-/

namespace Verif.Cvss.Spec

/-- The qualitative rating scale of v3.1 (section 5) and v4.0 (section 6), from tenths. -/
def Band (tenths : ℤ) (s : Adv.Severity) : Prop :=
  (s = .none ∧ tenths = 0) ∨ (s = .low ∧ 1 ≤ tenths ∧ tenths ≤ 39) ∨ (s = .medium ∧ 40 ≤ tenths ∧ tenths ≤ 69) ∨
  (s = .high ∧ 70 ≤ tenths ∧ tenths ≤ 89) ∨ (s = .critical ∧ 90 ≤ tenths ∧ tenths ≤ 100)

/-! ### v3.1 (section 7.4, metric values; section 7.1, base equations) -/

open V3 in
/-- The numerical value of a metric value (`changed`: scope changed, which matters for `PR`). -/
def v3Weight (changed : Bool) : (m : V3.MetricType) → m.Val → ℚ
  | .AV, x => match (x : AttackVector) with | .network => 0.85 | .adjacent => 0.62 | .local => 0.55 | .physical => 0.2
  | .AC, x => match (x : AttackComplexity) with | .low => 0.77 | .high => 0.44
  | .PR, x => match (x : PrivilegesRequired), changed with
    | .none, _ => 0.85
    | .low, false => 0.62
    | .low, true => 0.68
    | .high, false => 0.27
    | .high, true => 0.5
  | .UI, x => match (x : UserInteraction) with | .none => 0.85 | .required => 0.62
  | .S, _ => 0
  | .C, x => match (x : Confidentiality) with | .high => 0.56 | .low => 0.22 | .none => 0
  | .I, x => match (x : Integrity) with | .high => 0.56 | .low => 0.22 | .none => 0
  | .A, x => match (x : Availability) with | .high => 0.56 | .low => 0.22 | .none => 0

/-- How severe a value of a metric is, among the values of that metric. -/
def v3Rank : (m : V3.MetricType) → m.Val → ℕ
  | .AV, x => match (x : V3.AttackVector) with | .network => 3 | .adjacent => 2 | .local => 1 | .physical => 0
  | .AC, x => match (x : V3.AttackComplexity) with | .low => 1 | .high => 0
  | .PR, x => match (x : V3.PrivilegesRequired) with | .none => 2 | .low => 1 | .high => 0
  | .UI, x => match (x : V3.UserInteraction) with | .none => 1 | .required => 0
  | .S, x => match (x : V3.Scope) with | .changed => 1 | .unchanged => 0
  | .C, x => match (x : V3.Confidentiality) with | .high => 2 | .low => 1 | .none => 0
  | .I, x => match (x : V3.Integrity) with | .high => 2 | .low => 1 | .none => 0
  | .A, x => match (x : V3.Availability) with | .high => 2 | .low => 1 | .none => 0

/-- The base equations, from the metrics' numerical values. -/
def v3Equation (changed : Bool) (av ac pr ui c i a : ℚ) : ℚ :=
  let iss := 1 - (1 - c) * (1 - i) * (1 - a)
  let impact := if changed then 7.52 * (iss - 0.029) - 3.25 * (iss - 0.02) ^ 15 else 6.42 * iss
  let exploitability := 8.22 * av * ac * pr * ui
  if impact ≤ 0 then 0
  else if changed then min (1.08 * (impact + exploitability)) 10
  else min (impact + exploitability) 10

/-- The value of a metric in a vector; a metric that is not given counts as 0. -/
def v3Value (v : V3.scheme.Metrics) (changed : Bool) (m : V3.MetricType) : ℚ :=
  match v m with
  | some x => v3Weight changed m x
  | none => 0

/-- The scope of a vector; unchanged if it is not given. -/
def v3Changed (v : V3.scheme.Metrics) : Bool := decide (v .S = some .changed)

/-- The base score in tenths: the smallest tenth that is at least the value of the base equations
(`Roundup`, appendix A). -/
def v3Tenths (v : V3.scheme.Metrics) : ℤ :=
  ⌈10 * v3Equation (v3Changed v) (v3Value v (v3Changed v) .AV) (v3Value v (v3Changed v) .AC)
    (v3Value v (v3Changed v) .PR) (v3Value v (v3Changed v) .UI) (v3Value v (v3Changed v) .C)
    (v3Value v (v3Changed v) .I) (v3Value v (v3Changed v) .A)⌉

/-- Does a vector state some impact? -/
def v3HasImpact (v : V3.scheme.Metrics) : Prop :=
  v .C = some .low ∨ v .C = some .high ∨ v .I = some .low ∨ v .I = some .high ∨ v .A = some .low ∨ v .A = some .high

/-! ### v2 (section 3.2: equations and metric values) -/

open V2 in
/-- The numerical value of a metric value. -/
def v2Weight : (m : V2.MetricType) → m.Val → ℚ
  | .AV, x => match (x : AccessVector) with | .local => 0.395 | .adjacentNetwork => 0.646 | .network => 1
  | .AC, x => match (x : AccessComplexity) with | .high => 0.35 | .medium => 0.61 | .low => 0.71
  | .Au, x => match (x : Authentication) with | .multiple => 0.45 | .single => 0.56 | .none => 0.704
  | .C, x => match (x : ConfidentialityImpact) with | .none => 0 | .part => 0.275 | .complete => 0.66
  | .I, x => match (x : IntegrityImpact) with | .none => 0 | .part => 0.275 | .complete => 0.66
  | .A, x => match (x : AvailabilityImpact) with | .none => 0 | .part => 0.275 | .complete => 0.66
  | .E, x => match (x : Exploitability) with
    | .unproven => 0.85 | .proofOfConcept => 0.9 | .functional => 0.95 | .high => 1 | .notDefined => 1
  | .RL, x => match (x : RemediationLevel) with
    | .officialFix => 0.87 | .temporaryFix => 0.9 | .workaround => 0.95 | .unavailable => 1 | .notDefined => 1
  | .RC, x => match (x : ReportConfidence) with
    | .unconfirmed => 0.9 | .uncorroborated => 0.95 | .confirmed => 1 | .notDefined => 1
  | .CDP, x => match (x : CollateralDamagePotential) with
    | .none => 0 | .low => 0.1 | .lowMedium => 0.3 | .mediumHigh => 0.4 | .high => 0.5 | .notDefined => 0
  | .TD, x => match (x : TargetDistribution) with
    | .none => 0 | .low => 0.25 | .medium => 0.75 | .high => 1 | .notDefined => 1
  | .CR, x => match (x : ConfidentialityRequirement) with | .low => 0.5 | .medium => 1 | .high => 1.51 | .notDefined => 1
  | .IR, x => match (x : IntegrityRequirement) with | .low => 0.5 | .medium => 1 | .high => 1.51 | .notDefined => 1
  | .AR, x => match (x : AvailabilityRequirement) with | .low => 0.5 | .medium => 1 | .high => 1.51 | .notDefined => 1

/-- The value of a metric that is not given: 0 for a base metric, "not defined" for the others. -/
def v2Default : V2.MetricType → ℚ
  | .AV | .AC | .Au | .C | .I | .A | .CDP => 0
  | .E | .RL | .RC | .TD | .CR | .IR | .AR => 1

/-- The value of a metric in a vector. -/
def v2Value (v : V2.scheme.Metrics) (m : V2.MetricType) : ℚ :=
  match v m with
  | some x => v2Weight m x
  | none => v2Default m

/-- How severe a value of a metric is, among the values of that metric ("not defined" counts as the value it
stands for). -/
def v2Rank : (m : V2.MetricType) → m.Val → ℕ
  | .AV, x => match (x : V2.AccessVector) with | .local => 0 | .adjacentNetwork => 1 | .network => 2
  | .AC, x => match (x : V2.AccessComplexity) with | .high => 0 | .medium => 1 | .low => 2
  | .Au, x => match (x : V2.Authentication) with | .multiple => 0 | .single => 1 | .none => 2
  | .C, x => match (x : V2.ConfidentialityImpact) with | .none => 0 | .part => 1 | .complete => 2
  | .I, x => match (x : V2.IntegrityImpact) with | .none => 0 | .part => 1 | .complete => 2
  | .A, x => match (x : V2.AvailabilityImpact) with | .none => 0 | .part => 1 | .complete => 2
  | .E, x => match (x : V2.Exploitability) with
    | .unproven => 0 | .proofOfConcept => 1 | .functional => 2 | .high => 3 | .notDefined => 3
  | .RL, x => match (x : V2.RemediationLevel) with
    | .officialFix => 0 | .temporaryFix => 1 | .workaround => 2 | .unavailable => 3 | .notDefined => 3
  | .RC, x => match (x : V2.ReportConfidence) with
    | .unconfirmed => 0 | .uncorroborated => 1 | .confirmed => 2 | .notDefined => 2
  | .CDP, x => match (x : V2.CollateralDamagePotential) with
    | .none => 0 | .low => 1 | .lowMedium => 2 | .mediumHigh => 3 | .high => 4 | .notDefined => 0
  | .TD, x => match (x : V2.TargetDistribution) with
    | .none => 0 | .low => 1 | .medium => 2 | .high => 3 | .notDefined => 3
  | .CR, x => match (x : V2.ConfidentialityRequirement) with | .low => 0 | .medium => 1 | .high => 2 | .notDefined => 1
  | .IR, x => match (x : V2.IntegrityRequirement) with | .low => 0 | .medium => 1 | .high => 2 | .notDefined => 1
  | .AR, x => match (x : V2.AvailabilityRequirement) with | .low => 0 | .medium => 1 | .high => 2 | .notDefined => 1

/-- `round_to_1_decimal`, half up, in tenths. -/
def round1 (x : ℚ) : ℤ := ⌊10 * x + 1 / 2⌋

/-- Impact. -/
def v2Impact (v : V2.scheme.Metrics) : ℚ :=
  10.41 * (1 - (1 - v2Value v .C) * (1 - v2Value v .I) * (1 - v2Value v .A))

/-- AdjustedImpact. -/
def v2AdjustedImpact (v : V2.scheme.Metrics) : ℚ :=
  min 10 (10.41 * (1 - (1 - v2Value v .C * v2Value v .CR) * (1 - v2Value v .I * v2Value v .IR) *
    (1 - v2Value v .A * v2Value v .AR)))

/-- Exploitability. -/
def v2Exploitability (v : V2.scheme.Metrics) : ℚ := 20 * v2Value v .AV * v2Value v .AC * v2Value v .Au

/-- The base equation before rounding. -/
def v2Equation (impact exploitability : ℚ) : ℚ :=
  (0.6 * impact + 0.4 * exploitability - 1.5) * (if impact = 0 then 0 else 1.176)

/-- BaseScore with some impact, in tenths. -/
def v2BaseOf (v : V2.scheme.Metrics) (impact : ℚ) : ℤ := round1 (v2Equation impact (v2Exploitability v))

/-- TemporalScore with some impact, in tenths. -/
def v2TemporalOf (v : V2.scheme.Metrics) (impact : ℚ) : ℤ :=
  round1 (v2BaseOf v impact / 10 * v2Value v .E * v2Value v .RL * v2Value v .RC)

/-- The base score in tenths (never below 0). -/
def v2Base (v : V2.scheme.Metrics) : ℤ := max (v2BaseOf v (v2Impact v)) 0

/-- The temporal score in tenths. -/
def v2Temporal (v : V2.scheme.Metrics) : ℤ := max (v2TemporalOf v (v2Impact v)) 0

/-- The environmental score in tenths: the temporal score recomputed with the adjusted impact, moved towards 10
by the collateral damage potential, times the target distribution. -/
def v2Environmental (v : V2.scheme.Metrics) : ℤ :=
  let at' : ℚ := v2TemporalOf v (v2AdjustedImpact v) / 10
  max (round1 ((at' + (10 - at') * v2Value v .CDP) * v2Value v .TD)) 0

/-- The NVD's severity ranges for v2, from tenths. -/
def BandV2 (tenths : ℤ) (s : Adv.Severity) : Prop :=
  (s = .low ∧ 0 ≤ tenths ∧ tenths ≤ 39) ∨ (s = .medium ∧ 40 ≤ tenths ∧ tenths ≤ 69) ∨
  (s = .high ∧ 70 ≤ tenths ∧ tenths ≤ 100)

/-! ### v4.0 (section 8: EQ sets, MacroVectors, interpolation)

Metric values are given by their letters in the vector string.  The scores of the MacroVectors are the published
table, `V4.lookupTenths`. -/

/-- The letters of the metric values that count for the score. -/
structure Eff where
  AV : Char
  PR : Char
  UI : Char
  AC : Char
  AT : Char
  VC : Char
  VI : Char
  VA : Char
  SC : Char
  SI : Char
  SA : Char
  E : Char
  CR : Char
  IR : Char
  AR : Char
  deriving DecidableEq

/-- The letter a vector gives for a metric. -/
def v4Letter (v : V4.scheme.Metrics) (m : V4.MetricType) : Option Char :=
  match v m with
  | some x => (V4.MetricType.asStr m x).head?
  | none => none

/-- A base metric counts as its modified metric says, unless that is absent or `X`. -/
def v4Modified (v : V4.scheme.Metrics) (base modified : V4.MetricType) : Option Char :=
  match v4Letter v modified with
  | some 'X' => v4Letter v base
  | none => v4Letter v base
  | some c => some c

/-- A threat or requirement metric counts as the worst case if it is absent or `X`. -/
def v4Or (v : V4.scheme.Metrics) (m : V4.MetricType) (worst : Char) : Char :=
  match v4Letter v m with
  | some 'X' => worst
  | none => worst
  | some c => c

/-- The letters that count, if the mandatory metrics are there. -/
def v4Eff (v : V4.scheme.Metrics) : Option Eff := do
  let AV ← v4Modified v .AV .MAV
  let PR ← v4Modified v .PR .MPR
  let UI ← v4Modified v .UI .MUI
  let AC ← v4Modified v .AC .MAC
  let AT ← v4Modified v .AT .MAT
  let VC ← v4Modified v .VC .MVC
  let VI ← v4Modified v .VI .MVI
  let VA ← v4Modified v .VA .MVA
  let SC ← v4Modified v .SC .MSC
  let SI ← v4Modified v .SI .MSI
  let SA ← v4Modified v .SA .MSA
  some ⟨AV, PR, UI, AC, AT, VC, VI, VA, SC, SI, SA, v4Or v .E 'A', v4Or v .CR 'H', v4Or v .IR 'H', v4Or v .AR 'H'⟩

/-- The mandatory metrics. -/
def v4Mandatory : List V4.MetricType := [.AV, .AC, .AT, .PR, .UI, .VC, .VI, .VA, .SC, .SI, .SA]

namespace Eff

/-- EQ1 (table 24). -/
def eq1 (e : Eff) : ℕ :=
  if e.AV = 'N' ∧ e.PR = 'N' ∧ e.UI = 'N' then 0
  else if (e.AV = 'N' ∨ e.PR = 'N' ∨ e.UI = 'N') ∧ ¬ (e.AV = 'N' ∧ e.PR = 'N' ∧ e.UI = 'N') ∧ ¬ e.AV = 'P' then 1
  else 2

/-- EQ2 (table 25). -/
def eq2 (e : Eff) : ℕ := if e.AC = 'L' ∧ e.AT = 'N' then 0 else 1

/-- EQ3 (table 26). -/
def eq3 (e : Eff) : ℕ :=
  if e.VC = 'H' ∧ e.VI = 'H' then 0 else if e.VC = 'H' ∨ e.VI = 'H' ∨ e.VA = 'H' then 1 else 2

/-- EQ4 (table 27). -/
def eq4 (e : Eff) : ℕ :=
  if e.SI = 'S' ∨ e.SA = 'S' then 0 else if e.SC = 'H' ∨ e.SI = 'H' ∨ e.SA = 'H' then 1 else 2

/-- EQ5 (table 28). -/
def eq5 (e : Eff) : ℕ := if e.E = 'A' then 0 else if e.E = 'P' then 1 else 2

/-- EQ6 (table 29). -/
def eq6 (e : Eff) : ℕ :=
  if (e.CR = 'H' ∧ e.VC = 'H') ∨ (e.IR = 'H' ∧ e.VI = 'H') ∨ (e.AR = 'H' ∧ e.VA = 'H') then 0 else 1

end Eff

/-- How many steps below the most severe value of its metric a value is. -/
def stepAV : Char → ℕ | 'N' => 0 | 'A' => 1 | 'L' => 2 | _ => 3
def stepPR : Char → ℕ | 'N' => 0 | 'L' => 1 | _ => 2
def stepUI : Char → ℕ | 'N' => 0 | 'P' => 1 | _ => 2
def stepAC : Char → ℕ | 'L' => 0 | _ => 1
def stepAT : Char → ℕ | 'N' => 0 | _ => 1
def stepV : Char → ℕ | 'H' => 0 | 'L' => 1 | _ => 2
def stepS : Char → ℕ | 'S' => 0 | 'H' => 1 | 'L' => 2 | _ => 3
def stepE : Char → ℕ | 'A' => 0 | 'P' => 1 | _ => 2
def stepR : Char → ℕ | 'H' => 0 | 'M' => 1 | _ => 2

/-- The severity distance within an EQ: the steps to the first of its highest severity vectors that is nowhere
less severe. -/
def v4Distance (steps : List (Char → ℕ)) (values : List Char) (maxes : List (List Char)) : Option ℕ :=
  (maxes.find? fun m => (steps.zip (values.zip m)).all fun (f, x, y) => f y ≤ f x).map fun m =>
    ((steps.zip (values.zip m)).map fun (f, x, y) => f x - f y).sum

/-- The highest severity vectors of EQ1: AV, PR, UI. -/
def v4Max1 : ℕ → List (List Char)
  | 0 => [['N', 'N', 'N']]
  | 1 => [['A', 'N', 'N'], ['N', 'L', 'N'], ['N', 'N', 'P']]
  | _ => [['P', 'N', 'N'], ['A', 'L', 'P']]

/-- The highest severity vectors of EQ2: AC, AT. -/
def v4Max2 : ℕ → List (List Char)
  | 0 => [['L', 'N']]
  | _ => [['H', 'N'], ['L', 'P']]

/-- The highest severity vectors of EQ3 and EQ6: VC, VI, VA, CR, IR, AR. -/
def v4Max36 : ℕ → ℕ → List (List Char)
  | 0, 0 => [['H', 'H', 'H', 'H', 'H', 'H']]
  | 0, _ => [['H', 'H', 'L', 'M', 'M', 'H'], ['H', 'H', 'H', 'M', 'M', 'M']]
  | 1, 0 => [['L', 'H', 'H', 'H', 'H', 'H'], ['H', 'L', 'H', 'H', 'H', 'H']]
  | 1, _ => [['L', 'H', 'L', 'H', 'M', 'H'], ['L', 'H', 'H', 'H', 'M', 'M'], ['H', 'L', 'H', 'M', 'H', 'M'],
      ['H', 'L', 'L', 'M', 'H', 'H'], ['L', 'L', 'H', 'H', 'H', 'M']]
  | _, _ => [['L', 'L', 'L', 'H', 'H', 'H']]

/-- The highest severity vectors of EQ4: SC, SI, SA. -/
def v4Max4 : ℕ → List (List Char)
  | 0 => [['H', 'S', 'S']]
  | 1 => [['H', 'H', 'H']]
  | _ => [['L', 'L', 'L']]

/-- The depths of the EQs. -/
def v4Depth1 : ℕ → ℕ | 0 => 1 | 1 => 4 | _ => 5
def v4Depth2 : ℕ → ℕ | 0 => 1 | _ => 2
def v4Depth36 : ℕ → ℕ → ℕ | 0, 0 => 7 | 0, _ => 6 | 1, _ => 8 | _, _ => 10
def v4Depth4 : ℕ → ℕ | 0 => 6 | 1 => 5 | _ => 4

/-- The score of the next lower MacroVector in EQ3 and EQ6: the higher one where there are two. -/
def v4Lower36 (e1 e2 e3 e4 e5 e6 : ℕ) : Option ℕ :=
  match e3, e6 with
  | 0, 0 => max (V4.lookupTenths e1 e2 0 e4 e5 1) (V4.lookupTenths e1 e2 1 e4 e5 0)
  | 0, 1 => V4.lookupTenths e1 e2 1 e4 e5 1
  | 1, 0 => V4.lookupTenths e1 e2 1 e4 e5 1
  | 1, 1 => V4.lookupTenths e1 e2 2 e4 e5 1
  | _, _ => none

/-- The score in tenths before rounding: the score of the MacroVector minus the mean of the proportional distances
towards the next lower MacroVectors that exist (EQ5 has no severity distance). -/
def v4Interpolate (e1 e2 e3 e4 e5 e6 : ℕ) (d1 d2 d36 d4 : ℕ) : ℚ :=
  let value : ℚ := ((V4.lookupTenths e1 e2 e3 e4 e5 e6).getD 0 : ℕ)
  let part (lower : Option ℕ) (d depth : ℕ) : Option ℚ := lower.map fun l => (value - l) * (d / depth)
  let parts := [part (V4.lookupTenths (e1 + 1) e2 e3 e4 e5 e6) d1 (v4Depth1 e1),
    part (V4.lookupTenths e1 (e2 + 1) e3 e4 e5 e6) d2 (v4Depth2 e2),
    part (v4Lower36 e1 e2 e3 e4 e5 e6) d36 (v4Depth36 e3 e6),
    part (V4.lookupTenths e1 e2 e3 (e4 + 1) e5 e6) d4 (v4Depth4 e4),
    part (V4.lookupTenths e1 e2 e3 e4 (e5 + 1) e6) 0 1].filterMap id
  value - parts.sum / parts.length

namespace Eff

/-- The severity distances of the EQs. -/
def distance1 (e : Eff) : Option ℕ := v4Distance [stepAV, stepPR, stepUI] [e.AV, e.PR, e.UI] (v4Max1 e.eq1)
def distance2 (e : Eff) : Option ℕ := v4Distance [stepAC, stepAT] [e.AC, e.AT] (v4Max2 e.eq2)
def distance36 (e : Eff) : Option ℕ :=
  v4Distance [stepV, stepV, stepV, stepR, stepR, stepR] [e.VC, e.VI, e.VA, e.CR, e.IR, e.AR] (v4Max36 e.eq3 e.eq6)
def distance4 (e : Eff) : Option ℕ := v4Distance [stepS, stepS, stepS] [e.SC, e.SI, e.SA] (v4Max4 e.eq4)

/-- Does a vector state some impact? -/
def HasImpact (e : Eff) : Prop :=
  e.VC ≠ 'N' ∨ e.VI ≠ 'N' ∨ e.VA ≠ 'N' ∨ e.SC ≠ 'N' ∨ e.SI ≠ 'N' ∨ e.SA ≠ 'N'

instance (e : Eff) : Decidable e.HasImpact := by unfold HasImpact; infer_instance

/-- The score in tenths before rounding (the distances always exist; 0 stands in if they did not). -/
def raw (e : Eff) : ℚ :=
  v4Interpolate e.eq1 e.eq2 e.eq3 e.eq4 e.eq5 e.eq6 (e.distance1.getD 0) (e.distance2.getD 0) (e.distance36.getD 0)
    (e.distance4.getD 0)

/-- The score in tenths, rounded half up; 0 without impact. -/
def tenths (e : Eff) : ℤ := if e.HasImpact then ⌊e.raw + 1 / 2⌋ else 0

end Eff

/-- Which groups of metrics a vector has: threat, environmental. -/
def v4HasThreat (v : V4.scheme.Metrics) : Prop := v .E ≠ none

def v4HasEnvironmental (v : V4.scheme.Metrics) : Prop :=
  ∃ m ∈ [V4.MetricType.CR, .IR, .AR, .MAV, .MAC, .MAT, .MPR, .MUI, .MVC, .MVI, .MVA, .MSC, .MSI, .MSA], v m ≠ none

end Verif.Cvss.Spec
