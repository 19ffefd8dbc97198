import Verif.Model.CvssText

/-!
# Listing the metrics of a vector: `metrics()`, `MetricType::description`, `Debug`

Generated from the Rust source by `/verif/tools/gen_cvss_listing.py`.  The values are listed as `&dyn Debug`; what a
caller can observe of one is the text of its derived `Debug`, the name of the variant.
-/

namespace Verif.Cvss

namespace V2

/-- `Debug` of `AvailabilityImpact` (derived): cvss/src/v2/metric/base/a.rs:20-36. -/
def AvailabilityImpact.debug : AvailabilityImpact → Str
  | .none => ['N', 'o', 'n', 'e']
  | .part => ['P', 'a', 'r', 't', 'i', 'a', 'l']
  | .complete => ['C', 'o', 'm', 'p', 'l', 'e', 't', 'e']

/-- `Debug` of `AccessComplexity` (derived): cvss/src/v2/metric/base/ac.rs:24-70. -/
def AccessComplexity.debug : AccessComplexity → Str
  | .high => ['H', 'i', 'g', 'h']
  | .medium => ['M', 'e', 'd', 'i', 'u', 'm']
  | .low => ['L', 'o', 'w']

/-- `Debug` of `Authentication` (derived): cvss/src/v2/metric/base/au.rs:21-39. -/
def Authentication.debug : Authentication → Str
  | .multiple => ['M', 'u', 'l', 't', 'i', 'p', 'l', 'e']
  | .single => ['S', 'i', 'n', 'g', 'l', 'e']
  | .none => ['N', 'o', 'n', 'e']

/-- `Debug` of `AccessVector` (derived): cvss/src/v2/metric/base/av.rs:17-44. -/
def AccessVector.debug : AccessVector → Str
  | .local => ['L', 'o', 'c', 'a', 'l']
  | .adjacentNetwork => ['A', 'd', 'j', 'a', 'c', 'e', 'n', 't', 'N', 'e', 't', 'w', 'o', 'r', 'k']
  | .network => ['N', 'e', 't', 'w', 'o', 'r', 'k']

/-- `Debug` of `ConfidentialityImpact` (derived): cvss/src/v2/metric/base/c.rs:20-38. -/
def ConfidentialityImpact.debug : ConfidentialityImpact → Str
  | .none => ['N', 'o', 'n', 'e']
  | .part => ['P', 'a', 'r', 't', 'i', 'a', 'l']
  | .complete => ['C', 'o', 'm', 'p', 'l', 'e', 't', 'e']

/-- `Debug` of `IntegrityImpact` (derived): cvss/src/v2/metric/base/i.rs:18-39. -/
def IntegrityImpact.debug : IntegrityImpact → Str
  | .none => ['N', 'o', 'n', 'e']
  | .part => ['P', 'a', 'r', 't', 'i', 'a', 'l']
  | .complete => ['C', 'o', 'm', 'p', 'l', 'e', 't', 'e']

/-- `Debug` of `Exploitability` (derived): cvss/src/v2/metric/temporal/e.rs:18-48. -/
def Exploitability.debug : Exploitability → Str
  | .unproven => ['U', 'n', 'p', 'r', 'o', 'v', 'e', 'n']
  | .proofOfConcept => ['P', 'r', 'o', 'o', 'f', 'O', 'f', 'C', 'o', 'n', 'c', 'e', 'p', 't']
  | .functional => ['F', 'u', 'n', 'c', 't', 'i', 'o', 'n', 'a', 'l']
  | .high => ['H', 'i', 'g', 'h']
  | .notDefined => ['N', 'o', 't', 'D', 'e', 'f', 'i', 'n', 'e', 'd']

/-- `Debug` of `ReportConfidence` (derived): cvss/src/v2/metric/temporal/rc.rs:16-43. -/
def ReportConfidence.debug : ReportConfidence → Str
  | .unconfirmed => ['U', 'n', 'c', 'o', 'n', 'f', 'i', 'r', 'm', 'e', 'd']
  | .uncorroborated => ['U', 'n', 'c', 'o', 'r', 'r', 'o', 'b', 'o', 'r', 'a', 't', 'e', 'd']
  | .confirmed => ['C', 'o', 'n', 'f', 'i', 'r', 'm', 'e', 'd']
  | .notDefined => ['N', 'o', 't', 'D', 'e', 'f', 'i', 'n', 'e', 'd']

/-- `Debug` of `RemediationLevel` (derived): cvss/src/v2/metric/temporal/rl.rs:17-44. -/
def RemediationLevel.debug : RemediationLevel → Str
  | .officialFix => ['O', 'f', 'f', 'i', 'c', 'i', 'a', 'l', 'F', 'i', 'x']
  | .temporaryFix => ['T', 'e', 'm', 'p', 'o', 'r', 'a', 'r', 'y', 'F', 'i', 'x']
  | .workaround => ['W', 'o', 'r', 'k', 'a', 'r', 'o', 'u', 'n', 'd']
  | .unavailable => ['U', 'n', 'a', 'v', 'a', 'i', 'l', 'a', 'b', 'l', 'e']
  | .notDefined => ['N', 'o', 't', 'D', 'e', 'f', 'i', 'n', 'e', 'd']

/-- `Debug` of `AvailabilityRequirement` (derived): cvss/src/v2/metric/environmental/ar.rs:17-41. -/
def AvailabilityRequirement.debug : AvailabilityRequirement → Str
  | .low => ['L', 'o', 'w']
  | .medium => ['M', 'e', 'd', 'i', 'u', 'm']
  | .high => ['H', 'i', 'g', 'h']
  | .notDefined => ['N', 'o', 't', 'D', 'e', 'f', 'i', 'n', 'e', 'd']

/-- `Debug` of `CollateralDamagePotential` (derived): cvss/src/v2/metric/environmental/cdp.rs:17-52. -/
def CollateralDamagePotential.debug : CollateralDamagePotential → Str
  | .none => ['N', 'o', 'n', 'e']
  | .low => ['L', 'o', 'w']
  | .lowMedium => ['L', 'o', 'w', 'M', 'e', 'd', 'i', 'u', 'm']
  | .mediumHigh => ['M', 'e', 'd', 'i', 'u', 'm', 'H', 'i', 'g', 'h']
  | .high => ['H', 'i', 'g', 'h']
  | .notDefined => ['N', 'o', 't', 'D', 'e', 'f', 'i', 'n', 'e', 'd']

/-- `Debug` of `ConfidentialityRequirement` (derived): cvss/src/v2/metric/environmental/cr.rs:17-41. -/
def ConfidentialityRequirement.debug : ConfidentialityRequirement → Str
  | .low => ['L', 'o', 'w']
  | .medium => ['M', 'e', 'd', 'i', 'u', 'm']
  | .high => ['H', 'i', 'g', 'h']
  | .notDefined => ['N', 'o', 't', 'D', 'e', 'f', 'i', 'n', 'e', 'd']

/-- `Debug` of `IntegrityRequirement` (derived): cvss/src/v2/metric/environmental/ir.rs:17-41. -/
def IntegrityRequirement.debug : IntegrityRequirement → Str
  | .low => ['L', 'o', 'w']
  | .medium => ['M', 'e', 'd', 'i', 'u', 'm']
  | .high => ['H', 'i', 'g', 'h']
  | .notDefined => ['N', 'o', 't', 'D', 'e', 'f', 'i', 'n', 'e', 'd']

/-- `Debug` of `TargetDistribution` (derived): cvss/src/v2/metric/environmental/td.rs:17-42. -/
def TargetDistribution.debug : TargetDistribution → Str
  | .none => ['N', 'o', 'n', 'e']
  | .low => ['L', 'o', 'w']
  | .medium => ['M', 'e', 'd', 'i', 'u', 'm']
  | .high => ['H', 'i', 'g', 'h']
  | .notDefined => ['N', 'o', 't', 'D', 'e', 'f', 'i', 'n', 'e', 'd']

/-- `Debug` of the value of each metric. -/
def MetricType.debug : (m : MetricType) → m.Val → Str
  | .A => AvailabilityImpact.debug
  | .AC => AccessComplexity.debug
  | .Au => Authentication.debug
  | .AV => AccessVector.debug
  | .C => ConfidentialityImpact.debug
  | .I => IntegrityImpact.debug
  | .E => Exploitability.debug
  | .RC => ReportConfidence.debug
  | .RL => RemediationLevel.debug
  | .AR => AvailabilityRequirement.debug
  | .CDP => CollateralDamagePotential.debug
  | .CR => ConfidentialityRequirement.debug
  | .IR => IntegrityRequirement.debug
  | .TD => TargetDistribution.debug

/-- `MetricType::description`: cvss/src/v2/metric.rs:106-128. -/
def MetricType.description : MetricType → Str
  | .A => ['A', 'v', 'a', 'i', 'l', 'a', 'b', 'i', 'l', 'i', 't', 'y', ' ', 'I', 'm', 'p', 'a', 'c', 't']
  | .AC => ['A', 'c', 'c', 'e', 's', 's', ' ', 'C', 'o', 'm', 'p', 'l', 'e', 'x', 'i', 't', 'y']
  | .Au => ['A', 'u', 't', 'h', 'e', 'n', 't', 'i', 'c', 'a', 't', 'i', 'o', 'n']
  | .AV => ['A', 'c', 'c', 'e', 's', 's', ' ', 'V', 'e', 'c', 't', 'o', 'r']
  | .C => ['C', 'o', 'n', 'f', 'i', 'd', 'e', 'n', 't', 'i', 'a', 'l', 'i', 't', 'y', ' ', 'I', 'm', 'p', 'a', 'c', 't']
  | .I => ['I', 'n', 't', 'e', 'g', 'r', 'i', 't', 'y', ' ', 'I', 'm', 'p', 'a', 'c', 't']
  | .E => ['E', 'x', 'p', 'l', 'o', 'i', 't', 'a', 'b', 'i', 'l', 'i', 't', 'y']
  | .RL => ['R', 'e', 'm', 'e', 'd', 'i', 'a', 't', 'i', 'o', 'n', ' ', 'L', 'e', 'v', 'e', 'l']
  | .RC => ['R', 'e', 'p', 'o', 'r', 't', ' ', 'C', 'o', 'n', 'f', 'i', 'd', 'e', 'n', 'c', 'e']
  | .CDP => ['C', 'o', 'l', 'l', 'a', 't', 'e', 'r', 'a', 'l', ' ', 'D', 'a', 'm', 'a', 'g', 'e', ' ', 'P', 'o', 't', 'e', 'n', 't', 'i', 'a', 'l']
  | .TD => ['T', 'a', 'r', 'g', 'e', 't', ' ', 'D', 'i', 's', 't', 'r', 'i', 'b', 'u', 't', 'i', 'o', 'n']
  | .CR => ['C', 'o', 'n', 'f', 'i', 'd', 'e', 'n', 't', 'i', 'a', 'l', 'i', 't', 'y', ' ', 'R', 'e', 'q', 'u', 'i', 'r', 'e', 'm', 'e', 'n', 't']
  | .IR => ['I', 'n', 't', 'e', 'g', 'r', 'i', 't', 'y', ' ', 'R', 'e', 'q', 'u', 'i', 'r', 'e', 'm', 'e', 'n', 't']
  | .AR => ['A', 'v', 'a', 'i', 'l', 'a', 'b', 'i', 'l', 'i', 't', 'y', ' ', 'R', 'e', 'q', 'u', 'i', 'r', 'e', 'm', 'e', 'n', 't']

/-- The array of `metrics()`: the label of each row and the field it lists.  cvss/src/v2/vector.rs:212-261. -/
def listRows : List (MetricType × MetricType) :=
  [(.AC, .AC), (.Au, .Au), (.AV, .AV), (.C, .C), (.I, .I), (.A, .A), (.CR, .CR), (.IR, .IR), (.AR, .AR),
    (.CDP, .CDP), (.TD, .TD), (.E, .E), (.RC, .RC), (.RL, .RL)]

/-- One row of `metrics()`, if its metric is present: `filter_map` (cvss/src/v2/vector.rs:259-260). -/
def listRow (v : scheme.Metrics) (r : MetricType × MetricType) : Option (MetricType × Str) :=
  (v r.2).map fun x => (r.1, r.2.debug x)

/-- `metrics()`: the metrics that are present, each with the `Debug` text of its value. cvss/src/v2/vector.rs:212-261. -/
def listed (v : scheme.Metrics) : List (MetricType × Str) := listRows.filterMap (listRow v)

end V2

namespace V3

/-- `Debug` of `Availability` (derived): cvss/src/v3/base/a.rs:23-57. -/
def Availability.debug : Availability → Str
  | .none => ['N', 'o', 'n', 'e']
  | .low => ['L', 'o', 'w']
  | .high => ['H', 'i', 'g', 'h']

/-- `Debug` of `AttackComplexity` (derived): cvss/src/v3/base/ac.rs:22-51. -/
def AttackComplexity.debug : AttackComplexity → Str
  | .high => ['H', 'i', 'g', 'h']
  | .low => ['L', 'o', 'w']

/-- `Debug` of `AttackVector` (derived): cvss/src/v3/base/av.rs:20-70. -/
def AttackVector.debug : AttackVector → Str
  | .physical => ['P', 'h', 'y', 's', 'i', 'c', 'a', 'l']
  | .local => ['L', 'o', 'c', 'a', 'l']
  | .adjacent => ['A', 'd', 'j', 'a', 'c', 'e', 'n', 't']
  | .network => ['N', 'e', 't', 'w', 'o', 'r', 'k']

/-- `Debug` of `Confidentiality` (derived): cvss/src/v3/base/c.rs:18-43. -/
def Confidentiality.debug : Confidentiality → Str
  | .none => ['N', 'o', 'n', 'e']
  | .low => ['L', 'o', 'w']
  | .high => ['H', 'i', 'g', 'h']

/-- `Debug` of `Integrity` (derived): cvss/src/v3/base/i.rs:16-39. -/
def Integrity.debug : Integrity → Str
  | .none => ['N', 'o', 'n', 'e']
  | .low => ['L', 'o', 'w']
  | .high => ['H', 'i', 'g', 'h']

/-- `Debug` of `PrivilegesRequired` (derived): cvss/src/v3/base/pr.rs:15-38. -/
def PrivilegesRequired.debug : PrivilegesRequired → Str
  | .high => ['H', 'i', 'g', 'h']
  | .low => ['L', 'o', 'w']
  | .none => ['N', 'o', 'n', 'e']

/-- `Debug` of `Scope` (derived): cvss/src/v3/base/s.rs:37-54. -/
def Scope.debug : Scope → Str
  | .unchanged => ['U', 'n', 'c', 'h', 'a', 'n', 'g', 'e', 'd']
  | .changed => ['C', 'h', 'a', 'n', 'g', 'e', 'd']

/-- `Debug` of `UserInteraction` (derived): cvss/src/v3/base/ui.rs:18-32. -/
def UserInteraction.debug : UserInteraction → Str
  | .required => ['R', 'e', 'q', 'u', 'i', 'r', 'e', 'd']
  | .none => ['N', 'o', 'n', 'e']

/-- `Debug` of the value of each metric. -/
def MetricType.debug : (m : MetricType) → m.Val → Str
  | .A => Availability.debug
  | .AC => AttackComplexity.debug
  | .AV => AttackVector.debug
  | .C => Confidentiality.debug
  | .I => Integrity.debug
  | .PR => PrivilegesRequired.debug
  | .S => Scope.debug
  | .UI => UserInteraction.debug

/-- `MetricType::description`: cvss/src/v3/metric.rs:72-83. -/
def MetricType.description : MetricType → Str
  | .A => ['A', 'v', 'a', 'i', 'l', 'a', 'b', 'i', 'l', 'i', 't', 'y', ' ', 'I', 'm', 'p', 'a', 'c', 't']
  | .AC => ['A', 't', 't', 'a', 'c', 'k', ' ', 'C', 'o', 'm', 'p', 'l', 'e', 'x', 'i', 't', 'y']
  | .AV => ['A', 't', 't', 'a', 'c', 'k', ' ', 'V', 'e', 'c', 't', 'o', 'r']
  | .C => ['C', 'o', 'n', 'f', 'i', 'd', 'e', 'n', 't', 'i', 'a', 'l', 'i', 't', 'y', ' ', 'I', 'm', 'p', 'a', 'c', 't']
  | .I => ['I', 'n', 't', 'e', 'g', 'r', 'i', 't', 'y', ' ', 'I', 'm', 'p', 'a', 'c', 't']
  | .PR => ['P', 'r', 'i', 'v', 'i', 'l', 'e', 'g', 'e', 's', ' ', 'R', 'e', 'q', 'u', 'i', 'r', 'e', 'd']
  | .S => ['S', 'c', 'o', 'p', 'e']
  | .UI => ['U', 's', 'e', 'r', ' ', 'I', 'n', 't', 'e', 'r', 'a', 'c', 't', 'i', 'o', 'n']

/-- The array of `metrics()`: the label of each row and the field it lists.  cvss/src/v3/base.rs:165-190. -/
def listRows : List (MetricType × MetricType) :=
  [(.AV, .AV), (.AC, .AC), (.PR, .PR), (.UI, .UI), (.S, .S), (.C, .C), (.I, .I), (.A, .A)]

/-- One row of `metrics()`, if its metric is present: `filter_map` (cvss/src/v3/base.rs:188-189). -/
def listRow (v : scheme.Metrics) (r : MetricType × MetricType) : Option (MetricType × Str) :=
  (v r.2).map fun x => (r.1, r.2.debug x)

/-- `metrics()`: the metrics that are present, each with the `Debug` text of its value. cvss/src/v3/base.rs:165-190. -/
def listed (v : scheme.Metrics) : List (MetricType × Str) := listRows.filterMap (listRow v)

end V3

namespace V4

/-- `Debug` of `AttackComplexity` (derived): cvss/src/v4/metric/base/ac.rs:29-57. -/
def AttackComplexity.debug : AttackComplexity → Str
  | .high => ['H', 'i', 'g', 'h']
  | .low => ['L', 'o', 'w']

/-- `Debug` of `AttackRequirements` (derived): cvss/src/v4/metric/base/at.rs:22-46. -/
def AttackRequirements.debug : AttackRequirements → Str
  | .present => ['P', 'r', 'e', 's', 'e', 'n', 't']
  | .none => ['N', 'o', 'n', 'e']

/-- `Debug` of `AttackVector` (derived): cvss/src/v4/metric/base/av.rs:22-71. -/
def AttackVector.debug : AttackVector → Str
  | .physical => ['P', 'h', 'y', 's', 'i', 'c', 'a', 'l']
  | .local => ['L', 'o', 'c', 'a', 'l']
  | .adjacent => ['A', 'd', 'j', 'a', 'c', 'e', 'n', 't']
  | .network => ['N', 'e', 't', 'w', 'o', 'r', 'k']

/-- `Debug` of `PrivilegesRequired` (derived): cvss/src/v4/metric/base/pr.rs:21-45. -/
def PrivilegesRequired.debug : PrivilegesRequired → Str
  | .high => ['H', 'i', 'g', 'h']
  | .low => ['L', 'o', 'w']
  | .none => ['N', 'o', 'n', 'e']

/-- `Debug` of `AvailabilityImpactToTheSubsequentSystem` (derived): cvss/src/v4/metric/base/sa.rs:25-60. -/
def AvailabilityImpactToTheSubsequentSystem.debug : AvailabilityImpactToTheSubsequentSystem → Str
  | .none => ['N', 'o', 'n', 'e']
  | .low => ['L', 'o', 'w']
  | .high => ['H', 'i', 'g', 'h']

/-- `Debug` of `ConfidentialityImpactToTheSubsequentSystem` (derived): cvss/src/v4/metric/base/sc.rs:21-48. -/
def ConfidentialityImpactToTheSubsequentSystem.debug : ConfidentialityImpactToTheSubsequentSystem → Str
  | .none => ['N', 'o', 'n', 'e']
  | .low => ['L', 'o', 'w']
  | .high => ['H', 'i', 'g', 'h']

/-- `Debug` of `IntegrityImpactToTheSubsequentSystem` (derived): cvss/src/v4/metric/base/si.rs:22-47. -/
def IntegrityImpactToTheSubsequentSystem.debug : IntegrityImpactToTheSubsequentSystem → Str
  | .none => ['N', 'o', 'n', 'e']
  | .low => ['L', 'o', 'w']
  | .high => ['H', 'i', 'g', 'h']

/-- `Debug` of `UserInteraction` (derived): cvss/src/v4/metric/base/ui.rs:20-58. -/
def UserInteraction.debug : UserInteraction → Str
  | .active => ['A', 'c', 't', 'i', 'v', 'e']
  | .passive => ['P', 'a', 's', 's', 'i', 'v', 'e']
  | .none => ['N', 'o', 'n', 'e']

/-- `Debug` of `AvailabilityImpactToTheVulnerableSystem` (derived): cvss/src/v4/metric/base/va.rs:25-59. -/
def AvailabilityImpactToTheVulnerableSystem.debug : AvailabilityImpactToTheVulnerableSystem → Str
  | .none => ['N', 'o', 'n', 'e']
  | .low => ['L', 'o', 'w']
  | .high => ['H', 'i', 'g', 'h']

/-- `Debug` of `ConfidentialityImpactToTheVulnerableSystem` (derived): cvss/src/v4/metric/base/vc.rs:21-47. -/
def ConfidentialityImpactToTheVulnerableSystem.debug : ConfidentialityImpactToTheVulnerableSystem → Str
  | .none => ['N', 'o', 'n', 'e']
  | .low => ['L', 'o', 'w']
  | .high => ['H', 'i', 'g', 'h']

/-- `Debug` of `IntegrityImpactToTheVulnerableSystem` (derived): cvss/src/v4/metric/base/vi.rs:22-46. -/
def IntegrityImpactToTheVulnerableSystem.debug : IntegrityImpactToTheVulnerableSystem → Str
  | .none => ['N', 'o', 'n', 'e']
  | .low => ['L', 'o', 'w']
  | .high => ['H', 'i', 'g', 'h']

/-- `Debug` of `ExploitMaturity` (derived): cvss/src/v4/metric/threat/e.rs:40-75. -/
def ExploitMaturity.debug : ExploitMaturity → Str
  | .notDefined => ['N', 'o', 't', 'D', 'e', 'f', 'i', 'n', 'e', 'd']
  | .unreported => ['U', 'n', 'r', 'e', 'p', 'o', 'r', 't', 'e', 'd']
  | .proofOfConcept => ['P', 'r', 'o', 'o', 'f', 'O', 'f', 'C', 'o', 'n', 'c', 'e', 'p', 't']
  | .attacked => ['A', 't', 't', 'a', 'c', 'k', 'e', 'd']

/-- `Debug` of `AvailabilityRequirements` (derived): cvss/src/v4/metric/environmental/ar.rs:28-55. -/
def AvailabilityRequirements.debug : AvailabilityRequirements → Str
  | .notDefined => ['N', 'o', 't', 'D', 'e', 'f', 'i', 'n', 'e', 'd']
  | .low => ['L', 'o', 'w']
  | .medium => ['M', 'e', 'd', 'i', 'u', 'm']
  | .high => ['H', 'i', 'g', 'h']

/-- `Debug` of `ConfidentialityRequirements` (derived): cvss/src/v4/metric/environmental/cr.rs:28-55. -/
def ConfidentialityRequirements.debug : ConfidentialityRequirements → Str
  | .notDefined => ['N', 'o', 't', 'D', 'e', 'f', 'i', 'n', 'e', 'd']
  | .low => ['L', 'o', 'w']
  | .medium => ['M', 'e', 'd', 'i', 'u', 'm']
  | .high => ['H', 'i', 'g', 'h']

/-- `Debug` of `IntegrityRequirements` (derived): cvss/src/v4/metric/environmental/ir.rs:28-55. -/
def IntegrityRequirements.debug : IntegrityRequirements → Str
  | .notDefined => ['N', 'o', 't', 'D', 'e', 'f', 'i', 'n', 'e', 'd']
  | .low => ['L', 'o', 'w']
  | .medium => ['M', 'e', 'd', 'i', 'u', 'm']
  | .high => ['H', 'i', 'g', 'h']

/-- `Debug` of `ModifiedAttackComplexity` (derived): cvss/src/v4/metric/environmental/mac.rs:29-62. -/
def ModifiedAttackComplexity.debug : ModifiedAttackComplexity → Str
  | .notDefined => ['N', 'o', 't', 'D', 'e', 'f', 'i', 'n', 'e', 'd']
  | .high => ['H', 'i', 'g', 'h']
  | .low => ['L', 'o', 'w']

/-- `Debug` of `ModifiedAttackRequirements` (derived): cvss/src/v4/metric/environmental/mat.rs:22-51. -/
def ModifiedAttackRequirements.debug : ModifiedAttackRequirements → Str
  | .notDefined => ['N', 'o', 't', 'D', 'e', 'f', 'i', 'n', 'e', 'd']
  | .present => ['P', 'r', 'e', 's', 'e', 'n', 't']
  | .none => ['N', 'o', 'n', 'e']

/-- `Debug` of `ModifiedAttackVector` (derived): cvss/src/v4/metric/environmental/mav.rs:22-72. -/
def ModifiedAttackVector.debug : ModifiedAttackVector → Str
  | .physical => ['P', 'h', 'y', 's', 'i', 'c', 'a', 'l']
  | .local => ['L', 'o', 'c', 'a', 'l']
  | .adjacent => ['A', 'd', 'j', 'a', 'c', 'e', 'n', 't']
  | .network => ['N', 'e', 't', 'w', 'o', 'r', 'k']
  | .notDefined => ['N', 'o', 't', 'D', 'e', 'f', 'i', 'n', 'e', 'd']

/-- `Debug` of `ModifiedPrivilegesRequired` (derived): cvss/src/v4/metric/environmental/mpr.rs:21-50. -/
def ModifiedPrivilegesRequired.debug : ModifiedPrivilegesRequired → Str
  | .notDefined => ['N', 'o', 't', 'D', 'e', 'f', 'i', 'n', 'e', 'd']
  | .high => ['H', 'i', 'g', 'h']
  | .low => ['L', 'o', 'w']
  | .none => ['N', 'o', 'n', 'e']

/-- `Debug` of `ModifiedAvailabilityImpactToTheSubsequentSystem` (derived): cvss/src/v4/metric/environmental/msa.rs:25-68. -/
def ModifiedAvailabilityImpactToTheSubsequentSystem.debug : ModifiedAvailabilityImpactToTheSubsequentSystem → Str
  | .notDefined => ['N', 'o', 't', 'D', 'e', 'f', 'i', 'n', 'e', 'd']
  | .negligible => ['N', 'e', 'g', 'l', 'i', 'g', 'i', 'b', 'l', 'e']
  | .low => ['L', 'o', 'w']
  | .high => ['H', 'i', 'g', 'h']
  | .safety => ['S', 'a', 'f', 'e', 't', 'y']

/-- `Debug` of `ModifiedConfidentialityImpactToTheSubsequentSystem` (derived): cvss/src/v4/metric/environmental/msc.rs:21-53. -/
def ModifiedConfidentialityImpactToTheSubsequentSystem.debug : ModifiedConfidentialityImpactToTheSubsequentSystem → Str
  | .notDefined => ['N', 'o', 't', 'D', 'e', 'f', 'i', 'n', 'e', 'd']
  | .negligible => ['N', 'e', 'g', 'l', 'i', 'g', 'i', 'b', 'l', 'e']
  | .low => ['L', 'o', 'w']
  | .high => ['H', 'i', 'g', 'h']

/-- `Debug` of `ModifiedIntegrityImpactToTheSubsequentSystem` (derived): cvss/src/v4/metric/environmental/msi.rs:23-56. -/
def ModifiedIntegrityImpactToTheSubsequentSystem.debug : ModifiedIntegrityImpactToTheSubsequentSystem → Str
  | .notDefined => ['N', 'o', 't', 'D', 'e', 'f', 'i', 'n', 'e', 'd']
  | .negligible => ['N', 'e', 'g', 'l', 'i', 'g', 'i', 'b', 'l', 'e']
  | .low => ['L', 'o', 'w']
  | .high => ['H', 'i', 'g', 'h']
  | .safety => ['S', 'a', 'f', 'e', 't', 'y']

/-- `Debug` of `ModifiedUserInteraction` (derived): cvss/src/v4/metric/environmental/mui.rs:20-60. -/
def ModifiedUserInteraction.debug : ModifiedUserInteraction → Str
  | .notDefined => ['N', 'o', 't', 'D', 'e', 'f', 'i', 'n', 'e', 'd']
  | .active => ['A', 'c', 't', 'i', 'v', 'e']
  | .passive => ['P', 'a', 's', 's', 'i', 'v', 'e']
  | .none => ['N', 'o', 'n', 'e']

/-- `Debug` of `ModifiedAvailabilityImpactToTheVulnerableSystem` (derived): cvss/src/v4/metric/environmental/mva.rs:25-61. -/
def ModifiedAvailabilityImpactToTheVulnerableSystem.debug : ModifiedAvailabilityImpactToTheVulnerableSystem → Str
  | .notDefined => ['N', 'o', 't', 'D', 'e', 'f', 'i', 'n', 'e', 'd']
  | .none => ['N', 'o', 'n', 'e']
  | .low => ['L', 'o', 'w']
  | .high => ['H', 'i', 'g', 'h']

/-- `Debug` of `ModifiedConfidentialityImpactToTheVulnerableSystem` (derived): cvss/src/v4/metric/environmental/mvc.rs:21-49. -/
def ModifiedConfidentialityImpactToTheVulnerableSystem.debug : ModifiedConfidentialityImpactToTheVulnerableSystem → Str
  | .notDefined => ['N', 'o', 't', 'D', 'e', 'f', 'i', 'n', 'e', 'd']
  | .none => ['N', 'o', 'n', 'e']
  | .low => ['L', 'o', 'w']
  | .high => ['H', 'i', 'g', 'h']

/-- `Debug` of `ModifiedIntegrityImpactToTheVulnerableSystem` (derived): cvss/src/v4/metric/environmental/mvi.rs:23-49. -/
def ModifiedIntegrityImpactToTheVulnerableSystem.debug : ModifiedIntegrityImpactToTheVulnerableSystem → Str
  | .notDefined => ['N', 'o', 't', 'D', 'e', 'f', 'i', 'n', 'e', 'd']
  | .none => ['N', 'o', 'n', 'e']
  | .low => ['L', 'o', 'w']
  | .high => ['H', 'i', 'g', 'h']

/-- `Debug` of `Automatable` (derived): cvss/src/v4/metric/supplemental/au.rs:19-40. -/
def Automatable.debug : Automatable → Str
  | .notDefined => ['N', 'o', 't', 'D', 'e', 'f', 'i', 'n', 'e', 'd']
  | .yes => ['Y', 'e', 's']
  | .no => ['N', 'o']

/-- `Debug` of `Recovery` (derived): cvss/src/v4/metric/supplemental/r.rs:13-38. -/
def Recovery.debug : Recovery → Str
  | .notDefined => ['N', 'o', 't', 'D', 'e', 'f', 'i', 'n', 'e', 'd']
  | .automatic => ['A', 'u', 't', 'o', 'm', 'a', 't', 'i', 'c']
  | .user => ['U', 's', 'e', 'r']
  | .irrecoverable => ['I', 'r', 'r', 'e', 'c', 'o', 'v', 'e', 'r', 'a', 'b', 'l', 'e']

/-- `Debug` of `VulnerabilityResponseEffort` (derived): cvss/src/v4/metric/supplemental/re.rs:13-56. -/
def VulnerabilityResponseEffort.debug : VulnerabilityResponseEffort → Str
  | .notDefined => ['N', 'o', 't', 'D', 'e', 'f', 'i', 'n', 'e', 'd']
  | .low => ['L', 'o', 'w']
  | .moderate => ['M', 'o', 'd', 'e', 'r', 'a', 't', 'e']
  | .high => ['H', 'i', 'g', 'h']

/-- `Debug` of `Safety` (derived): cvss/src/v4/metric/supplemental/s.rs:22-41. -/
def Safety.debug : Safety → Str
  | .notDefined => ['N', 'o', 't', 'D', 'e', 'f', 'i', 'n', 'e', 'd']
  | .present => ['P', 'r', 'e', 's', 'e', 'n', 't']
  | .negligible => ['N', 'e', 'g', 'l', 'i', 'g', 'i', 'b', 'l', 'e']

/-- `Debug` of `ProviderUrgency` (derived): cvss/src/v4/metric/supplemental/u.rs:30-57. -/
def ProviderUrgency.debug : ProviderUrgency → Str
  | .notDefined => ['N', 'o', 't', 'D', 'e', 'f', 'i', 'n', 'e', 'd']
  | .red => ['R', 'e', 'd']
  | .amber => ['A', 'm', 'b', 'e', 'r']
  | .green => ['G', 'r', 'e', 'e', 'n']
  | .clear => ['C', 'l', 'e', 'a', 'r']

/-- `Debug` of `ValueDensity` (derived): cvss/src/v4/metric/supplemental/v.rs:13-37. -/
def ValueDensity.debug : ValueDensity → Str
  | .notDefined => ['N', 'o', 't', 'D', 'e', 'f', 'i', 'n', 'e', 'd']
  | .diffuse => ['D', 'i', 'f', 'f', 'u', 's', 'e']
  | .concentrated => ['C', 'o', 'n', 'c', 'e', 'n', 't', 'r', 'a', 't', 'e', 'd']

/-- `Debug` of the value of each metric. -/
def MetricType.debug : (m : MetricType) → m.Val → Str
  | .AC => AttackComplexity.debug
  | .AT => AttackRequirements.debug
  | .AV => AttackVector.debug
  | .PR => PrivilegesRequired.debug
  | .SA => AvailabilityImpactToTheSubsequentSystem.debug
  | .SC => ConfidentialityImpactToTheSubsequentSystem.debug
  | .SI => IntegrityImpactToTheSubsequentSystem.debug
  | .UI => UserInteraction.debug
  | .VA => AvailabilityImpactToTheVulnerableSystem.debug
  | .VC => ConfidentialityImpactToTheVulnerableSystem.debug
  | .VI => IntegrityImpactToTheVulnerableSystem.debug
  | .E => ExploitMaturity.debug
  | .AR => AvailabilityRequirements.debug
  | .CR => ConfidentialityRequirements.debug
  | .IR => IntegrityRequirements.debug
  | .MAC => ModifiedAttackComplexity.debug
  | .MAT => ModifiedAttackRequirements.debug
  | .MAV => ModifiedAttackVector.debug
  | .MPR => ModifiedPrivilegesRequired.debug
  | .MSA => ModifiedAvailabilityImpactToTheSubsequentSystem.debug
  | .MSC => ModifiedConfidentialityImpactToTheSubsequentSystem.debug
  | .MSI => ModifiedIntegrityImpactToTheSubsequentSystem.debug
  | .MUI => ModifiedUserInteraction.debug
  | .MVA => ModifiedAvailabilityImpactToTheVulnerableSystem.debug
  | .MVC => ModifiedConfidentialityImpactToTheVulnerableSystem.debug
  | .MVI => ModifiedIntegrityImpactToTheVulnerableSystem.debug
  | .AU => Automatable.debug
  | .R => Recovery.debug
  | .RE => VulnerabilityResponseEffort.debug
  | .S => Safety.debug
  | .U => ProviderUrgency.debug
  | .V => ValueDensity.debug

/-- `MetricType::description`: cvss/src/v4/metric.rs:146-181. -/
def MetricType.description : MetricType → Str
  | .AC => ['A', 't', 't', 'a', 'c', 'k', ' ', 'C', 'o', 'm', 'p', 'l', 'e', 'x', 'i', 't', 'y']
  | .AT => ['A', 't', 't', 'a', 'c', 'k', ' ', 'R', 'e', 'q', 'u', 'i', 'r', 'e', 'm', 'e', 'n', 't', 's']
  | .AV => ['A', 't', 't', 'a', 'c', 'k', ' ', 'V', 'e', 'c', 't', 'o', 'r']
  | .PR => ['P', 'r', 'i', 'v', 'i', 'l', 'e', 'g', 'e', 's', ' ', 'R', 'e', 'q', 'u', 'i', 'r', 'e', 'd']
  | .SA => ['A', 'v', 'a', 'i', 'l', 'a', 'b', 'i', 'l', 'i', 't', 'y', ' ', 'I', 'm', 'p', 'a', 'c', 't', ' ', 't', 'o', ' ', 't', 'h', 'e', ' ', 'S', 'u', 'b', 's', 'e', 'q', 'u', 'e', 'n', 't', ' ', 'S', 'y', 's', 't', 'e', 'm']
  | .SC => ['C', 'o', 'n', 'f', 'i', 'd', 'e', 'n', 't', 'i', 'a', 'l', 'i', 't', 'y', ' ', 'I', 'm', 'p', 'a', 'c', 't', ' ', 't', 'o', ' ', 't', 'h', 'e', ' ', 'S', 'u', 'b', 's', 'e', 'q', 'u', 'e', 'n', 't', ' ', 'S', 'y', 's', 't', 'e', 'm']
  | .SI => ['I', 'n', 't', 'e', 'g', 'r', 'i', 't', 'y', ' ', 'I', 'm', 'p', 'a', 'c', 't', ' ', 't', 'o', ' ', 't', 'h', 'e', ' ', 'S', 'u', 'b', 's', 'e', 'q', 'u', 'e', 'n', 't', ' ', 'S', 'y', 's', 't', 'e', 'm']
  | .UI => ['U', 's', 'e', 'r', ' ', 'I', 'n', 't', 'e', 'r', 'a', 'c', 't', 'i', 'o', 'n']
  | .VA => ['A', 'v', 'a', 'i', 'l', 'a', 'b', 'i', 'l', 'i', 't', 'y', ' ', 'I', 'm', 'p', 'a', 'c', 't', ' ', 't', 'o', ' ', 't', 'h', 'e', ' ', 'V', 'u', 'l', 'n', 'e', 'r', 'a', 'b', 'l', 'e', ' ', 'S', 'y', 's', 't', 'e', 'm']
  | .VC => ['C', 'o', 'n', 'f', 'i', 'd', 'e', 'n', 't', 'i', 'a', 'l', 'i', 't', 'y', ' ', 'I', 'm', 'p', 'a', 'c', 't', ' ', 't', 'o', ' ', 't', 'h', 'e', ' ', 'V', 'u', 'l', 'n', 'e', 'r', 'a', 'b', 'l', 'e', ' ', 'S', 'y', 's', 't', 'e', 'm']
  | .VI => ['I', 'n', 't', 'e', 'g', 'r', 'i', 't', 'y', ' ', 'I', 'm', 'p', 'a', 'c', 't', ' ', 't', 'o', ' ', 't', 'h', 'e', ' ', 'V', 'u', 'l', 'n', 'e', 'r', 'a', 'b', 'l', 'e', ' ', 'S', 'y', 's', 't', 'e', 'm']
  | .E => ['E', 'x', 'p', 'l', 'o', 'i', 't', ' ', 'M', 'a', 't', 'u', 'r', 'i', 't', 'y']
  | .AR => ['A', 'v', 'a', 'i', 'l', 'a', 'b', 'i', 'l', 'i', 't', 'y', ' ', 'R', 'e', 'q', 'u', 'i', 'r', 'e', 'm', 'e', 'n', 't', 's']
  | .CR => ['C', 'o', 'n', 'f', 'i', 'd', 'e', 'n', 't', 'i', 'a', 'l', 'i', 't', 'y', ' ', 'R', 'e', 'q', 'u', 'i', 'r', 'e', 'm', 'e', 'n', 't', 's']
  | .IR => ['I', 'n', 't', 'e', 'g', 'r', 'i', 't', 'y', ' ', 'R', 'e', 'q', 'u', 'i', 'r', 'e', 'm', 'e', 'n', 't', 's']
  | .MAC => ['M', 'o', 'd', 'i', 'f', 'i', 'e', 'd', ' ', 'A', 't', 't', 'a', 'c', 'k', ' ', 'C', 'o', 'm', 'p', 'l', 'e', 'x', 'i', 't', 'y']
  | .MAT => ['M', 'o', 'd', 'i', 'f', 'i', 'e', 'd', ' ', 'A', 't', 't', 'a', 'c', 'k', ' ', 'R', 'e', 'q', 'u', 'i', 'r', 'e', 'm', 'e', 'n', 't', 's']
  | .MAV => ['M', 'o', 'd', 'i', 'f', 'i', 'e', 'd', ' ', 'A', 't', 't', 'a', 'c', 'k', ' ', 'V', 'e', 'c', 't', 'o', 'r']
  | .MPR => ['M', 'o', 'd', 'i', 'f', 'i', 'e', 'd', ' ', 'P', 'r', 'i', 'v', 'i', 'l', 'e', 'g', 'e', 's', ' ', 'R', 'e', 'q', 'u', 'i', 'r', 'e', 'd']
  | .MSA => ['M', 'o', 'd', 'i', 'f', 'i', 'e', 'd', ' ', 'A', 'v', 'a', 'i', 'l', 'a', 'b', 'i', 'l', 'i', 't', 'y', ' ', 'I', 'm', 'p', 'a', 'c', 't', ' ', 't', 'o', ' ', 't', 'h', 'e', ' ', 'S', 'u', 'b', 's', 'e', 'q', 'u', 'e', 'n', 't', ' ', 'S', 'y', 's', 't', 'e', 'm']
  | .MSC => ['M', 'o', 'd', 'i', 'f', 'i', 'e', 'd', ' ', 'C', 'o', 'n', 'f', 'i', 'd', 'e', 'n', 't', 'i', 'a', 'l', 'i', 't', 'y', ' ', 'I', 'm', 'p', 'a', 'c', 't', ' ', 't', 'o', ' ', 't', 'h', 'e', ' ', 'S', 'u', 'b', 's', 'e', 'q', 'u', 'e', 'n', 't', ' ', 'S', 'y', 's', 't', 'e', 'm']
  | .MSI => ['M', 'o', 'd', 'i', 'f', 'i', 'e', 'd', ' ', 'I', 'n', 't', 'e', 'g', 'r', 'i', 't', 'y', ' ', 'I', 'm', 'p', 'a', 'c', 't', ' ', 't', 'o', ' ', 't', 'h', 'e', ' ', 'S', 'u', 'b', 's', 'e', 'q', 'u', 'e', 'n', 't', ' ', 'S', 'y', 's', 't', 'e', 'm']
  | .MUI => ['M', 'o', 'd', 'i', 'f', 'i', 'e', 'd', ' ', 'U', 's', 'e', 'r', ' ', 'I', 'n', 't', 'e', 'r', 'a', 'c', 't', 'i', 'o', 'n']
  | .MVA => ['M', 'o', 'd', 'i', 'f', 'i', 'e', 'd', ' ', 'A', 'v', 'a', 'i', 'l', 'a', 'b', 'i', 'l', 'i', 't', 'y', ' ', 'I', 'm', 'p', 'a', 'c', 't', ' ', 't', 'o', ' ', 't', 'h', 'e', ' ', 'V', 'u', 'l', 'n', 'e', 'r', 'a', 'b', 'l', 'e', ' ', 'S', 'y', 's', 't', 'e', 'm']
  | .MVC => ['M', 'o', 'd', 'i', 'f', 'i', 'e', 'd', ' ', 'C', 'o', 'n', 'f', 'i', 'd', 'e', 'n', 't', 'i', 'a', 'l', 'i', 't', 'y', ' ', 'I', 'm', 'p', 'a', 'c', 't', ' ', 't', 'o', ' ', 't', 'h', 'e', ' ', 'V', 'u', 'l', 'n', 'e', 'r', 'a', 'b', 'l', 'e', ' ', 'S', 'y', 's', 't', 'e', 'm']
  | .MVI => ['M', 'o', 'd', 'i', 'f', 'i', 'e', 'd', ' ', 'I', 'n', 't', 'e', 'g', 'r', 'i', 't', 'y', ' ', 'I', 'm', 'p', 'a', 'c', 't', ' ', 't', 'o', ' ', 't', 'h', 'e', ' ', 'V', 'u', 'l', 'n', 'e', 'r', 'a', 'b', 'l', 'e', ' ', 'S', 'y', 's', 't', 'e', 'm']
  | .AU => ['A', 'u', 't', 'o', 'm', 'a', 't', 'a', 'b', 'l', 'e']
  | .R => ['R', 'e', 'c', 'o', 'v', 'e', 'r', 'y']
  | .RE => ['V', 'u', 'l', 'n', 'e', 'r', 'a', 'b', 'i', 'l', 'i', 't', 'y', ' ', 'R', 'e', 's', 'p', 'o', 'n', 's', 'e', ' ', 'E', 'f', 'f', 'o', 'r', 't']
  | .S => ['S', 'a', 'f', 'e', 't', 'y']
  | .U => ['P', 'r', 'o', 'v', 'i', 'd', 'e', 'r', ' ', 'U', 'r', 'g', 'e', 'n', 'c', 'y']
  | .V => ['V', 'a', 'l', 'u', 'e', ' ', 'D', 'e', 'n', 's', 'i', 't', 'y']

/-- The array of `metrics()`: the label of each row and the field it lists.  cvss/src/v4/vector.rs:133-251. -/
def listRows : List (MetricType × MetricType) :=
  [(.AC, .AC), (.AT, .AT), (.AV, .AV), (.PR, .PR), (.SA, .SA), (.SC, .SC), (.SI, .SI), (.UI, .UI),
    (.VA, .VA), (.VC, .VC), (.VI, .VI), (.E, .E), (.AR, .AR), (.CR, .CR), (.IR, .IR), (.MAC, .MAC),
    (.MAT, .MAT), (.MAV, .MAV), (.MPR, .MPR), (.MSA, .MSA), (.MSC, .MSC), (.MSI, .MSI), (.MUI, .MUI),
    (.MVA, .MVA), (.MVC, .MVC), (.MVI, .MVI), (.AU, .AU), (.R, .R), (.RE, .RE), (.S, .S), (.U, .U),
    (.V, .V)]

/-- One row of `metrics()`, if its metric is present: `filter_map` (cvss/src/v4/vector.rs:249-250). -/
def listRow (v : scheme.Metrics) (r : MetricType × MetricType) : Option (MetricType × Str) :=
  (v r.2).map fun x => (r.1, r.2.debug x)

/-- `metrics()`: the metrics that are present, each with the `Debug` text of its value. cvss/src/v4/vector.rs:133-251. -/
def listed (v : scheme.Metrics) : List (MetricType × Str) := listRows.filterMap (listRow v)

end V4

/-- `MetricType` across versions (cvss/src/cvss.rs:174-187). -/
inductive MetricType where
  | v2 (m : V2.MetricType)
  | v3 (m : V3.MetricType)
  | v4 (m : V4.MetricType)
  deriving DecidableEq

/-- `MetricType::name` (cvss/src/cvss.rs:190-200). -/
def MetricType.name : MetricType → Str
  | .v2 m => m.name
  | .v3 m => m.name
  | .v4 m => m.name

/-- `MetricType::description` (cvss/src/cvss.rs:202-212). -/
def MetricType.description : MetricType → Str
  | .v2 m => m.description
  | .v3 m => m.description
  | .v4 m => m.description

/-- `Cvss::metrics` (cvss/src/cvss.rs:78-93). -/
def Cvss.listed : Cvss → List (MetricType × Str)
  | .v20 v => (V2.listed v).map fun p => (.v2 p.1, p.2)
  | .v30 b => (V3.listed b.metrics).map fun p => (.v3 p.1, p.2)
  | .v31 b => (V3.listed b.metrics).map fun p => (.v3 p.1, p.2)
  | .v40 v => (V4.listed v.metrics).map fun p => (.v4 p.1, p.2)

end Verif.Cvss
