import Verif.Model.Str

/-!
# CVSS v2 metrics

Generated from the Rust source by `/verif/tools/gen_cvss.py`: one inductive type per Rust enum, and its
`as_str`, `FromStr`, weight, level and merge tables.  A Rust `match` on string literals is a table looked up
from the top (`lookupStr`).
-/

namespace Verif.Cvss.V2

/-- `AvailabilityImpact`: cvss/src/v2/metric/base/a.rs:21-36. -/
inductive AvailabilityImpact where
  | none
  | part
  | complete
  deriving DecidableEq, Repr

/-- All values of `AvailabilityImpact`, in declaration order. -/
def AvailabilityImpact.all : List AvailabilityImpact := [.none, .part, .complete]

theorem AvailabilityImpact.mem_all : ∀ x : AvailabilityImpact, x ∈ AvailabilityImpact.all := by intro x; cases x <;> decide

/-- `AvailabilityImpact::as_str`: cvss/src/v2/metric/base/a.rs:38-56. -/
def AvailabilityImpact.asStr : AvailabilityImpact → Str
  | .none => "N".toList
  | .part => "P".toList
  | .complete => "C".toList

/-- `AvailabilityImpact::score` (the decimal literal; rounding is applied where it is used): cvss/src/v2/metric/base/a.rs:38-56. -/
def AvailabilityImpact.score : AvailabilityImpact → Rat
  | .none => 0
  | .part => 275 / 1000
  | .complete => 66 / 100

/-- `AvailabilityImpact::from_str`: cvss/src/v2/metric/base/a.rs:64-78. -/
def AvailabilityImpact.table : List (Str × AvailabilityImpact) :=
  [("N".toList, .none), ("P".toList, .part), ("C".toList, .complete)]

/-- `AccessComplexity`: cvss/src/v2/metric/base/ac.rs:25-70. -/
inductive AccessComplexity where
  | high
  | medium
  | low
  deriving DecidableEq, Repr

/-- All values of `AccessComplexity`, in declaration order. -/
def AccessComplexity.all : List AccessComplexity := [.high, .medium, .low]

theorem AccessComplexity.mem_all : ∀ x : AccessComplexity, x ∈ AccessComplexity.all := by intro x; cases x <;> decide

/-- `AccessComplexity::as_str`: cvss/src/v2/metric/base/ac.rs:72-90. -/
def AccessComplexity.asStr : AccessComplexity → Str
  | .high => "H".toList
  | .medium => "M".toList
  | .low => "L".toList

/-- `AccessComplexity::score` (the decimal literal; rounding is applied where it is used): cvss/src/v2/metric/base/ac.rs:72-90. -/
def AccessComplexity.score : AccessComplexity → Rat
  | .high => 35 / 100
  | .medium => 61 / 100
  | .low => 71 / 100

/-- `AccessComplexity::from_str`: cvss/src/v2/metric/base/ac.rs:98-112. -/
def AccessComplexity.table : List (Str × AccessComplexity) :=
  [("H".toList, .high), ("M".toList, .medium), ("L".toList, .low)]

/-- `Authentication`: cvss/src/v2/metric/base/au.rs:22-39. -/
inductive Authentication where
  | multiple
  | single
  | none
  deriving DecidableEq, Repr

/-- All values of `Authentication`, in declaration order. -/
def Authentication.all : List Authentication := [.multiple, .single, .none]

theorem Authentication.mem_all : ∀ x : Authentication, x ∈ Authentication.all := by intro x; cases x <;> decide

/-- `Authentication::as_str`: cvss/src/v2/metric/base/au.rs:41-59. -/
def Authentication.asStr : Authentication → Str
  | .multiple => "M".toList
  | .single => "S".toList
  | .none => "N".toList

/-- `Authentication::score` (the decimal literal; rounding is applied where it is used): cvss/src/v2/metric/base/au.rs:41-59. -/
def Authentication.score : Authentication → Rat
  | .multiple => 45 / 100
  | .single => 56 / 100
  | .none => 704 / 1000

/-- `Authentication::from_str`: cvss/src/v2/metric/base/au.rs:67-81. -/
def Authentication.table : List (Str × Authentication) :=
  [("M".toList, .multiple), ("S".toList, .single), ("N".toList, .none)]

/-- `AccessVector`: cvss/src/v2/metric/base/av.rs:18-44. -/
inductive AccessVector where
  | local
  | adjacentNetwork
  | network
  deriving DecidableEq, Repr

/-- All values of `AccessVector`, in declaration order. -/
def AccessVector.all : List AccessVector := [.local, .adjacentNetwork, .network]

theorem AccessVector.mem_all : ∀ x : AccessVector, x ∈ AccessVector.all := by intro x; cases x <;> decide

/-- `AccessVector::as_str`: cvss/src/v2/metric/base/av.rs:46-64. -/
def AccessVector.asStr : AccessVector → Str
  | .local => "L".toList
  | .adjacentNetwork => "A".toList
  | .network => "N".toList

/-- `AccessVector::score` (the decimal literal; rounding is applied where it is used): cvss/src/v2/metric/base/av.rs:46-64. -/
def AccessVector.score : AccessVector → Rat
  | .local => 395 / 1000
  | .adjacentNetwork => 646 / 1000
  | .network => 1

/-- `AccessVector::from_str`: cvss/src/v2/metric/base/av.rs:72-86. -/
def AccessVector.table : List (Str × AccessVector) :=
  [("L".toList, .local), ("A".toList, .adjacentNetwork), ("N".toList, .network)]

/-- `ConfidentialityImpact`: cvss/src/v2/metric/base/c.rs:21-38. -/
inductive ConfidentialityImpact where
  | none
  | part
  | complete
  deriving DecidableEq, Repr

/-- All values of `ConfidentialityImpact`, in declaration order. -/
def ConfidentialityImpact.all : List ConfidentialityImpact := [.none, .part, .complete]

theorem ConfidentialityImpact.mem_all : ∀ x : ConfidentialityImpact, x ∈ ConfidentialityImpact.all := by intro x; cases x <;> decide

/-- `ConfidentialityImpact::as_str`: cvss/src/v2/metric/base/c.rs:40-58. -/
def ConfidentialityImpact.asStr : ConfidentialityImpact → Str
  | .none => "N".toList
  | .part => "P".toList
  | .complete => "C".toList

/-- `ConfidentialityImpact::score` (the decimal literal; rounding is applied where it is used): cvss/src/v2/metric/base/c.rs:40-58. -/
def ConfidentialityImpact.score : ConfidentialityImpact → Rat
  | .none => 0
  | .part => 275 / 1000
  | .complete => 66 / 100

/-- `ConfidentialityImpact::from_str`: cvss/src/v2/metric/base/c.rs:66-80. -/
def ConfidentialityImpact.table : List (Str × ConfidentialityImpact) :=
  [("N".toList, .none), ("P".toList, .part), ("C".toList, .complete)]

/-- `IntegrityImpact`: cvss/src/v2/metric/base/i.rs:19-39. -/
inductive IntegrityImpact where
  | none
  | part
  | complete
  deriving DecidableEq, Repr

/-- All values of `IntegrityImpact`, in declaration order. -/
def IntegrityImpact.all : List IntegrityImpact := [.none, .part, .complete]

theorem IntegrityImpact.mem_all : ∀ x : IntegrityImpact, x ∈ IntegrityImpact.all := by intro x; cases x <;> decide

/-- `IntegrityImpact::as_str`: cvss/src/v2/metric/base/i.rs:41-59. -/
def IntegrityImpact.asStr : IntegrityImpact → Str
  | .none => "N".toList
  | .part => "P".toList
  | .complete => "C".toList

/-- `IntegrityImpact::score` (the decimal literal; rounding is applied where it is used): cvss/src/v2/metric/base/i.rs:41-59. -/
def IntegrityImpact.score : IntegrityImpact → Rat
  | .none => 0
  | .part => 275 / 1000
  | .complete => 66 / 100

/-- `IntegrityImpact::from_str`: cvss/src/v2/metric/base/i.rs:67-81. -/
def IntegrityImpact.table : List (Str × IntegrityImpact) :=
  [("N".toList, .none), ("P".toList, .part), ("C".toList, .complete)]

/-- `Exploitability`: cvss/src/v2/metric/temporal/e.rs:19-48. -/
inductive Exploitability where
  | unproven
  | proofOfConcept
  | functional
  | high
  | notDefined
  deriving DecidableEq, Repr

/-- All values of `Exploitability`, in declaration order. -/
def Exploitability.all : List Exploitability := [.unproven, .proofOfConcept, .functional, .high, .notDefined]

theorem Exploitability.mem_all : ∀ x : Exploitability, x ∈ Exploitability.all := by intro x; cases x <;> decide

/-- `Exploitability::as_str`: cvss/src/v2/metric/temporal/e.rs:50-72. -/
def Exploitability.asStr : Exploitability → Str
  | .unproven => "U".toList
  | .proofOfConcept => "POC".toList
  | .functional => "F".toList
  | .high => "H".toList
  | .notDefined => "ND".toList

/-- `Exploitability::score` (the decimal literal; rounding is applied where it is used): cvss/src/v2/metric/temporal/e.rs:50-72. -/
def Exploitability.score : Exploitability → Rat
  | .unproven => 85 / 100
  | .proofOfConcept => 9 / 10
  | .functional => 95 / 100
  | .high => 1
  | .notDefined => 1

/-- `Exploitability::from_str`: cvss/src/v2/metric/temporal/e.rs:80-96. -/
def Exploitability.table : List (Str × Exploitability) :=
  [("U".toList, .unproven), ("POC".toList, .proofOfConcept), ("F".toList, .functional), ("H".toList, .high), ("ND".toList, .notDefined)]

/-- `ReportConfidence`: cvss/src/v2/metric/temporal/rc.rs:17-43. -/
inductive ReportConfidence where
  | unconfirmed
  | uncorroborated
  | confirmed
  | notDefined
  deriving DecidableEq, Repr

/-- All values of `ReportConfidence`, in declaration order. -/
def ReportConfidence.all : List ReportConfidence := [.unconfirmed, .uncorroborated, .confirmed, .notDefined]

theorem ReportConfidence.mem_all : ∀ x : ReportConfidence, x ∈ ReportConfidence.all := by intro x; cases x <;> decide

/-- `ReportConfidence::as_str`: cvss/src/v2/metric/temporal/rc.rs:45-65. -/
def ReportConfidence.asStr : ReportConfidence → Str
  | .unconfirmed => "UC".toList
  | .uncorroborated => "UR".toList
  | .confirmed => "C".toList
  | .notDefined => "ND".toList

/-- `ReportConfidence::score` (the decimal literal; rounding is applied where it is used): cvss/src/v2/metric/temporal/rc.rs:45-65. -/
def ReportConfidence.score : ReportConfidence → Rat
  | .unconfirmed => 9 / 10
  | .uncorroborated => 95 / 100
  | .confirmed => 1
  | .notDefined => 1

/-- `ReportConfidence::from_str`: cvss/src/v2/metric/temporal/rc.rs:73-88. -/
def ReportConfidence.table : List (Str × ReportConfidence) :=
  [("UC".toList, .unconfirmed), ("UR".toList, .uncorroborated), ("C".toList, .confirmed), ("ND".toList, .notDefined)]

/-- `RemediationLevel`: cvss/src/v2/metric/temporal/rl.rs:18-44. -/
inductive RemediationLevel where
  | officialFix
  | temporaryFix
  | workaround
  | unavailable
  | notDefined
  deriving DecidableEq, Repr

/-- All values of `RemediationLevel`, in declaration order. -/
def RemediationLevel.all : List RemediationLevel := [.officialFix, .temporaryFix, .workaround, .unavailable, .notDefined]

theorem RemediationLevel.mem_all : ∀ x : RemediationLevel, x ∈ RemediationLevel.all := by intro x; cases x <;> decide

/-- `RemediationLevel::as_str`: cvss/src/v2/metric/temporal/rl.rs:46-68. -/
def RemediationLevel.asStr : RemediationLevel → Str
  | .officialFix => "OF".toList
  | .temporaryFix => "TF".toList
  | .workaround => "W".toList
  | .unavailable => "U".toList
  | .notDefined => "ND".toList

/-- `RemediationLevel::score` (the decimal literal; rounding is applied where it is used): cvss/src/v2/metric/temporal/rl.rs:46-68. -/
def RemediationLevel.score : RemediationLevel → Rat
  | .officialFix => 87 / 100
  | .temporaryFix => 9 / 10
  | .workaround => 95 / 100
  | .unavailable => 1
  | .notDefined => 1

/-- `RemediationLevel::from_str`: cvss/src/v2/metric/temporal/rl.rs:76-92. -/
def RemediationLevel.table : List (Str × RemediationLevel) :=
  [("OF".toList, .officialFix), ("TF".toList, .temporaryFix), ("W".toList, .workaround), ("U".toList, .unavailable), ("ND".toList, .notDefined)]

/-- `AvailabilityRequirement`: cvss/src/v2/metric/environmental/ar.rs:18-41. -/
inductive AvailabilityRequirement where
  | low
  | medium
  | high
  | notDefined
  deriving DecidableEq, Repr

/-- All values of `AvailabilityRequirement`, in declaration order. -/
def AvailabilityRequirement.all : List AvailabilityRequirement := [.low, .medium, .high, .notDefined]

theorem AvailabilityRequirement.mem_all : ∀ x : AvailabilityRequirement, x ∈ AvailabilityRequirement.all := by intro x; cases x <;> decide

/-- `AvailabilityRequirement::as_str`: cvss/src/v2/metric/environmental/ar.rs:43-63. -/
def AvailabilityRequirement.asStr : AvailabilityRequirement → Str
  | .low => "L".toList
  | .medium => "M".toList
  | .high => "H".toList
  | .notDefined => "ND".toList

/-- `AvailabilityRequirement::score` (the decimal literal; rounding is applied where it is used): cvss/src/v2/metric/environmental/ar.rs:43-63. -/
def AvailabilityRequirement.score : AvailabilityRequirement → Rat
  | .low => 5 / 10
  | .medium => 1
  | .high => 151 / 100
  | .notDefined => 1

/-- `AvailabilityRequirement::from_str`: cvss/src/v2/metric/environmental/ar.rs:71-86. -/
def AvailabilityRequirement.table : List (Str × AvailabilityRequirement) :=
  [("L".toList, .low), ("M".toList, .medium), ("H".toList, .high), ("ND".toList, .notDefined)]

/-- `CollateralDamagePotential`: cvss/src/v2/metric/environmental/cdp.rs:18-52. -/
inductive CollateralDamagePotential where
  | none
  | low
  | lowMedium
  | mediumHigh
  | high
  | notDefined
  deriving DecidableEq, Repr

/-- All values of `CollateralDamagePotential`, in declaration order. -/
def CollateralDamagePotential.all : List CollateralDamagePotential := [.none, .low, .lowMedium, .mediumHigh, .high, .notDefined]

theorem CollateralDamagePotential.mem_all : ∀ x : CollateralDamagePotential, x ∈ CollateralDamagePotential.all := by intro x; cases x <;> decide

/-- `CollateralDamagePotential::as_str`: cvss/src/v2/metric/environmental/cdp.rs:54-78. -/
def CollateralDamagePotential.asStr : CollateralDamagePotential → Str
  | .none => "N".toList
  | .low => "L".toList
  | .lowMedium => "LM".toList
  | .mediumHigh => "MH".toList
  | .high => "H".toList
  | .notDefined => "ND".toList

/-- `CollateralDamagePotential::score` (the decimal literal; rounding is applied where it is used): cvss/src/v2/metric/environmental/cdp.rs:54-78. -/
def CollateralDamagePotential.score : CollateralDamagePotential → Rat
  | .none => 0
  | .low => 1 / 10
  | .lowMedium => 3 / 10
  | .mediumHigh => 4 / 10
  | .high => 5 / 10
  | .notDefined => 0

/-- `CollateralDamagePotential::from_str`: cvss/src/v2/metric/environmental/cdp.rs:86-103. -/
def CollateralDamagePotential.table : List (Str × CollateralDamagePotential) :=
  [("N".toList, .none), ("L".toList, .low), ("LM".toList, .lowMedium), ("MH".toList, .mediumHigh), ("H".toList, .high), ("ND".toList, .notDefined)]

/-- `ConfidentialityRequirement`: cvss/src/v2/metric/environmental/cr.rs:18-41. -/
inductive ConfidentialityRequirement where
  | low
  | medium
  | high
  | notDefined
  deriving DecidableEq, Repr

/-- All values of `ConfidentialityRequirement`, in declaration order. -/
def ConfidentialityRequirement.all : List ConfidentialityRequirement := [.low, .medium, .high, .notDefined]

theorem ConfidentialityRequirement.mem_all : ∀ x : ConfidentialityRequirement, x ∈ ConfidentialityRequirement.all := by intro x; cases x <;> decide

/-- `ConfidentialityRequirement::as_str`: cvss/src/v2/metric/environmental/cr.rs:43-63. -/
def ConfidentialityRequirement.asStr : ConfidentialityRequirement → Str
  | .low => "L".toList
  | .medium => "M".toList
  | .high => "H".toList
  | .notDefined => "ND".toList

/-- `ConfidentialityRequirement::score` (the decimal literal; rounding is applied where it is used): cvss/src/v2/metric/environmental/cr.rs:43-63. -/
def ConfidentialityRequirement.score : ConfidentialityRequirement → Rat
  | .low => 5 / 10
  | .medium => 1
  | .high => 151 / 100
  | .notDefined => 1

/-- `ConfidentialityRequirement::from_str`: cvss/src/v2/metric/environmental/cr.rs:71-86. -/
def ConfidentialityRequirement.table : List (Str × ConfidentialityRequirement) :=
  [("L".toList, .low), ("M".toList, .medium), ("H".toList, .high), ("ND".toList, .notDefined)]

/-- `IntegrityRequirement`: cvss/src/v2/metric/environmental/ir.rs:18-41. -/
inductive IntegrityRequirement where
  | low
  | medium
  | high
  | notDefined
  deriving DecidableEq, Repr

/-- All values of `IntegrityRequirement`, in declaration order. -/
def IntegrityRequirement.all : List IntegrityRequirement := [.low, .medium, .high, .notDefined]

theorem IntegrityRequirement.mem_all : ∀ x : IntegrityRequirement, x ∈ IntegrityRequirement.all := by intro x; cases x <;> decide

/-- `IntegrityRequirement::as_str`: cvss/src/v2/metric/environmental/ir.rs:43-63. -/
def IntegrityRequirement.asStr : IntegrityRequirement → Str
  | .low => "L".toList
  | .medium => "M".toList
  | .high => "H".toList
  | .notDefined => "ND".toList

/-- `IntegrityRequirement::score` (the decimal literal; rounding is applied where it is used): cvss/src/v2/metric/environmental/ir.rs:43-63. -/
def IntegrityRequirement.score : IntegrityRequirement → Rat
  | .low => 5 / 10
  | .medium => 1
  | .high => 151 / 100
  | .notDefined => 1

/-- `IntegrityRequirement::from_str`: cvss/src/v2/metric/environmental/ir.rs:71-86. -/
def IntegrityRequirement.table : List (Str × IntegrityRequirement) :=
  [("L".toList, .low), ("M".toList, .medium), ("H".toList, .high), ("ND".toList, .notDefined)]

/-- `TargetDistribution`: cvss/src/v2/metric/environmental/td.rs:18-42. -/
inductive TargetDistribution where
  | none
  | low
  | medium
  | high
  | notDefined
  deriving DecidableEq, Repr

/-- All values of `TargetDistribution`, in declaration order. -/
def TargetDistribution.all : List TargetDistribution := [.none, .low, .medium, .high, .notDefined]

theorem TargetDistribution.mem_all : ∀ x : TargetDistribution, x ∈ TargetDistribution.all := by intro x; cases x <;> decide

/-- `TargetDistribution::as_str`: cvss/src/v2/metric/environmental/td.rs:44-66. -/
def TargetDistribution.asStr : TargetDistribution → Str
  | .none => "N".toList
  | .low => "L".toList
  | .medium => "M".toList
  | .high => "H".toList
  | .notDefined => "ND".toList

/-- `TargetDistribution::score` (the decimal literal; rounding is applied where it is used): cvss/src/v2/metric/environmental/td.rs:44-66. -/
def TargetDistribution.score : TargetDistribution → Rat
  | .none => 0
  | .low => 25 / 100
  | .medium => 75 / 100
  | .high => 1
  | .notDefined => 1

/-- `TargetDistribution::from_str`: cvss/src/v2/metric/environmental/td.rs:74-90. -/
def TargetDistribution.table : List (Str × TargetDistribution) :=
  [("N".toList, .none), ("L".toList, .low), ("M".toList, .medium), ("H".toList, .high), ("ND".toList, .notDefined)]

/-- `MetricType`: cvss/src/v2/metric.rs:35-77. -/
inductive MetricType where
  | A
  | AC
  | AV
  | Au
  | C
  | I
  | E
  | RL
  | RC
  | CDP
  | TD
  | CR
  | IR
  | AR
  deriving DecidableEq, Repr

/-- All metric types, in declaration order. -/
def MetricType.all : List MetricType := [.A, .AC, .AV, .Au, .C, .I, .E, .RL, .RC, .CDP, .TD, .CR, .IR, .AR]

theorem MetricType.mem_all : ∀ m : MetricType, m ∈ MetricType.all := by intro m; cases m <;> decide

/-- `MetricType::name`: cvss/src/v2/metric.rs:79-129. -/
def MetricType.name : MetricType → Str
  | .A => "A".toList
  | .AC => "AC".toList
  | .Au => "Au".toList
  | .AV => "AV".toList
  | .C => "C".toList
  | .I => "I".toList
  | .E => "E".toList
  | .RL => "RL".toList
  | .RC => "RC".toList
  | .CDP => "CDP".toList
  | .TD => "TD".toList
  | .CR => "CR".toList
  | .IR => "IR".toList
  | .AR => "AR".toList

/-- `MetricType::from_str`: cvss/src/v2/metric.rs:137-165. -/
def MetricType.table : List (Str × MetricType) :=
  [("A".toList, .A), ("AC".toList, .AC), ("Au".toList, .Au), ("AV".toList, .AV), ("C".toList, .C), ("I".toList, .I), ("E".toList, .E), ("RL".toList, .RL), ("RC".toList, .RC), ("CDP".toList, .CDP), ("TD".toList, .TD), ("CR".toList, .CR), ("IR".toList, .IR), ("AR".toList, .AR)]

/-- The value type of each metric (`const TYPE` of the metric files; the field types of the vector). -/
abbrev MetricType.Val : MetricType → Type
  | .A => AvailabilityImpact
  | .AC => AccessComplexity
  | .AV => AccessVector
  | .Au => Authentication
  | .C => ConfidentialityImpact
  | .I => IntegrityImpact
  | .E => Exploitability
  | .RL => RemediationLevel
  | .RC => ReportConfidence
  | .CDP => CollateralDamagePotential
  | .TD => TargetDistribution
  | .CR => ConfidentialityRequirement
  | .IR => IntegrityRequirement
  | .AR => AvailabilityRequirement

instance (m : MetricType) : DecidableEq m.Val := by cases m <;> (simp only [MetricType.Val]; infer_instance)

/-- `as_str` of each metric. -/
def MetricType.asStr : (m : MetricType) → m.Val → Str
  | .A => AvailabilityImpact.asStr
  | .AC => AccessComplexity.asStr
  | .AV => AccessVector.asStr
  | .Au => Authentication.asStr
  | .C => ConfidentialityImpact.asStr
  | .I => IntegrityImpact.asStr
  | .E => Exploitability.asStr
  | .RL => RemediationLevel.asStr
  | .RC => ReportConfidence.asStr
  | .CDP => CollateralDamagePotential.asStr
  | .TD => TargetDistribution.asStr
  | .CR => ConfidentialityRequirement.asStr
  | .IR => IntegrityRequirement.asStr
  | .AR => AvailabilityRequirement.asStr

/-- `FromStr` table of each metric. -/
def MetricType.valueTable : (m : MetricType) → List (Str × m.Val)
  | .A => AvailabilityImpact.table
  | .AC => AccessComplexity.table
  | .AV => AccessVector.table
  | .Au => Authentication.table
  | .C => ConfidentialityImpact.table
  | .I => IntegrityImpact.table
  | .E => Exploitability.table
  | .RL => RemediationLevel.table
  | .RC => ReportConfidence.table
  | .CDP => CollateralDamagePotential.table
  | .TD => TargetDistribution.table
  | .CR => ConfidentialityRequirement.table
  | .IR => IntegrityRequirement.table
  | .AR => AvailabilityRequirement.table

/-- all values of each metric. -/
def MetricType.values : (m : MetricType) → List m.Val
  | .A => AvailabilityImpact.all
  | .AC => AccessComplexity.all
  | .AV => AccessVector.all
  | .Au => Authentication.all
  | .C => ConfidentialityImpact.all
  | .I => IntegrityImpact.all
  | .E => Exploitability.all
  | .RL => RemediationLevel.all
  | .RC => ReportConfidence.all
  | .CDP => CollateralDamagePotential.all
  | .TD => TargetDistribution.all
  | .CR => ConfidentialityRequirement.all
  | .IR => IntegrityRequirement.all
  | .AR => AvailabilityRequirement.all

theorem MetricType.mem_values : (m : MetricType) → (x : m.Val) → x ∈ m.values
  | .A => AvailabilityImpact.mem_all
  | .AC => AccessComplexity.mem_all
  | .AV => AccessVector.mem_all
  | .Au => Authentication.mem_all
  | .C => ConfidentialityImpact.mem_all
  | .I => IntegrityImpact.mem_all
  | .E => Exploitability.mem_all
  | .RL => RemediationLevel.mem_all
  | .RC => ReportConfidence.mem_all
  | .CDP => CollateralDamagePotential.mem_all
  | .TD => TargetDistribution.mem_all
  | .CR => ConfidentialityRequirement.mem_all
  | .IR => IntegrityRequirement.mem_all
  | .AR => AvailabilityRequirement.mem_all

end Verif.Cvss.V2
