import Verif.Model.Str

/-!
# CVSS v4 metrics

Generated from the Rust source by `/verif/tools/gen_cvss.py`: one inductive type per Rust enum, and its
`as_str`, `FromStr`, weight, level and merge tables.  A Rust `match` on string literals is a table looked up
from the top (`lookupStr`).
-/

namespace Verif.Cvss.V4

/-- `AvailabilityRequirements`: cvss/src/v4/metric/environmental/ar.rs:29-55. -/
inductive AvailabilityRequirements where
  | notDefined
  | low
  | medium
  | high
  deriving DecidableEq, Repr

/-- All values of `AvailabilityRequirements`, in declaration order. -/
def AvailabilityRequirements.all : List AvailabilityRequirements := [.notDefined, .low, .medium, .high]

theorem AvailabilityRequirements.mem_all : ∀ x : AvailabilityRequirements, x ∈ AvailabilityRequirements.all := by intro x; cases x <;> decide

/-- `AvailabilityRequirements::default()`: cvss/src/v4/metric/environmental/ar.rs:29-55. -/
def AvailabilityRequirements.default : AvailabilityRequirements := .notDefined

/-- `MergedAvailabilityRequirements`: cvss/src/v4/metric/environmental/ar.rs:104-109. -/
inductive MergedAvailabilityRequirements where
  | low
  | medium
  | high
  deriving DecidableEq, Repr

/-- All values of `MergedAvailabilityRequirements`, in declaration order. -/
def MergedAvailabilityRequirements.all : List MergedAvailabilityRequirements := [.low, .medium, .high]

theorem MergedAvailabilityRequirements.mem_all : ∀ x : MergedAvailabilityRequirements, x ∈ MergedAvailabilityRequirements.all := by intro x; cases x <;> decide

/-- `MergedAvailabilityRequirements::default()`: cvss/src/v4/metric/environmental/ar.rs:104-109. -/
def MergedAvailabilityRequirements.default : MergedAvailabilityRequirements := .high

/-- `AvailabilityRequirements::as_str`: cvss/src/v4/metric/environmental/ar.rs:57-68. -/
def AvailabilityRequirements.asStr : AvailabilityRequirements → Str
  | .notDefined => "X".toList
  | .low => "L".toList
  | .medium => "M".toList
  | .high => "H".toList

/-- `AvailabilityRequirements::from_str`: cvss/src/v4/metric/environmental/ar.rs:76-91. -/
def AvailabilityRequirements.table : List (Str × AvailabilityRequirements) :=
  [("X".toList, .notDefined), ("L".toList, .low), ("M".toList, .medium), ("H".toList, .high)]

/-- `MergedAvailabilityRequirements::from_str`: cvss/src/v4/metric/environmental/ar.rs:111-125. -/
def MergedAvailabilityRequirements.table : List (Str × MergedAvailabilityRequirements) :=
  [("L".toList, .low), ("M".toList, .medium), ("H".toList, .high)]

/-- `MergedAvailabilityRequirements::level` (the decimal literal): cvss/src/v4/metric/environmental/ar.rs:138-147. -/
def MergedAvailabilityRequirements.level : MergedAvailabilityRequirements → Rat
  | .high => 0
  | .medium => 1 / 10
  | .low => 2 / 10

/-- `AvailabilityRequirements::merge`: cvss/src/v4/metric/environmental/ar.rs:127-136. -/
def AvailabilityRequirements.merge : AvailabilityRequirements → MergedAvailabilityRequirements
  | .high => .high
  | .medium => .medium
  | .low => .low
  | .notDefined => .high

/-- `ConfidentialityRequirements`: cvss/src/v4/metric/environmental/cr.rs:29-55. -/
inductive ConfidentialityRequirements where
  | notDefined
  | low
  | medium
  | high
  deriving DecidableEq, Repr

/-- All values of `ConfidentialityRequirements`, in declaration order. -/
def ConfidentialityRequirements.all : List ConfidentialityRequirements := [.notDefined, .low, .medium, .high]

theorem ConfidentialityRequirements.mem_all : ∀ x : ConfidentialityRequirements, x ∈ ConfidentialityRequirements.all := by intro x; cases x <;> decide

/-- `ConfidentialityRequirements::default()`: cvss/src/v4/metric/environmental/cr.rs:29-55. -/
def ConfidentialityRequirements.default : ConfidentialityRequirements := .notDefined

/-- `MergedConfidentialityRequirements`: cvss/src/v4/metric/environmental/cr.rs:104-109. -/
inductive MergedConfidentialityRequirements where
  | low
  | medium
  | high
  deriving DecidableEq, Repr

/-- All values of `MergedConfidentialityRequirements`, in declaration order. -/
def MergedConfidentialityRequirements.all : List MergedConfidentialityRequirements := [.low, .medium, .high]

theorem MergedConfidentialityRequirements.mem_all : ∀ x : MergedConfidentialityRequirements, x ∈ MergedConfidentialityRequirements.all := by intro x; cases x <;> decide

/-- `MergedConfidentialityRequirements::default()`: cvss/src/v4/metric/environmental/cr.rs:104-109. -/
def MergedConfidentialityRequirements.default : MergedConfidentialityRequirements := .high

/-- `ConfidentialityRequirements::as_str`: cvss/src/v4/metric/environmental/cr.rs:57-68. -/
def ConfidentialityRequirements.asStr : ConfidentialityRequirements → Str
  | .notDefined => "X".toList
  | .low => "L".toList
  | .medium => "M".toList
  | .high => "H".toList

/-- `ConfidentialityRequirements::from_str`: cvss/src/v4/metric/environmental/cr.rs:76-91. -/
def ConfidentialityRequirements.table : List (Str × ConfidentialityRequirements) :=
  [("X".toList, .notDefined), ("L".toList, .low), ("M".toList, .medium), ("H".toList, .high)]

/-- `MergedConfidentialityRequirements::from_str`: cvss/src/v4/metric/environmental/cr.rs:111-125. -/
def MergedConfidentialityRequirements.table : List (Str × MergedConfidentialityRequirements) :=
  [("L".toList, .low), ("M".toList, .medium), ("H".toList, .high)]

/-- `MergedConfidentialityRequirements::level` (the decimal literal): cvss/src/v4/metric/environmental/cr.rs:138-147. -/
def MergedConfidentialityRequirements.level : MergedConfidentialityRequirements → Rat
  | .high => 0
  | .medium => 1 / 10
  | .low => 2 / 10

/-- `ConfidentialityRequirements::merge`: cvss/src/v4/metric/environmental/cr.rs:127-136. -/
def ConfidentialityRequirements.merge : ConfidentialityRequirements → MergedConfidentialityRequirements
  | .high => .high
  | .medium => .medium
  | .low => .low
  | .notDefined => .high

/-- `IntegrityRequirements`: cvss/src/v4/metric/environmental/ir.rs:29-55. -/
inductive IntegrityRequirements where
  | notDefined
  | low
  | medium
  | high
  deriving DecidableEq, Repr

/-- All values of `IntegrityRequirements`, in declaration order. -/
def IntegrityRequirements.all : List IntegrityRequirements := [.notDefined, .low, .medium, .high]

theorem IntegrityRequirements.mem_all : ∀ x : IntegrityRequirements, x ∈ IntegrityRequirements.all := by intro x; cases x <;> decide

/-- `IntegrityRequirements::default()`: cvss/src/v4/metric/environmental/ir.rs:29-55. -/
def IntegrityRequirements.default : IntegrityRequirements := .notDefined

/-- `MergedIntegrityRequirements`: cvss/src/v4/metric/environmental/ir.rs:104-109. -/
inductive MergedIntegrityRequirements where
  | low
  | medium
  | high
  deriving DecidableEq, Repr

/-- All values of `MergedIntegrityRequirements`, in declaration order. -/
def MergedIntegrityRequirements.all : List MergedIntegrityRequirements := [.low, .medium, .high]

theorem MergedIntegrityRequirements.mem_all : ∀ x : MergedIntegrityRequirements, x ∈ MergedIntegrityRequirements.all := by intro x; cases x <;> decide

/-- `MergedIntegrityRequirements::default()`: cvss/src/v4/metric/environmental/ir.rs:104-109. -/
def MergedIntegrityRequirements.default : MergedIntegrityRequirements := .high

/-- `IntegrityRequirements::as_str`: cvss/src/v4/metric/environmental/ir.rs:57-68. -/
def IntegrityRequirements.asStr : IntegrityRequirements → Str
  | .notDefined => "X".toList
  | .low => "L".toList
  | .medium => "M".toList
  | .high => "H".toList

/-- `IntegrityRequirements::from_str`: cvss/src/v4/metric/environmental/ir.rs:76-91. -/
def IntegrityRequirements.table : List (Str × IntegrityRequirements) :=
  [("X".toList, .notDefined), ("L".toList, .low), ("M".toList, .medium), ("H".toList, .high)]

/-- `MergedIntegrityRequirements::from_str`: cvss/src/v4/metric/environmental/ir.rs:111-125. -/
def MergedIntegrityRequirements.table : List (Str × MergedIntegrityRequirements) :=
  [("L".toList, .low), ("M".toList, .medium), ("H".toList, .high)]

/-- `MergedIntegrityRequirements::level` (the decimal literal): cvss/src/v4/metric/environmental/ir.rs:138-147. -/
def MergedIntegrityRequirements.level : MergedIntegrityRequirements → Rat
  | .high => 0
  | .medium => 1 / 10
  | .low => 2 / 10

/-- `IntegrityRequirements::merge`: cvss/src/v4/metric/environmental/ir.rs:127-136. -/
def IntegrityRequirements.merge : IntegrityRequirements → MergedIntegrityRequirements
  | .high => .high
  | .medium => .medium
  | .low => .low
  | .notDefined => .high

/-- `ModifiedAttackComplexity`: cvss/src/v4/metric/environmental/mac.rs:30-62. -/
inductive ModifiedAttackComplexity where
  | notDefined
  | high
  | low
  deriving DecidableEq, Repr

/-- All values of `ModifiedAttackComplexity`, in declaration order. -/
def ModifiedAttackComplexity.all : List ModifiedAttackComplexity := [.notDefined, .high, .low]

theorem ModifiedAttackComplexity.mem_all : ∀ x : ModifiedAttackComplexity, x ∈ ModifiedAttackComplexity.all := by intro x; cases x <;> decide

/-- `ModifiedAttackComplexity::default()`: cvss/src/v4/metric/environmental/mac.rs:30-62. -/
def ModifiedAttackComplexity.default : ModifiedAttackComplexity := .notDefined

/-- `ModifiedAttackComplexity::as_str`: cvss/src/v4/metric/environmental/mac.rs:64-74. -/
def ModifiedAttackComplexity.asStr : ModifiedAttackComplexity → Str
  | .notDefined => "X".toList
  | .high => "H".toList
  | .low => "L".toList

/-- `ModifiedAttackComplexity::from_str`: cvss/src/v4/metric/environmental/mac.rs:82-96. -/
def ModifiedAttackComplexity.table : List (Str × ModifiedAttackComplexity) :=
  [("X".toList, .notDefined), ("H".toList, .high), ("L".toList, .low)]

/-- `ModifiedAttackRequirements`: cvss/src/v4/metric/environmental/mat.rs:23-51. -/
inductive ModifiedAttackRequirements where
  | notDefined
  | present
  | none
  deriving DecidableEq, Repr

/-- All values of `ModifiedAttackRequirements`, in declaration order. -/
def ModifiedAttackRequirements.all : List ModifiedAttackRequirements := [.notDefined, .present, .none]

theorem ModifiedAttackRequirements.mem_all : ∀ x : ModifiedAttackRequirements, x ∈ ModifiedAttackRequirements.all := by intro x; cases x <;> decide

/-- `ModifiedAttackRequirements::default()`: cvss/src/v4/metric/environmental/mat.rs:23-51. -/
def ModifiedAttackRequirements.default : ModifiedAttackRequirements := .notDefined

/-- `ModifiedAttackRequirements::as_str`: cvss/src/v4/metric/environmental/mat.rs:53-63. -/
def ModifiedAttackRequirements.asStr : ModifiedAttackRequirements → Str
  | .notDefined => "X".toList
  | .present => "P".toList
  | .none => "N".toList

/-- `ModifiedAttackRequirements::from_str`: cvss/src/v4/metric/environmental/mat.rs:71-85. -/
def ModifiedAttackRequirements.table : List (Str × ModifiedAttackRequirements) :=
  [("X".toList, .notDefined), ("P".toList, .present), ("N".toList, .none)]

/-- `ModifiedAttackVector`: cvss/src/v4/metric/environmental/mav.rs:23-72. -/
inductive ModifiedAttackVector where
  | physical
  | local
  | adjacent
  | network
  | notDefined
  deriving DecidableEq, Repr

/-- All values of `ModifiedAttackVector`, in declaration order. -/
def ModifiedAttackVector.all : List ModifiedAttackVector := [.physical, .local, .adjacent, .network, .notDefined]

theorem ModifiedAttackVector.mem_all : ∀ x : ModifiedAttackVector, x ∈ ModifiedAttackVector.all := by intro x; cases x <;> decide

/-- `ModifiedAttackVector::default()`: cvss/src/v4/metric/environmental/mav.rs:23-72. -/
def ModifiedAttackVector.default : ModifiedAttackVector := .notDefined

/-- `ModifiedAttackVector::as_str`: cvss/src/v4/metric/environmental/mav.rs:74-86. -/
def ModifiedAttackVector.asStr : ModifiedAttackVector → Str
  | .notDefined => "X".toList
  | .network => "N".toList
  | .adjacent => "A".toList
  | .local => "L".toList
  | .physical => "P".toList

/-- `ModifiedAttackVector::from_str`: cvss/src/v4/metric/environmental/mav.rs:94-110. -/
def ModifiedAttackVector.table : List (Str × ModifiedAttackVector) :=
  [("X".toList, .notDefined), ("N".toList, .network), ("A".toList, .adjacent), ("L".toList, .local), ("P".toList, .physical)]

/-- `ModifiedPrivilegesRequired`: cvss/src/v4/metric/environmental/mpr.rs:22-50. -/
inductive ModifiedPrivilegesRequired where
  | notDefined
  | high
  | low
  | none
  deriving DecidableEq, Repr

/-- All values of `ModifiedPrivilegesRequired`, in declaration order. -/
def ModifiedPrivilegesRequired.all : List ModifiedPrivilegesRequired := [.notDefined, .high, .low, .none]

theorem ModifiedPrivilegesRequired.mem_all : ∀ x : ModifiedPrivilegesRequired, x ∈ ModifiedPrivilegesRequired.all := by intro x; cases x <;> decide

/-- `ModifiedPrivilegesRequired::default()`: cvss/src/v4/metric/environmental/mpr.rs:22-50. -/
def ModifiedPrivilegesRequired.default : ModifiedPrivilegesRequired := .notDefined

/-- `ModifiedPrivilegesRequired::as_str`: cvss/src/v4/metric/environmental/mpr.rs:52-63. -/
def ModifiedPrivilegesRequired.asStr : ModifiedPrivilegesRequired → Str
  | .notDefined => "X".toList
  | .none => "N".toList
  | .low => "L".toList
  | .high => "H".toList

/-- `ModifiedPrivilegesRequired::from_str`: cvss/src/v4/metric/environmental/mpr.rs:71-86. -/
def ModifiedPrivilegesRequired.table : List (Str × ModifiedPrivilegesRequired) :=
  [("X".toList, .notDefined), ("N".toList, .none), ("L".toList, .low), ("H".toList, .high)]

/-- `ModifiedAvailabilityImpactToTheSubsequentSystem`: cvss/src/v4/metric/environmental/msa.rs:26-68. -/
inductive ModifiedAvailabilityImpactToTheSubsequentSystem where
  | notDefined
  | negligible
  | low
  | high
  | safety
  deriving DecidableEq, Repr

/-- All values of `ModifiedAvailabilityImpactToTheSubsequentSystem`, in declaration order. -/
def ModifiedAvailabilityImpactToTheSubsequentSystem.all : List ModifiedAvailabilityImpactToTheSubsequentSystem := [.notDefined, .negligible, .low, .high, .safety]

theorem ModifiedAvailabilityImpactToTheSubsequentSystem.mem_all : ∀ x : ModifiedAvailabilityImpactToTheSubsequentSystem, x ∈ ModifiedAvailabilityImpactToTheSubsequentSystem.all := by intro x; cases x <;> decide

/-- `ModifiedAvailabilityImpactToTheSubsequentSystem::default()`: cvss/src/v4/metric/environmental/msa.rs:26-68. -/
def ModifiedAvailabilityImpactToTheSubsequentSystem.default : ModifiedAvailabilityImpactToTheSubsequentSystem := .notDefined

/-- `ModifiedAvailabilityImpactToTheSubsequentSystem::as_str`: cvss/src/v4/metric/environmental/msa.rs:70-82. -/
def ModifiedAvailabilityImpactToTheSubsequentSystem.asStr : ModifiedAvailabilityImpactToTheSubsequentSystem → Str
  | .notDefined => "X".toList
  | .negligible => "N".toList
  | .low => "L".toList
  | .high => "H".toList
  | .safety => "S".toList

/-- `ModifiedAvailabilityImpactToTheSubsequentSystem::from_str`: cvss/src/v4/metric/environmental/msa.rs:90-106. -/
def ModifiedAvailabilityImpactToTheSubsequentSystem.table : List (Str × ModifiedAvailabilityImpactToTheSubsequentSystem) :=
  [("X".toList, .notDefined), ("N".toList, .negligible), ("L".toList, .low), ("H".toList, .high), ("S".toList, .safety)]

/-- `ModifiedConfidentialityImpactToTheSubsequentSystem`: cvss/src/v4/metric/environmental/msc.rs:22-53. -/
inductive ModifiedConfidentialityImpactToTheSubsequentSystem where
  | notDefined
  | negligible
  | low
  | high
  deriving DecidableEq, Repr

/-- All values of `ModifiedConfidentialityImpactToTheSubsequentSystem`, in declaration order. -/
def ModifiedConfidentialityImpactToTheSubsequentSystem.all : List ModifiedConfidentialityImpactToTheSubsequentSystem := [.notDefined, .negligible, .low, .high]

theorem ModifiedConfidentialityImpactToTheSubsequentSystem.mem_all : ∀ x : ModifiedConfidentialityImpactToTheSubsequentSystem, x ∈ ModifiedConfidentialityImpactToTheSubsequentSystem.all := by intro x; cases x <;> decide

/-- `ModifiedConfidentialityImpactToTheSubsequentSystem::default()`: cvss/src/v4/metric/environmental/msc.rs:22-53. -/
def ModifiedConfidentialityImpactToTheSubsequentSystem.default : ModifiedConfidentialityImpactToTheSubsequentSystem := .notDefined

/-- `ModifiedConfidentialityImpactToTheSubsequentSystem::as_str`: cvss/src/v4/metric/environmental/msc.rs:55-66. -/
def ModifiedConfidentialityImpactToTheSubsequentSystem.asStr : ModifiedConfidentialityImpactToTheSubsequentSystem → Str
  | .notDefined => "X".toList
  | .negligible => "N".toList
  | .low => "L".toList
  | .high => "H".toList

/-- `ModifiedConfidentialityImpactToTheSubsequentSystem::from_str`: cvss/src/v4/metric/environmental/msc.rs:74-89. -/
def ModifiedConfidentialityImpactToTheSubsequentSystem.table : List (Str × ModifiedConfidentialityImpactToTheSubsequentSystem) :=
  [("X".toList, .notDefined), ("N".toList, .negligible), ("L".toList, .low), ("H".toList, .high)]

/-- `ModifiedIntegrityImpactToTheSubsequentSystem`: cvss/src/v4/metric/environmental/msi.rs:24-56. -/
inductive ModifiedIntegrityImpactToTheSubsequentSystem where
  | notDefined
  | negligible
  | low
  | high
  | safety
  deriving DecidableEq, Repr

/-- All values of `ModifiedIntegrityImpactToTheSubsequentSystem`, in declaration order. -/
def ModifiedIntegrityImpactToTheSubsequentSystem.all : List ModifiedIntegrityImpactToTheSubsequentSystem := [.notDefined, .negligible, .low, .high, .safety]

theorem ModifiedIntegrityImpactToTheSubsequentSystem.mem_all : ∀ x : ModifiedIntegrityImpactToTheSubsequentSystem, x ∈ ModifiedIntegrityImpactToTheSubsequentSystem.all := by intro x; cases x <;> decide

/-- `ModifiedIntegrityImpactToTheSubsequentSystem::default()`: cvss/src/v4/metric/environmental/msi.rs:24-56. -/
def ModifiedIntegrityImpactToTheSubsequentSystem.default : ModifiedIntegrityImpactToTheSubsequentSystem := .notDefined

/-- `ModifiedIntegrityImpactToTheSubsequentSystem::as_str`: cvss/src/v4/metric/environmental/msi.rs:58-70. -/
def ModifiedIntegrityImpactToTheSubsequentSystem.asStr : ModifiedIntegrityImpactToTheSubsequentSystem → Str
  | .notDefined => "X".toList
  | .negligible => "N".toList
  | .low => "L".toList
  | .high => "H".toList
  | .safety => "S".toList

/-- `ModifiedIntegrityImpactToTheSubsequentSystem::from_str`: cvss/src/v4/metric/environmental/msi.rs:78-94. -/
def ModifiedIntegrityImpactToTheSubsequentSystem.table : List (Str × ModifiedIntegrityImpactToTheSubsequentSystem) :=
  [("X".toList, .notDefined), ("N".toList, .negligible), ("L".toList, .low), ("H".toList, .high), ("S".toList, .safety)]

/-- `ModifiedUserInteraction`: cvss/src/v4/metric/environmental/mui.rs:21-60. -/
inductive ModifiedUserInteraction where
  | notDefined
  | active
  | passive
  | none
  deriving DecidableEq, Repr

/-- All values of `ModifiedUserInteraction`, in declaration order. -/
def ModifiedUserInteraction.all : List ModifiedUserInteraction := [.notDefined, .active, .passive, .none]

theorem ModifiedUserInteraction.mem_all : ∀ x : ModifiedUserInteraction, x ∈ ModifiedUserInteraction.all := by intro x; cases x <;> decide

/-- `ModifiedUserInteraction::default()`: cvss/src/v4/metric/environmental/mui.rs:21-60. -/
def ModifiedUserInteraction.default : ModifiedUserInteraction := .notDefined

/-- `ModifiedUserInteraction::as_str`: cvss/src/v4/metric/environmental/mui.rs:62-73. -/
def ModifiedUserInteraction.asStr : ModifiedUserInteraction → Str
  | .notDefined => "X".toList
  | .none => "N".toList
  | .passive => "P".toList
  | .active => "A".toList

/-- `ModifiedUserInteraction::from_str`: cvss/src/v4/metric/environmental/mui.rs:81-96. -/
def ModifiedUserInteraction.table : List (Str × ModifiedUserInteraction) :=
  [("X".toList, .notDefined), ("N".toList, .none), ("P".toList, .passive), ("A".toList, .active)]

/-- `ModifiedAvailabilityImpactToTheVulnerableSystem`: cvss/src/v4/metric/environmental/mva.rs:26-61. -/
inductive ModifiedAvailabilityImpactToTheVulnerableSystem where
  | notDefined
  | none
  | low
  | high
  deriving DecidableEq, Repr

/-- All values of `ModifiedAvailabilityImpactToTheVulnerableSystem`, in declaration order. -/
def ModifiedAvailabilityImpactToTheVulnerableSystem.all : List ModifiedAvailabilityImpactToTheVulnerableSystem := [.notDefined, .none, .low, .high]

theorem ModifiedAvailabilityImpactToTheVulnerableSystem.mem_all : ∀ x : ModifiedAvailabilityImpactToTheVulnerableSystem, x ∈ ModifiedAvailabilityImpactToTheVulnerableSystem.all := by intro x; cases x <;> decide

/-- `ModifiedAvailabilityImpactToTheVulnerableSystem::default()`: cvss/src/v4/metric/environmental/mva.rs:26-61. -/
def ModifiedAvailabilityImpactToTheVulnerableSystem.default : ModifiedAvailabilityImpactToTheVulnerableSystem := .notDefined

/-- `ModifiedAvailabilityImpactToTheVulnerableSystem::as_str`: cvss/src/v4/metric/environmental/mva.rs:63-74. -/
def ModifiedAvailabilityImpactToTheVulnerableSystem.asStr : ModifiedAvailabilityImpactToTheVulnerableSystem → Str
  | .notDefined => "X".toList
  | .none => "N".toList
  | .low => "L".toList
  | .high => "H".toList

/-- `ModifiedAvailabilityImpactToTheVulnerableSystem::from_str`: cvss/src/v4/metric/environmental/mva.rs:82-97. -/
def ModifiedAvailabilityImpactToTheVulnerableSystem.table : List (Str × ModifiedAvailabilityImpactToTheVulnerableSystem) :=
  [("X".toList, .notDefined), ("N".toList, .none), ("L".toList, .low), ("H".toList, .high)]

/-- `ModifiedConfidentialityImpactToTheVulnerableSystem`: cvss/src/v4/metric/environmental/mvc.rs:22-49. -/
inductive ModifiedConfidentialityImpactToTheVulnerableSystem where
  | notDefined
  | none
  | low
  | high
  deriving DecidableEq, Repr

/-- All values of `ModifiedConfidentialityImpactToTheVulnerableSystem`, in declaration order. -/
def ModifiedConfidentialityImpactToTheVulnerableSystem.all : List ModifiedConfidentialityImpactToTheVulnerableSystem := [.notDefined, .none, .low, .high]

theorem ModifiedConfidentialityImpactToTheVulnerableSystem.mem_all : ∀ x : ModifiedConfidentialityImpactToTheVulnerableSystem, x ∈ ModifiedConfidentialityImpactToTheVulnerableSystem.all := by intro x; cases x <;> decide

/-- `ModifiedConfidentialityImpactToTheVulnerableSystem::default()`: cvss/src/v4/metric/environmental/mvc.rs:22-49. -/
def ModifiedConfidentialityImpactToTheVulnerableSystem.default : ModifiedConfidentialityImpactToTheVulnerableSystem := .notDefined

/-- `ModifiedConfidentialityImpactToTheVulnerableSystem::as_str`: cvss/src/v4/metric/environmental/mvc.rs:51-62. -/
def ModifiedConfidentialityImpactToTheVulnerableSystem.asStr : ModifiedConfidentialityImpactToTheVulnerableSystem → Str
  | .notDefined => "X".toList
  | .none => "N".toList
  | .low => "L".toList
  | .high => "H".toList

/-- `ModifiedConfidentialityImpactToTheVulnerableSystem::from_str`: cvss/src/v4/metric/environmental/mvc.rs:70-85. -/
def ModifiedConfidentialityImpactToTheVulnerableSystem.table : List (Str × ModifiedConfidentialityImpactToTheVulnerableSystem) :=
  [("X".toList, .notDefined), ("N".toList, .none), ("L".toList, .low), ("H".toList, .high)]

/-- `ModifiedIntegrityImpactToTheVulnerableSystem`: cvss/src/v4/metric/environmental/mvi.rs:24-49. -/
inductive ModifiedIntegrityImpactToTheVulnerableSystem where
  | notDefined
  | none
  | low
  | high
  deriving DecidableEq, Repr

/-- All values of `ModifiedIntegrityImpactToTheVulnerableSystem`, in declaration order. -/
def ModifiedIntegrityImpactToTheVulnerableSystem.all : List ModifiedIntegrityImpactToTheVulnerableSystem := [.notDefined, .none, .low, .high]

theorem ModifiedIntegrityImpactToTheVulnerableSystem.mem_all : ∀ x : ModifiedIntegrityImpactToTheVulnerableSystem, x ∈ ModifiedIntegrityImpactToTheVulnerableSystem.all := by intro x; cases x <;> decide

/-- `ModifiedIntegrityImpactToTheVulnerableSystem::default()`: cvss/src/v4/metric/environmental/mvi.rs:24-49. -/
def ModifiedIntegrityImpactToTheVulnerableSystem.default : ModifiedIntegrityImpactToTheVulnerableSystem := .notDefined

/-- `ModifiedIntegrityImpactToTheVulnerableSystem::as_str`: cvss/src/v4/metric/environmental/mvi.rs:51-62. -/
def ModifiedIntegrityImpactToTheVulnerableSystem.asStr : ModifiedIntegrityImpactToTheVulnerableSystem → Str
  | .notDefined => "X".toList
  | .none => "N".toList
  | .low => "L".toList
  | .high => "H".toList

/-- `ModifiedIntegrityImpactToTheVulnerableSystem::from_str`: cvss/src/v4/metric/environmental/mvi.rs:70-85. -/
def ModifiedIntegrityImpactToTheVulnerableSystem.table : List (Str × ModifiedIntegrityImpactToTheVulnerableSystem) :=
  [("X".toList, .notDefined), ("N".toList, .none), ("L".toList, .low), ("H".toList, .high)]

/-- `AttackComplexity`: cvss/src/v4/metric/base/ac.rs:30-57. -/
inductive AttackComplexity where
  | high
  | low
  deriving DecidableEq, Repr

/-- All values of `AttackComplexity`, in declaration order. -/
def AttackComplexity.all : List AttackComplexity := [.high, .low]

theorem AttackComplexity.mem_all : ∀ x : AttackComplexity, x ∈ AttackComplexity.all := by intro x; cases x <;> decide

/-- `AttackComplexity::default()`: cvss/src/v4/metric/base/ac.rs:30-57. -/
def AttackComplexity.default : AttackComplexity := .low

/-- `MergedAttackComplexity`: cvss/src/v4/metric/base/ac.rs:108-112. -/
inductive MergedAttackComplexity where
  | high
  | low
  deriving DecidableEq, Repr

/-- All values of `MergedAttackComplexity`, in declaration order. -/
def MergedAttackComplexity.all : List MergedAttackComplexity := [.high, .low]

theorem MergedAttackComplexity.mem_all : ∀ x : MergedAttackComplexity, x ∈ MergedAttackComplexity.all := by intro x; cases x <;> decide

/-- `MergedAttackComplexity::default()`: cvss/src/v4/metric/base/ac.rs:108-112. -/
def MergedAttackComplexity.default : MergedAttackComplexity := .low

/-- `AttackComplexity::as_str`: cvss/src/v4/metric/base/ac.rs:59-68. -/
def AttackComplexity.asStr : AttackComplexity → Str
  | .high => "H".toList
  | .low => "L".toList

/-- `AttackComplexity::from_str`: cvss/src/v4/metric/base/ac.rs:76-89. -/
def AttackComplexity.table : List (Str × AttackComplexity) :=
  [("H".toList, .high), ("L".toList, .low)]

/-- `MergedAttackComplexity::from_str`: cvss/src/v4/metric/base/ac.rs:114-127. -/
def MergedAttackComplexity.table : List (Str × MergedAttackComplexity) :=
  [("H".toList, .high), ("L".toList, .low)]

/-- `MergedAttackComplexity::level` (the decimal literal): cvss/src/v4/metric/base/ac.rs:129-137. -/
def MergedAttackComplexity.level : MergedAttackComplexity → Rat
  | .high => 1 / 10
  | .low => 0

/-- `AttackComplexity::merge` with no modified value (the inner `match self`): cvss/src/v4/metric/base/ac.rs:139-153. -/
def AttackComplexity.keep : AttackComplexity → MergedAttackComplexity
  | .high => .high
  | .low => .low

/-- `AttackComplexity::merge`: cvss/src/v4/metric/base/ac.rs:139-153. -/
def AttackComplexity.merge (self : AttackComplexity) : Option ModifiedAttackComplexity → MergedAttackComplexity
  | .some .notDefined => self.keep
  | .none => self.keep
  | .some .high => .high
  | .some .low => .low

/-- `AttackRequirements`: cvss/src/v4/metric/base/at.rs:23-46. -/
inductive AttackRequirements where
  | present
  | none
  deriving DecidableEq, Repr

/-- All values of `AttackRequirements`, in declaration order. -/
def AttackRequirements.all : List AttackRequirements := [.present, .none]

theorem AttackRequirements.mem_all : ∀ x : AttackRequirements, x ∈ AttackRequirements.all := by intro x; cases x <;> decide

/-- `AttackRequirements::default()`: cvss/src/v4/metric/base/at.rs:23-46. -/
def AttackRequirements.default : AttackRequirements := .none

/-- `MergedAttackRequirements`: cvss/src/v4/metric/base/at.rs:97-101. -/
inductive MergedAttackRequirements where
  | present
  | none
  deriving DecidableEq, Repr

/-- All values of `MergedAttackRequirements`, in declaration order. -/
def MergedAttackRequirements.all : List MergedAttackRequirements := [.present, .none]

theorem MergedAttackRequirements.mem_all : ∀ x : MergedAttackRequirements, x ∈ MergedAttackRequirements.all := by intro x; cases x <;> decide

/-- `MergedAttackRequirements::default()`: cvss/src/v4/metric/base/at.rs:97-101. -/
def MergedAttackRequirements.default : MergedAttackRequirements := .none

/-- `AttackRequirements::as_str`: cvss/src/v4/metric/base/at.rs:48-57. -/
def AttackRequirements.asStr : AttackRequirements → Str
  | .present => "P".toList
  | .none => "N".toList

/-- `AttackRequirements::from_str`: cvss/src/v4/metric/base/at.rs:65-78. -/
def AttackRequirements.table : List (Str × AttackRequirements) :=
  [("P".toList, .present), ("N".toList, .none)]

/-- `MergedAttackRequirements::from_str`: cvss/src/v4/metric/base/at.rs:103-116. -/
def MergedAttackRequirements.table : List (Str × MergedAttackRequirements) :=
  [("P".toList, .present), ("N".toList, .none)]

/-- `MergedAttackRequirements::level` (the decimal literal): cvss/src/v4/metric/base/at.rs:118-126. -/
def MergedAttackRequirements.level : MergedAttackRequirements → Rat
  | .present => 1 / 10
  | .none => 0

/-- `AttackRequirements::merge` with no modified value (the inner `match self`): cvss/src/v4/metric/base/at.rs:128-142. -/
def AttackRequirements.keep : AttackRequirements → MergedAttackRequirements
  | .present => .present
  | .none => .none

/-- `AttackRequirements::merge`: cvss/src/v4/metric/base/at.rs:128-142. -/
def AttackRequirements.merge (self : AttackRequirements) : Option ModifiedAttackRequirements → MergedAttackRequirements
  | .some .notDefined => self.keep
  | .none => self.keep
  | .some .present => .present
  | .some .none => .none

/-- `AttackVector`: cvss/src/v4/metric/base/av.rs:23-71. -/
inductive AttackVector where
  | physical
  | local
  | adjacent
  | network
  deriving DecidableEq, Repr

/-- All values of `AttackVector`, in declaration order. -/
def AttackVector.all : List AttackVector := [.physical, .local, .adjacent, .network]

theorem AttackVector.mem_all : ∀ x : AttackVector, x ∈ AttackVector.all := by intro x; cases x <;> decide

/-- `AttackVector::default()`: cvss/src/v4/metric/base/av.rs:23-71. -/
def AttackVector.default : AttackVector := .network

/-- `MergedAttackVector`: cvss/src/v4/metric/base/av.rs:126-132. -/
inductive MergedAttackVector where
  | physical
  | local
  | adjacent
  | network
  deriving DecidableEq, Repr

/-- All values of `MergedAttackVector`, in declaration order. -/
def MergedAttackVector.all : List MergedAttackVector := [.physical, .local, .adjacent, .network]

theorem MergedAttackVector.mem_all : ∀ x : MergedAttackVector, x ∈ MergedAttackVector.all := by intro x; cases x <;> decide

/-- `MergedAttackVector::default()`: cvss/src/v4/metric/base/av.rs:126-132. -/
def MergedAttackVector.default : MergedAttackVector := .network

/-- `AttackVector::as_str`: cvss/src/v4/metric/base/av.rs:73-84. -/
def AttackVector.asStr : AttackVector → Str
  | .network => "N".toList
  | .adjacent => "A".toList
  | .local => "L".toList
  | .physical => "P".toList

/-- `AttackVector::from_str`: cvss/src/v4/metric/base/av.rs:92-107. -/
def AttackVector.table : List (Str × AttackVector) :=
  [("N".toList, .network), ("A".toList, .adjacent), ("L".toList, .local), ("P".toList, .physical)]

/-- `MergedAttackVector::from_str`: cvss/src/v4/metric/base/av.rs:134-149. -/
def MergedAttackVector.table : List (Str × MergedAttackVector) :=
  [("P".toList, .physical), ("L".toList, .local), ("A".toList, .adjacent), ("N".toList, .network)]

/-- `MergedAttackVector::level` (the decimal literal): cvss/src/v4/metric/base/av.rs:151-161. -/
def MergedAttackVector.level : MergedAttackVector → Rat
  | .physical => 3 / 10
  | .local => 2 / 10
  | .adjacent => 1 / 10
  | .network => 0

/-- `AttackVector::merge` with no modified value (the inner `match self`): cvss/src/v4/metric/base/av.rs:163-178. -/
def AttackVector.keep : AttackVector → MergedAttackVector
  | .network => .network
  | .adjacent => .adjacent
  | .local => .local
  | .physical => .physical

/-- `AttackVector::merge`: cvss/src/v4/metric/base/av.rs:163-178. -/
def AttackVector.merge (self : AttackVector) : Option ModifiedAttackVector → MergedAttackVector
  | .some .notDefined => self.keep
  | .none => self.keep
  | .some .network => .network
  | .some .adjacent => .adjacent
  | .some .local => .local
  | .some .physical => .physical

/-- `PrivilegesRequired`: cvss/src/v4/metric/base/pr.rs:22-45. -/
inductive PrivilegesRequired where
  | high
  | low
  | none
  deriving DecidableEq, Repr

/-- All values of `PrivilegesRequired`, in declaration order. -/
def PrivilegesRequired.all : List PrivilegesRequired := [.high, .low, .none]

theorem PrivilegesRequired.mem_all : ∀ x : PrivilegesRequired, x ∈ PrivilegesRequired.all := by intro x; cases x <;> decide

/-- `PrivilegesRequired::default()`: cvss/src/v4/metric/base/pr.rs:22-45. -/
def PrivilegesRequired.default : PrivilegesRequired := .none

/-- `MergedPrivilegesRequired`: cvss/src/v4/metric/base/pr.rs:98-103. -/
inductive MergedPrivilegesRequired where
  | high
  | low
  | none
  deriving DecidableEq, Repr

/-- All values of `MergedPrivilegesRequired`, in declaration order. -/
def MergedPrivilegesRequired.all : List MergedPrivilegesRequired := [.high, .low, .none]

theorem MergedPrivilegesRequired.mem_all : ∀ x : MergedPrivilegesRequired, x ∈ MergedPrivilegesRequired.all := by intro x; cases x <;> decide

/-- `MergedPrivilegesRequired::default()`: cvss/src/v4/metric/base/pr.rs:98-103. -/
def MergedPrivilegesRequired.default : MergedPrivilegesRequired := .none

/-- `PrivilegesRequired::as_str`: cvss/src/v4/metric/base/pr.rs:47-57. -/
def PrivilegesRequired.asStr : PrivilegesRequired → Str
  | .none => "N".toList
  | .low => "L".toList
  | .high => "H".toList

/-- `PrivilegesRequired::from_str`: cvss/src/v4/metric/base/pr.rs:65-79. -/
def PrivilegesRequired.table : List (Str × PrivilegesRequired) :=
  [("N".toList, .none), ("L".toList, .low), ("H".toList, .high)]

/-- `MergedPrivilegesRequired::from_str`: cvss/src/v4/metric/base/pr.rs:105-119. -/
def MergedPrivilegesRequired.table : List (Str × MergedPrivilegesRequired) :=
  [("H".toList, .high), ("L".toList, .low), ("N".toList, .none)]

/-- `MergedPrivilegesRequired::level` (the decimal literal): cvss/src/v4/metric/base/pr.rs:121-130. -/
def MergedPrivilegesRequired.level : MergedPrivilegesRequired → Rat
  | .high => 2 / 10
  | .low => 1 / 10
  | .none => 0

/-- `PrivilegesRequired::merge` with no modified value (the inner `match self`): cvss/src/v4/metric/base/pr.rs:132-148. -/
def PrivilegesRequired.keep : PrivilegesRequired → MergedPrivilegesRequired
  | .high => .high
  | .low => .low
  | .none => .none

/-- `PrivilegesRequired::merge`: cvss/src/v4/metric/base/pr.rs:132-148. -/
def PrivilegesRequired.merge (self : PrivilegesRequired) : Option ModifiedPrivilegesRequired → MergedPrivilegesRequired
  | .some .notDefined => self.keep
  | .none => self.keep
  | .some .high => .high
  | .some .low => .low
  | .some .none => .none

/-- `AvailabilityImpactToTheSubsequentSystem`: cvss/src/v4/metric/base/sa.rs:26-60. -/
inductive AvailabilityImpactToTheSubsequentSystem where
  | none
  | low
  | high
  deriving DecidableEq, Repr

/-- All values of `AvailabilityImpactToTheSubsequentSystem`, in declaration order. -/
def AvailabilityImpactToTheSubsequentSystem.all : List AvailabilityImpactToTheSubsequentSystem := [.none, .low, .high]

theorem AvailabilityImpactToTheSubsequentSystem.mem_all : ∀ x : AvailabilityImpactToTheSubsequentSystem, x ∈ AvailabilityImpactToTheSubsequentSystem.all := by intro x; cases x <;> decide

/-- `AvailabilityImpactToTheSubsequentSystem::default()`: cvss/src/v4/metric/base/sa.rs:26-60. -/
def AvailabilityImpactToTheSubsequentSystem.default : AvailabilityImpactToTheSubsequentSystem := .high

/-- `MergedAvailabilityImpactToTheSubsequentSystem`: cvss/src/v4/metric/base/sa.rs:113-119. -/
inductive MergedAvailabilityImpactToTheSubsequentSystem where
  | safety
  | high
  | low
  | none
  deriving DecidableEq, Repr

/-- All values of `MergedAvailabilityImpactToTheSubsequentSystem`, in declaration order. -/
def MergedAvailabilityImpactToTheSubsequentSystem.all : List MergedAvailabilityImpactToTheSubsequentSystem := [.safety, .high, .low, .none]

theorem MergedAvailabilityImpactToTheSubsequentSystem.mem_all : ∀ x : MergedAvailabilityImpactToTheSubsequentSystem, x ∈ MergedAvailabilityImpactToTheSubsequentSystem.all := by intro x; cases x <;> decide

/-- `MergedAvailabilityImpactToTheSubsequentSystem::default()`: cvss/src/v4/metric/base/sa.rs:113-119. -/
def MergedAvailabilityImpactToTheSubsequentSystem.default : MergedAvailabilityImpactToTheSubsequentSystem := .high

/-- `AvailabilityImpactToTheSubsequentSystem::as_str`: cvss/src/v4/metric/base/sa.rs:62-72. -/
def AvailabilityImpactToTheSubsequentSystem.asStr : AvailabilityImpactToTheSubsequentSystem → Str
  | .none => "N".toList
  | .low => "L".toList
  | .high => "H".toList

/-- `AvailabilityImpactToTheSubsequentSystem::from_str`: cvss/src/v4/metric/base/sa.rs:80-94. -/
def AvailabilityImpactToTheSubsequentSystem.table : List (Str × AvailabilityImpactToTheSubsequentSystem) :=
  [("N".toList, .none), ("L".toList, .low), ("H".toList, .high)]

/-- `MergedAvailabilityImpactToTheSubsequentSystem::from_str`: cvss/src/v4/metric/base/sa.rs:121-136. -/
def MergedAvailabilityImpactToTheSubsequentSystem.table : List (Str × MergedAvailabilityImpactToTheSubsequentSystem) :=
  [("S".toList, .safety), ("H".toList, .high), ("L".toList, .low), ("N".toList, .none)]

/-- `MergedAvailabilityImpactToTheSubsequentSystem::level` (the decimal literal): cvss/src/v4/metric/base/sa.rs:138-148. -/
def MergedAvailabilityImpactToTheSubsequentSystem.level : MergedAvailabilityImpactToTheSubsequentSystem → Rat
  | .safety => 0
  | .high => 1 / 10
  | .low => 2 / 10
  | .none => 3 / 10

/-- `AvailabilityImpactToTheSubsequentSystem::merge` with no modified value (the inner `match self`): cvss/src/v4/metric/base/sa.rs:150-177. -/
def AvailabilityImpactToTheSubsequentSystem.keep : AvailabilityImpactToTheSubsequentSystem → MergedAvailabilityImpactToTheSubsequentSystem
  | .high => .high
  | .low => .low
  | .none => .none

/-- `AvailabilityImpactToTheSubsequentSystem::merge`: cvss/src/v4/metric/base/sa.rs:150-177. -/
def AvailabilityImpactToTheSubsequentSystem.merge (self : AvailabilityImpactToTheSubsequentSystem) : Option ModifiedAvailabilityImpactToTheSubsequentSystem → MergedAvailabilityImpactToTheSubsequentSystem
  | .some .notDefined => self.keep
  | .none => self.keep
  | .some .high => .high
  | .some .low => .low
  | .some .negligible => .none
  | .some .safety => .safety

/-- `ConfidentialityImpactToTheSubsequentSystem`: cvss/src/v4/metric/base/sc.rs:22-48. -/
inductive ConfidentialityImpactToTheSubsequentSystem where
  | none
  | low
  | high
  deriving DecidableEq, Repr

/-- All values of `ConfidentialityImpactToTheSubsequentSystem`, in declaration order. -/
def ConfidentialityImpactToTheSubsequentSystem.all : List ConfidentialityImpactToTheSubsequentSystem := [.none, .low, .high]

theorem ConfidentialityImpactToTheSubsequentSystem.mem_all : ∀ x : ConfidentialityImpactToTheSubsequentSystem, x ∈ ConfidentialityImpactToTheSubsequentSystem.all := by intro x; cases x <;> decide

/-- `ConfidentialityImpactToTheSubsequentSystem::default()`: cvss/src/v4/metric/base/sc.rs:22-48. -/
def ConfidentialityImpactToTheSubsequentSystem.default : ConfidentialityImpactToTheSubsequentSystem := .high

/-- `MergedConfidentialityImpactToTheSubsequentSystem`: cvss/src/v4/metric/base/sc.rs:103-108. -/
inductive MergedConfidentialityImpactToTheSubsequentSystem where
  | high
  | low
  | none
  deriving DecidableEq, Repr

/-- All values of `MergedConfidentialityImpactToTheSubsequentSystem`, in declaration order. -/
def MergedConfidentialityImpactToTheSubsequentSystem.all : List MergedConfidentialityImpactToTheSubsequentSystem := [.high, .low, .none]

theorem MergedConfidentialityImpactToTheSubsequentSystem.mem_all : ∀ x : MergedConfidentialityImpactToTheSubsequentSystem, x ∈ MergedConfidentialityImpactToTheSubsequentSystem.all := by intro x; cases x <;> decide

/-- `MergedConfidentialityImpactToTheSubsequentSystem::default()`: cvss/src/v4/metric/base/sc.rs:103-108. -/
def MergedConfidentialityImpactToTheSubsequentSystem.default : MergedConfidentialityImpactToTheSubsequentSystem := .high

/-- `ConfidentialityImpactToTheSubsequentSystem::as_str`: cvss/src/v4/metric/base/sc.rs:50-60. -/
def ConfidentialityImpactToTheSubsequentSystem.asStr : ConfidentialityImpactToTheSubsequentSystem → Str
  | .none => "N".toList
  | .low => "L".toList
  | .high => "H".toList

/-- `ConfidentialityImpactToTheSubsequentSystem::from_str`: cvss/src/v4/metric/base/sc.rs:68-82. -/
def ConfidentialityImpactToTheSubsequentSystem.table : List (Str × ConfidentialityImpactToTheSubsequentSystem) :=
  [("N".toList, .none), ("L".toList, .low), ("H".toList, .high)]

/-- `MergedConfidentialityImpactToTheSubsequentSystem::from_str`: cvss/src/v4/metric/base/sc.rs:110-124. -/
def MergedConfidentialityImpactToTheSubsequentSystem.table : List (Str × MergedConfidentialityImpactToTheSubsequentSystem) :=
  [("H".toList, .high), ("L".toList, .low), ("N".toList, .none)]

/-- `MergedConfidentialityImpactToTheSubsequentSystem::level` (the decimal literal): cvss/src/v4/metric/base/sc.rs:126-135. -/
def MergedConfidentialityImpactToTheSubsequentSystem.level : MergedConfidentialityImpactToTheSubsequentSystem → Rat
  | .high => 1 / 10
  | .low => 2 / 10
  | .none => 3 / 10

/-- `ConfidentialityImpactToTheSubsequentSystem::merge` with no modified value (the inner `match self`): cvss/src/v4/metric/base/sc.rs:137-161. -/
def ConfidentialityImpactToTheSubsequentSystem.keep : ConfidentialityImpactToTheSubsequentSystem → MergedConfidentialityImpactToTheSubsequentSystem
  | .high => .high
  | .low => .low
  | .none => .none

/-- `ConfidentialityImpactToTheSubsequentSystem::merge`: cvss/src/v4/metric/base/sc.rs:137-161. -/
def ConfidentialityImpactToTheSubsequentSystem.merge (self : ConfidentialityImpactToTheSubsequentSystem) : Option ModifiedConfidentialityImpactToTheSubsequentSystem → MergedConfidentialityImpactToTheSubsequentSystem
  | .some .notDefined => self.keep
  | .none => self.keep
  | .some .high => .high
  | .some .low => .low
  | .some .negligible => .none

/-- `IntegrityImpactToTheSubsequentSystem`: cvss/src/v4/metric/base/si.rs:23-47. -/
inductive IntegrityImpactToTheSubsequentSystem where
  | none
  | low
  | high
  deriving DecidableEq, Repr

/-- All values of `IntegrityImpactToTheSubsequentSystem`, in declaration order. -/
def IntegrityImpactToTheSubsequentSystem.all : List IntegrityImpactToTheSubsequentSystem := [.none, .low, .high]

theorem IntegrityImpactToTheSubsequentSystem.mem_all : ∀ x : IntegrityImpactToTheSubsequentSystem, x ∈ IntegrityImpactToTheSubsequentSystem.all := by intro x; cases x <;> decide

/-- `IntegrityImpactToTheSubsequentSystem::default()`: cvss/src/v4/metric/base/si.rs:23-47. -/
def IntegrityImpactToTheSubsequentSystem.default : IntegrityImpactToTheSubsequentSystem := .high

/-- `MergedIntegrityImpactToTheSubsequentSystem`: cvss/src/v4/metric/base/si.rs:100-106. -/
inductive MergedIntegrityImpactToTheSubsequentSystem where
  | safety
  | high
  | low
  | none
  deriving DecidableEq, Repr

/-- All values of `MergedIntegrityImpactToTheSubsequentSystem`, in declaration order. -/
def MergedIntegrityImpactToTheSubsequentSystem.all : List MergedIntegrityImpactToTheSubsequentSystem := [.safety, .high, .low, .none]

theorem MergedIntegrityImpactToTheSubsequentSystem.mem_all : ∀ x : MergedIntegrityImpactToTheSubsequentSystem, x ∈ MergedIntegrityImpactToTheSubsequentSystem.all := by intro x; cases x <;> decide

/-- `MergedIntegrityImpactToTheSubsequentSystem::default()`: cvss/src/v4/metric/base/si.rs:100-106. -/
def MergedIntegrityImpactToTheSubsequentSystem.default : MergedIntegrityImpactToTheSubsequentSystem := .high

/-- `IntegrityImpactToTheSubsequentSystem::as_str`: cvss/src/v4/metric/base/si.rs:49-59. -/
def IntegrityImpactToTheSubsequentSystem.asStr : IntegrityImpactToTheSubsequentSystem → Str
  | .none => "N".toList
  | .low => "L".toList
  | .high => "H".toList

/-- `IntegrityImpactToTheSubsequentSystem::from_str`: cvss/src/v4/metric/base/si.rs:67-81. -/
def IntegrityImpactToTheSubsequentSystem.table : List (Str × IntegrityImpactToTheSubsequentSystem) :=
  [("N".toList, .none), ("L".toList, .low), ("H".toList, .high)]

/-- `MergedIntegrityImpactToTheSubsequentSystem::from_str`: cvss/src/v4/metric/base/si.rs:108-123. -/
def MergedIntegrityImpactToTheSubsequentSystem.table : List (Str × MergedIntegrityImpactToTheSubsequentSystem) :=
  [("S".toList, .safety), ("H".toList, .high), ("L".toList, .low), ("N".toList, .none)]

/-- `MergedIntegrityImpactToTheSubsequentSystem::level` (the decimal literal): cvss/src/v4/metric/base/si.rs:125-135. -/
def MergedIntegrityImpactToTheSubsequentSystem.level : MergedIntegrityImpactToTheSubsequentSystem → Rat
  | .safety => 0
  | .high => 1 / 10
  | .low => 2 / 10
  | .none => 3 / 10

/-- `IntegrityImpactToTheSubsequentSystem::merge` with no modified value (the inner `match self`): cvss/src/v4/metric/base/si.rs:137-163. -/
def IntegrityImpactToTheSubsequentSystem.keep : IntegrityImpactToTheSubsequentSystem → MergedIntegrityImpactToTheSubsequentSystem
  | .high => .high
  | .low => .low
  | .none => .none

/-- `IntegrityImpactToTheSubsequentSystem::merge`: cvss/src/v4/metric/base/si.rs:137-163. -/
def IntegrityImpactToTheSubsequentSystem.merge (self : IntegrityImpactToTheSubsequentSystem) : Option ModifiedIntegrityImpactToTheSubsequentSystem → MergedIntegrityImpactToTheSubsequentSystem
  | .some .notDefined => self.keep
  | .none => self.keep
  | .some .high => .high
  | .some .low => .low
  | .some .negligible => .none
  | .some .safety => .safety

/-- `UserInteraction`: cvss/src/v4/metric/base/ui.rs:21-58. -/
inductive UserInteraction where
  | active
  | passive
  | none
  deriving DecidableEq, Repr

/-- All values of `UserInteraction`, in declaration order. -/
def UserInteraction.all : List UserInteraction := [.active, .passive, .none]

theorem UserInteraction.mem_all : ∀ x : UserInteraction, x ∈ UserInteraction.all := by intro x; cases x <;> decide

/-- `UserInteraction::default()`: cvss/src/v4/metric/base/ui.rs:21-58. -/
def UserInteraction.default : UserInteraction := .none

/-- `MergedUserInteraction`: cvss/src/v4/metric/base/ui.rs:111-116. -/
inductive MergedUserInteraction where
  | active
  | passive
  | none
  deriving DecidableEq, Repr

/-- All values of `MergedUserInteraction`, in declaration order. -/
def MergedUserInteraction.all : List MergedUserInteraction := [.active, .passive, .none]

theorem MergedUserInteraction.mem_all : ∀ x : MergedUserInteraction, x ∈ MergedUserInteraction.all := by intro x; cases x <;> decide

/-- `MergedUserInteraction::default()`: cvss/src/v4/metric/base/ui.rs:111-116. -/
def MergedUserInteraction.default : MergedUserInteraction := .none

/-- `UserInteraction::as_str`: cvss/src/v4/metric/base/ui.rs:60-70. -/
def UserInteraction.asStr : UserInteraction → Str
  | .none => "N".toList
  | .passive => "P".toList
  | .active => "A".toList

/-- `UserInteraction::from_str`: cvss/src/v4/metric/base/ui.rs:78-92. -/
def UserInteraction.table : List (Str × UserInteraction) :=
  [("N".toList, .none), ("P".toList, .passive), ("A".toList, .active)]

/-- `MergedUserInteraction::from_str`: cvss/src/v4/metric/base/ui.rs:118-132. -/
def MergedUserInteraction.table : List (Str × MergedUserInteraction) :=
  [("A".toList, .active), ("P".toList, .passive), ("N".toList, .none)]

/-- `MergedUserInteraction::level` (the decimal literal): cvss/src/v4/metric/base/ui.rs:134-143. -/
def MergedUserInteraction.level : MergedUserInteraction → Rat
  | .active => 2 / 10
  | .passive => 1 / 10
  | .none => 0

/-- `UserInteraction::merge` with no modified value (the inner `match self`): cvss/src/v4/metric/base/ui.rs:145-158. -/
def UserInteraction.keep : UserInteraction → MergedUserInteraction
  | .passive => .passive
  | .active => .active
  | .none => .none

/-- `UserInteraction::merge`: cvss/src/v4/metric/base/ui.rs:145-158. -/
def UserInteraction.merge (self : UserInteraction) : Option ModifiedUserInteraction → MergedUserInteraction
  | .some .notDefined => self.keep
  | .none => self.keep
  | .some .passive => .passive
  | .some .active => .active
  | .some .none => .none

/-- `AvailabilityImpactToTheVulnerableSystem`: cvss/src/v4/metric/base/va.rs:26-59. -/
inductive AvailabilityImpactToTheVulnerableSystem where
  | none
  | low
  | high
  deriving DecidableEq, Repr

/-- All values of `AvailabilityImpactToTheVulnerableSystem`, in declaration order. -/
def AvailabilityImpactToTheVulnerableSystem.all : List AvailabilityImpactToTheVulnerableSystem := [.none, .low, .high]

theorem AvailabilityImpactToTheVulnerableSystem.mem_all : ∀ x : AvailabilityImpactToTheVulnerableSystem, x ∈ AvailabilityImpactToTheVulnerableSystem.all := by intro x; cases x <;> decide

/-- `AvailabilityImpactToTheVulnerableSystem::default()`: cvss/src/v4/metric/base/va.rs:26-59. -/
def AvailabilityImpactToTheVulnerableSystem.default : AvailabilityImpactToTheVulnerableSystem := .high

/-- `MergedAvailabilityImpactToTheVulnerableSystem`: cvss/src/v4/metric/base/va.rs:112-117. -/
inductive MergedAvailabilityImpactToTheVulnerableSystem where
  | high
  | low
  | none
  deriving DecidableEq, Repr

/-- All values of `MergedAvailabilityImpactToTheVulnerableSystem`, in declaration order. -/
def MergedAvailabilityImpactToTheVulnerableSystem.all : List MergedAvailabilityImpactToTheVulnerableSystem := [.high, .low, .none]

theorem MergedAvailabilityImpactToTheVulnerableSystem.mem_all : ∀ x : MergedAvailabilityImpactToTheVulnerableSystem, x ∈ MergedAvailabilityImpactToTheVulnerableSystem.all := by intro x; cases x <;> decide

/-- `MergedAvailabilityImpactToTheVulnerableSystem::default()`: cvss/src/v4/metric/base/va.rs:112-117. -/
def MergedAvailabilityImpactToTheVulnerableSystem.default : MergedAvailabilityImpactToTheVulnerableSystem := .high

/-- `AvailabilityImpactToTheVulnerableSystem::as_str`: cvss/src/v4/metric/base/va.rs:61-71. -/
def AvailabilityImpactToTheVulnerableSystem.asStr : AvailabilityImpactToTheVulnerableSystem → Str
  | .none => "N".toList
  | .low => "L".toList
  | .high => "H".toList

/-- `AvailabilityImpactToTheVulnerableSystem::from_str`: cvss/src/v4/metric/base/va.rs:79-93. -/
def AvailabilityImpactToTheVulnerableSystem.table : List (Str × AvailabilityImpactToTheVulnerableSystem) :=
  [("N".toList, .none), ("L".toList, .low), ("H".toList, .high)]

/-- `MergedAvailabilityImpactToTheVulnerableSystem::from_str`: cvss/src/v4/metric/base/va.rs:119-133. -/
def MergedAvailabilityImpactToTheVulnerableSystem.table : List (Str × MergedAvailabilityImpactToTheVulnerableSystem) :=
  [("H".toList, .high), ("L".toList, .low), ("N".toList, .none)]

/-- `MergedAvailabilityImpactToTheVulnerableSystem::level` (the decimal literal): cvss/src/v4/metric/base/va.rs:135-144. -/
def MergedAvailabilityImpactToTheVulnerableSystem.level : MergedAvailabilityImpactToTheVulnerableSystem → Rat
  | .high => 0
  | .low => 1 / 10
  | .none => 2 / 10

/-- `AvailabilityImpactToTheVulnerableSystem::merge` with no modified value (the inner `match self`): cvss/src/v4/metric/base/va.rs:146-170. -/
def AvailabilityImpactToTheVulnerableSystem.keep : AvailabilityImpactToTheVulnerableSystem → MergedAvailabilityImpactToTheVulnerableSystem
  | .high => .high
  | .low => .low
  | .none => .none

/-- `AvailabilityImpactToTheVulnerableSystem::merge`: cvss/src/v4/metric/base/va.rs:146-170. -/
def AvailabilityImpactToTheVulnerableSystem.merge (self : AvailabilityImpactToTheVulnerableSystem) : Option ModifiedAvailabilityImpactToTheVulnerableSystem → MergedAvailabilityImpactToTheVulnerableSystem
  | .some .notDefined => self.keep
  | .none => self.keep
  | .some .high => .high
  | .some .low => .low
  | .some .none => .none

/-- `ConfidentialityImpactToTheVulnerableSystem`: cvss/src/v4/metric/base/vc.rs:22-47. -/
inductive ConfidentialityImpactToTheVulnerableSystem where
  | none
  | low
  | high
  deriving DecidableEq, Repr

/-- All values of `ConfidentialityImpactToTheVulnerableSystem`, in declaration order. -/
def ConfidentialityImpactToTheVulnerableSystem.all : List ConfidentialityImpactToTheVulnerableSystem := [.none, .low, .high]

theorem ConfidentialityImpactToTheVulnerableSystem.mem_all : ∀ x : ConfidentialityImpactToTheVulnerableSystem, x ∈ ConfidentialityImpactToTheVulnerableSystem.all := by intro x; cases x <;> decide

/-- `ConfidentialityImpactToTheVulnerableSystem::default()`: cvss/src/v4/metric/base/vc.rs:22-47. -/
def ConfidentialityImpactToTheVulnerableSystem.default : ConfidentialityImpactToTheVulnerableSystem := .high

/-- `MergedConfidentialityImpactToTheVulnerableSystem`: cvss/src/v4/metric/base/vc.rs:102-107. -/
inductive MergedConfidentialityImpactToTheVulnerableSystem where
  | high
  | low
  | none
  deriving DecidableEq, Repr

/-- All values of `MergedConfidentialityImpactToTheVulnerableSystem`, in declaration order. -/
def MergedConfidentialityImpactToTheVulnerableSystem.all : List MergedConfidentialityImpactToTheVulnerableSystem := [.high, .low, .none]

theorem MergedConfidentialityImpactToTheVulnerableSystem.mem_all : ∀ x : MergedConfidentialityImpactToTheVulnerableSystem, x ∈ MergedConfidentialityImpactToTheVulnerableSystem.all := by intro x; cases x <;> decide

/-- `MergedConfidentialityImpactToTheVulnerableSystem::default()`: cvss/src/v4/metric/base/vc.rs:102-107. -/
def MergedConfidentialityImpactToTheVulnerableSystem.default : MergedConfidentialityImpactToTheVulnerableSystem := .high

/-- `ConfidentialityImpactToTheVulnerableSystem::as_str`: cvss/src/v4/metric/base/vc.rs:49-59. -/
def ConfidentialityImpactToTheVulnerableSystem.asStr : ConfidentialityImpactToTheVulnerableSystem → Str
  | .none => "N".toList
  | .low => "L".toList
  | .high => "H".toList

/-- `ConfidentialityImpactToTheVulnerableSystem::from_str`: cvss/src/v4/metric/base/vc.rs:67-81. -/
def ConfidentialityImpactToTheVulnerableSystem.table : List (Str × ConfidentialityImpactToTheVulnerableSystem) :=
  [("N".toList, .none), ("L".toList, .low), ("H".toList, .high)]

/-- `MergedConfidentialityImpactToTheVulnerableSystem::level` (the decimal literal): cvss/src/v4/metric/base/vc.rs:109-118. -/
def MergedConfidentialityImpactToTheVulnerableSystem.level : MergedConfidentialityImpactToTheVulnerableSystem → Rat
  | .high => 0
  | .low => 1 / 10
  | .none => 2 / 10

/-- `MergedConfidentialityImpactToTheVulnerableSystem::from_str`: cvss/src/v4/metric/base/vc.rs:120-134. -/
def MergedConfidentialityImpactToTheVulnerableSystem.table : List (Str × MergedConfidentialityImpactToTheVulnerableSystem) :=
  [("H".toList, .high), ("L".toList, .low), ("N".toList, .none)]

/-- `ConfidentialityImpactToTheVulnerableSystem::merge` with no modified value (the inner `match self`): cvss/src/v4/metric/base/vc.rs:136-160. -/
def ConfidentialityImpactToTheVulnerableSystem.keep : ConfidentialityImpactToTheVulnerableSystem → MergedConfidentialityImpactToTheVulnerableSystem
  | .high => .high
  | .low => .low
  | .none => .none

/-- `ConfidentialityImpactToTheVulnerableSystem::merge`: cvss/src/v4/metric/base/vc.rs:136-160. -/
def ConfidentialityImpactToTheVulnerableSystem.merge (self : ConfidentialityImpactToTheVulnerableSystem) : Option ModifiedConfidentialityImpactToTheVulnerableSystem → MergedConfidentialityImpactToTheVulnerableSystem
  | .some .notDefined => self.keep
  | .none => self.keep
  | .some .high => .high
  | .some .low => .low
  | .some .none => .none

/-- `IntegrityImpactToTheVulnerableSystem`: cvss/src/v4/metric/base/vi.rs:23-46. -/
inductive IntegrityImpactToTheVulnerableSystem where
  | none
  | low
  | high
  deriving DecidableEq, Repr

/-- All values of `IntegrityImpactToTheVulnerableSystem`, in declaration order. -/
def IntegrityImpactToTheVulnerableSystem.all : List IntegrityImpactToTheVulnerableSystem := [.none, .low, .high]

theorem IntegrityImpactToTheVulnerableSystem.mem_all : ∀ x : IntegrityImpactToTheVulnerableSystem, x ∈ IntegrityImpactToTheVulnerableSystem.all := by intro x; cases x <;> decide

/-- `IntegrityImpactToTheVulnerableSystem::default()`: cvss/src/v4/metric/base/vi.rs:23-46. -/
def IntegrityImpactToTheVulnerableSystem.default : IntegrityImpactToTheVulnerableSystem := .high

/-- `MergedIntegrityImpactToTheVulnerableSystem`: cvss/src/v4/metric/base/vi.rs:99-104. -/
inductive MergedIntegrityImpactToTheVulnerableSystem where
  | high
  | low
  | none
  deriving DecidableEq, Repr

/-- All values of `MergedIntegrityImpactToTheVulnerableSystem`, in declaration order. -/
def MergedIntegrityImpactToTheVulnerableSystem.all : List MergedIntegrityImpactToTheVulnerableSystem := [.high, .low, .none]

theorem MergedIntegrityImpactToTheVulnerableSystem.mem_all : ∀ x : MergedIntegrityImpactToTheVulnerableSystem, x ∈ MergedIntegrityImpactToTheVulnerableSystem.all := by intro x; cases x <;> decide

/-- `MergedIntegrityImpactToTheVulnerableSystem::default()`: cvss/src/v4/metric/base/vi.rs:99-104. -/
def MergedIntegrityImpactToTheVulnerableSystem.default : MergedIntegrityImpactToTheVulnerableSystem := .high

/-- `IntegrityImpactToTheVulnerableSystem::as_str`: cvss/src/v4/metric/base/vi.rs:48-58. -/
def IntegrityImpactToTheVulnerableSystem.asStr : IntegrityImpactToTheVulnerableSystem → Str
  | .none => "N".toList
  | .low => "L".toList
  | .high => "H".toList

/-- `IntegrityImpactToTheVulnerableSystem::from_str`: cvss/src/v4/metric/base/vi.rs:66-80. -/
def IntegrityImpactToTheVulnerableSystem.table : List (Str × IntegrityImpactToTheVulnerableSystem) :=
  [("N".toList, .none), ("L".toList, .low), ("H".toList, .high)]

/-- `MergedIntegrityImpactToTheVulnerableSystem::from_str`: cvss/src/v4/metric/base/vi.rs:106-120. -/
def MergedIntegrityImpactToTheVulnerableSystem.table : List (Str × MergedIntegrityImpactToTheVulnerableSystem) :=
  [("H".toList, .high), ("L".toList, .low), ("N".toList, .none)]

/-- `MergedIntegrityImpactToTheVulnerableSystem::level` (the decimal literal): cvss/src/v4/metric/base/vi.rs:122-131. -/
def MergedIntegrityImpactToTheVulnerableSystem.level : MergedIntegrityImpactToTheVulnerableSystem → Rat
  | .high => 0
  | .low => 1 / 10
  | .none => 2 / 10

/-- `IntegrityImpactToTheVulnerableSystem::merge` with no modified value (the inner `match self`): cvss/src/v4/metric/base/vi.rs:133-156. -/
def IntegrityImpactToTheVulnerableSystem.keep : IntegrityImpactToTheVulnerableSystem → MergedIntegrityImpactToTheVulnerableSystem
  | .high => .high
  | .low => .low
  | .none => .none

/-- `IntegrityImpactToTheVulnerableSystem::merge`: cvss/src/v4/metric/base/vi.rs:133-156. -/
def IntegrityImpactToTheVulnerableSystem.merge (self : IntegrityImpactToTheVulnerableSystem) : Option ModifiedIntegrityImpactToTheVulnerableSystem → MergedIntegrityImpactToTheVulnerableSystem
  | .some .notDefined => self.keep
  | .none => self.keep
  | .some .high => .high
  | .some .low => .low
  | .some .none => .none

/-- `ExploitMaturity`: cvss/src/v4/metric/threat/e.rs:41-75. -/
inductive ExploitMaturity where
  | notDefined
  | unreported
  | proofOfConcept
  | attacked
  deriving DecidableEq, Repr

/-- All values of `ExploitMaturity`, in declaration order. -/
def ExploitMaturity.all : List ExploitMaturity := [.notDefined, .unreported, .proofOfConcept, .attacked]

theorem ExploitMaturity.mem_all : ∀ x : ExploitMaturity, x ∈ ExploitMaturity.all := by intro x; cases x <;> decide

/-- `ExploitMaturity::default()`: cvss/src/v4/metric/threat/e.rs:41-75. -/
def ExploitMaturity.default : ExploitMaturity := .notDefined

/-- `MergedExploitMaturity`: cvss/src/v4/metric/threat/e.rs:124-129. -/
inductive MergedExploitMaturity where
  | attacked
  | proofOfConcept
  | unreported
  deriving DecidableEq, Repr

/-- All values of `MergedExploitMaturity`, in declaration order. -/
def MergedExploitMaturity.all : List MergedExploitMaturity := [.attacked, .proofOfConcept, .unreported]

theorem MergedExploitMaturity.mem_all : ∀ x : MergedExploitMaturity, x ∈ MergedExploitMaturity.all := by intro x; cases x <;> decide

/-- `MergedExploitMaturity::default()`: cvss/src/v4/metric/threat/e.rs:124-129. -/
def MergedExploitMaturity.default : MergedExploitMaturity := .attacked

/-- `ExploitMaturity::as_str`: cvss/src/v4/metric/threat/e.rs:77-88. -/
def ExploitMaturity.asStr : ExploitMaturity → Str
  | .notDefined => "X".toList
  | .attacked => "A".toList
  | .proofOfConcept => "P".toList
  | .unreported => "U".toList

/-- `ExploitMaturity::from_str`: cvss/src/v4/metric/threat/e.rs:96-111. -/
def ExploitMaturity.table : List (Str × ExploitMaturity) :=
  [("X".toList, .notDefined), ("A".toList, .attacked), ("P".toList, .proofOfConcept), ("U".toList, .unreported)]

/-- `MergedExploitMaturity::from_str`: cvss/src/v4/metric/threat/e.rs:131-145. -/
def MergedExploitMaturity.table : List (Str × MergedExploitMaturity) :=
  [("A".toList, .attacked), ("P".toList, .proofOfConcept), ("U".toList, .unreported)]

/-- `MergedExploitMaturity::level` (the decimal literal): cvss/src/v4/metric/threat/e.rs:158-167. -/
def MergedExploitMaturity.level : MergedExploitMaturity → Rat
  | .unreported => 2 / 10
  | .proofOfConcept => 1 / 10
  | .attacked => 0

/-- `ExploitMaturity::merge`: cvss/src/v4/metric/threat/e.rs:147-156. -/
def ExploitMaturity.merge : ExploitMaturity → MergedExploitMaturity
  | .attacked => .attacked
  | .proofOfConcept => .proofOfConcept
  | .unreported => .unreported
  | .notDefined => .attacked

/-- `Automatable`: cvss/src/v4/metric/supplemental/au.rs:20-40. -/
inductive Automatable where
  | notDefined
  | yes
  | no
  deriving DecidableEq, Repr

/-- All values of `Automatable`, in declaration order. -/
def Automatable.all : List Automatable := [.notDefined, .yes, .no]

theorem Automatable.mem_all : ∀ x : Automatable, x ∈ Automatable.all := by intro x; cases x <;> decide

/-- `Automatable::default()`: cvss/src/v4/metric/supplemental/au.rs:20-40. -/
def Automatable.default : Automatable := .notDefined

/-- `Automatable::as_str`: cvss/src/v4/metric/supplemental/au.rs:42-52. -/
def Automatable.asStr : Automatable → Str
  | .notDefined => "X".toList
  | .yes => "Y".toList
  | .no => "N".toList

/-- `Automatable::from_str`: cvss/src/v4/metric/supplemental/au.rs:60-74. -/
def Automatable.table : List (Str × Automatable) :=
  [("X".toList, .notDefined), ("Y".toList, .yes), ("N".toList, .no)]

/-- `Recovery`: cvss/src/v4/metric/supplemental/r.rs:14-38. -/
inductive Recovery where
  | notDefined
  | automatic
  | user
  | irrecoverable
  deriving DecidableEq, Repr

/-- All values of `Recovery`, in declaration order. -/
def Recovery.all : List Recovery := [.notDefined, .automatic, .user, .irrecoverable]

theorem Recovery.mem_all : ∀ x : Recovery, x ∈ Recovery.all := by intro x; cases x <;> decide

/-- `Recovery::default()`: cvss/src/v4/metric/supplemental/r.rs:14-38. -/
def Recovery.default : Recovery := .notDefined

/-- `Recovery::as_str`: cvss/src/v4/metric/supplemental/r.rs:40-51. -/
def Recovery.asStr : Recovery → Str
  | .notDefined => "X".toList
  | .automatic => "A".toList
  | .user => "U".toList
  | .irrecoverable => "I".toList

/-- `Recovery::from_str`: cvss/src/v4/metric/supplemental/r.rs:59-74. -/
def Recovery.table : List (Str × Recovery) :=
  [("X".toList, .notDefined), ("A".toList, .automatic), ("U".toList, .user), ("I".toList, .irrecoverable)]

/-- `VulnerabilityResponseEffort`: cvss/src/v4/metric/supplemental/re.rs:14-56. -/
inductive VulnerabilityResponseEffort where
  | notDefined
  | low
  | moderate
  | high
  deriving DecidableEq, Repr

/-- All values of `VulnerabilityResponseEffort`, in declaration order. -/
def VulnerabilityResponseEffort.all : List VulnerabilityResponseEffort := [.notDefined, .low, .moderate, .high]

theorem VulnerabilityResponseEffort.mem_all : ∀ x : VulnerabilityResponseEffort, x ∈ VulnerabilityResponseEffort.all := by intro x; cases x <;> decide

/-- `VulnerabilityResponseEffort::default()`: cvss/src/v4/metric/supplemental/re.rs:14-56. -/
def VulnerabilityResponseEffort.default : VulnerabilityResponseEffort := .notDefined

/-- `VulnerabilityResponseEffort::as_str`: cvss/src/v4/metric/supplemental/re.rs:58-69. -/
def VulnerabilityResponseEffort.asStr : VulnerabilityResponseEffort → Str
  | .notDefined => "X".toList
  | .low => "L".toList
  | .moderate => "M".toList
  | .high => "H".toList

/-- `VulnerabilityResponseEffort::from_str`: cvss/src/v4/metric/supplemental/re.rs:77-92. -/
def VulnerabilityResponseEffort.table : List (Str × VulnerabilityResponseEffort) :=
  [("X".toList, .notDefined), ("L".toList, .low), ("M".toList, .moderate), ("H".toList, .high)]

/-- `Safety`: cvss/src/v4/metric/supplemental/s.rs:23-41. -/
inductive Safety where
  | notDefined
  | present
  | negligible
  deriving DecidableEq, Repr

/-- All values of `Safety`, in declaration order. -/
def Safety.all : List Safety := [.notDefined, .present, .negligible]

theorem Safety.mem_all : ∀ x : Safety, x ∈ Safety.all := by intro x; cases x <;> decide

/-- `Safety::default()`: cvss/src/v4/metric/supplemental/s.rs:23-41. -/
def Safety.default : Safety := .notDefined

/-- `Safety::as_str`: cvss/src/v4/metric/supplemental/s.rs:43-53. -/
def Safety.asStr : Safety → Str
  | .notDefined => "X".toList
  | .present => "P".toList
  | .negligible => "N".toList

/-- `Safety::from_str`: cvss/src/v4/metric/supplemental/s.rs:61-75. -/
def Safety.table : List (Str × Safety) :=
  [("X".toList, .notDefined), ("P".toList, .present), ("N".toList, .negligible)]

/-- `ProviderUrgency`: cvss/src/v4/metric/supplemental/u.rs:31-57. -/
inductive ProviderUrgency where
  | notDefined
  | red
  | amber
  | green
  | clear
  deriving DecidableEq, Repr

/-- All values of `ProviderUrgency`, in declaration order. -/
def ProviderUrgency.all : List ProviderUrgency := [.notDefined, .red, .amber, .green, .clear]

theorem ProviderUrgency.mem_all : ∀ x : ProviderUrgency, x ∈ ProviderUrgency.all := by intro x; cases x <;> decide

/-- `ProviderUrgency::default()`: cvss/src/v4/metric/supplemental/u.rs:31-57. -/
def ProviderUrgency.default : ProviderUrgency := .notDefined

/-- `ProviderUrgency::as_str`: cvss/src/v4/metric/supplemental/u.rs:59-71. -/
def ProviderUrgency.asStr : ProviderUrgency → Str
  | .notDefined => "X".toList
  | .red => "Red".toList
  | .amber => "Amber".toList
  | .green => "Green".toList
  | .clear => "Clear".toList

/-- `ProviderUrgency::from_str`: cvss/src/v4/metric/supplemental/u.rs:79-95. -/
def ProviderUrgency.table : List (Str × ProviderUrgency) :=
  [("X".toList, .notDefined), ("RED".toList, .red), ("AMBER".toList, .amber), ("GREEN".toList, .green), ("CLEAR".toList, .clear)]

/-- `ValueDensity`: cvss/src/v4/metric/supplemental/v.rs:14-37. -/
inductive ValueDensity where
  | notDefined
  | diffuse
  | concentrated
  deriving DecidableEq, Repr

/-- All values of `ValueDensity`, in declaration order. -/
def ValueDensity.all : List ValueDensity := [.notDefined, .diffuse, .concentrated]

theorem ValueDensity.mem_all : ∀ x : ValueDensity, x ∈ ValueDensity.all := by intro x; cases x <;> decide

/-- `ValueDensity::default()`: cvss/src/v4/metric/supplemental/v.rs:14-37. -/
def ValueDensity.default : ValueDensity := .notDefined

/-- `ValueDensity::as_str`: cvss/src/v4/metric/supplemental/v.rs:39-49. -/
def ValueDensity.asStr : ValueDensity → Str
  | .notDefined => "X".toList
  | .diffuse => "D".toList
  | .concentrated => "C".toList

/-- `ValueDensity::from_str`: cvss/src/v4/metric/supplemental/v.rs:57-71. -/
def ValueDensity.table : List (Str × ValueDensity) :=
  [("X".toList, .notDefined), ("D".toList, .diffuse), ("C".toList, .concentrated)]

/-- `MetricType`: cvss/src/v4/metric.rs:39-104. -/
inductive MetricType where
  | AC
  | AT
  | AV
  | PR
  | SA
  | SC
  | SI
  | UI
  | VA
  | VC
  | VI
  | E
  | AR
  | CR
  | IR
  | MAC
  | MAT
  | MAV
  | MPR
  | MSA
  | MSC
  | MSI
  | MUI
  | MVA
  | MVC
  | MVI
  | AU
  | R
  | RE
  | S
  | U
  | V
  deriving DecidableEq, Repr

/-- All metric types, in declaration order. -/
def MetricType.all : List MetricType := [.AC, .AT, .AV, .PR, .SA, .SC, .SI, .UI, .VA, .VC, .VI, .E, .AR, .CR, .IR, .MAC, .MAT, .MAV, .MPR, .MSA, .MSC, .MSI, .MUI, .MVA, .MVC, .MVI, .AU, .R, .RE, .S, .U, .V]

theorem MetricType.mem_all : ∀ m : MetricType, m ∈ MetricType.all := by intro m; cases m <;> decide

/-- `MetricType::name`: cvss/src/v4/metric.rs:106-182. -/
def MetricType.name : MetricType → Str
  | .AC => "AC".toList
  | .AT => "AT".toList
  | .AV => "AV".toList
  | .PR => "PR".toList
  | .SA => "SA".toList
  | .SC => "SC".toList
  | .SI => "SI".toList
  | .UI => "UI".toList
  | .VA => "VA".toList
  | .VC => "VC".toList
  | .VI => "VI".toList
  | .E => "E".toList
  | .AR => "AR".toList
  | .CR => "CR".toList
  | .IR => "IR".toList
  | .MAC => "MAC".toList
  | .MAT => "MAT".toList
  | .MAV => "MAV".toList
  | .MPR => "MPR".toList
  | .MSA => "MSA".toList
  | .MSC => "MSC".toList
  | .MSI => "MSI".toList
  | .MUI => "MUI".toList
  | .MVA => "MVA".toList
  | .MVC => "MVC".toList
  | .MVI => "MVI".toList
  | .AU => "AU".toList
  | .R => "R".toList
  | .RE => "RE".toList
  | .S => "S".toList
  | .U => "U".toList
  | .V => "V".toList

/-- `MetricType::from_str`: cvss/src/v4/metric.rs:190-230. -/
def MetricType.table : List (Str × MetricType) :=
  [("AC".toList, .AC), ("AT".toList, .AT), ("AV".toList, .AV), ("PR".toList, .PR), ("SA".toList, .SA), ("SC".toList, .SC), ("SI".toList, .SI), ("UI".toList, .UI), ("VA".toList, .VA), ("VC".toList, .VC), ("VI".toList, .VI), ("E".toList, .E), ("AR".toList, .AR), ("CR".toList, .CR), ("IR".toList, .IR), ("MAC".toList, .MAC), ("MAT".toList, .MAT), ("MAV".toList, .MAV), ("MPR".toList, .MPR), ("MSA".toList, .MSA), ("MSC".toList, .MSC), ("MSI".toList, .MSI), ("MUI".toList, .MUI), ("MVA".toList, .MVA), ("MVC".toList, .MVC), ("MVI".toList, .MVI), ("AU".toList, .AU), ("R".toList, .R), ("RE".toList, .RE), ("S".toList, .S), ("U".toList, .U), ("V".toList, .V)]

/-- The value type of each metric (`const TYPE` of the metric files; the field types of the vector). -/
abbrev MetricType.Val : MetricType → Type
  | .AC => AttackComplexity
  | .AT => AttackRequirements
  | .AV => AttackVector
  | .PR => PrivilegesRequired
  | .SA => AvailabilityImpactToTheSubsequentSystem
  | .SC => ConfidentialityImpactToTheSubsequentSystem
  | .SI => IntegrityImpactToTheSubsequentSystem
  | .UI => UserInteraction
  | .VA => AvailabilityImpactToTheVulnerableSystem
  | .VC => ConfidentialityImpactToTheVulnerableSystem
  | .VI => IntegrityImpactToTheVulnerableSystem
  | .E => ExploitMaturity
  | .AR => AvailabilityRequirements
  | .CR => ConfidentialityRequirements
  | .IR => IntegrityRequirements
  | .MAC => ModifiedAttackComplexity
  | .MAT => ModifiedAttackRequirements
  | .MAV => ModifiedAttackVector
  | .MPR => ModifiedPrivilegesRequired
  | .MSA => ModifiedAvailabilityImpactToTheSubsequentSystem
  | .MSC => ModifiedConfidentialityImpactToTheSubsequentSystem
  | .MSI => ModifiedIntegrityImpactToTheSubsequentSystem
  | .MUI => ModifiedUserInteraction
  | .MVA => ModifiedAvailabilityImpactToTheVulnerableSystem
  | .MVC => ModifiedConfidentialityImpactToTheVulnerableSystem
  | .MVI => ModifiedIntegrityImpactToTheVulnerableSystem
  | .AU => Automatable
  | .R => Recovery
  | .RE => VulnerabilityResponseEffort
  | .S => Safety
  | .U => ProviderUrgency
  | .V => ValueDensity

instance (m : MetricType) : DecidableEq m.Val := by cases m <;> (simp only [MetricType.Val]; infer_instance)

/-- `as_str` of each metric. -/
def MetricType.asStr : (m : MetricType) → m.Val → Str
  | .AC => AttackComplexity.asStr
  | .AT => AttackRequirements.asStr
  | .AV => AttackVector.asStr
  | .PR => PrivilegesRequired.asStr
  | .SA => AvailabilityImpactToTheSubsequentSystem.asStr
  | .SC => ConfidentialityImpactToTheSubsequentSystem.asStr
  | .SI => IntegrityImpactToTheSubsequentSystem.asStr
  | .UI => UserInteraction.asStr
  | .VA => AvailabilityImpactToTheVulnerableSystem.asStr
  | .VC => ConfidentialityImpactToTheVulnerableSystem.asStr
  | .VI => IntegrityImpactToTheVulnerableSystem.asStr
  | .E => ExploitMaturity.asStr
  | .AR => AvailabilityRequirements.asStr
  | .CR => ConfidentialityRequirements.asStr
  | .IR => IntegrityRequirements.asStr
  | .MAC => ModifiedAttackComplexity.asStr
  | .MAT => ModifiedAttackRequirements.asStr
  | .MAV => ModifiedAttackVector.asStr
  | .MPR => ModifiedPrivilegesRequired.asStr
  | .MSA => ModifiedAvailabilityImpactToTheSubsequentSystem.asStr
  | .MSC => ModifiedConfidentialityImpactToTheSubsequentSystem.asStr
  | .MSI => ModifiedIntegrityImpactToTheSubsequentSystem.asStr
  | .MUI => ModifiedUserInteraction.asStr
  | .MVA => ModifiedAvailabilityImpactToTheVulnerableSystem.asStr
  | .MVC => ModifiedConfidentialityImpactToTheVulnerableSystem.asStr
  | .MVI => ModifiedIntegrityImpactToTheVulnerableSystem.asStr
  | .AU => Automatable.asStr
  | .R => Recovery.asStr
  | .RE => VulnerabilityResponseEffort.asStr
  | .S => Safety.asStr
  | .U => ProviderUrgency.asStr
  | .V => ValueDensity.asStr

/-- `FromStr` table of each metric. -/
def MetricType.valueTable : (m : MetricType) → List (Str × m.Val)
  | .AC => AttackComplexity.table
  | .AT => AttackRequirements.table
  | .AV => AttackVector.table
  | .PR => PrivilegesRequired.table
  | .SA => AvailabilityImpactToTheSubsequentSystem.table
  | .SC => ConfidentialityImpactToTheSubsequentSystem.table
  | .SI => IntegrityImpactToTheSubsequentSystem.table
  | .UI => UserInteraction.table
  | .VA => AvailabilityImpactToTheVulnerableSystem.table
  | .VC => ConfidentialityImpactToTheVulnerableSystem.table
  | .VI => IntegrityImpactToTheVulnerableSystem.table
  | .E => ExploitMaturity.table
  | .AR => AvailabilityRequirements.table
  | .CR => ConfidentialityRequirements.table
  | .IR => IntegrityRequirements.table
  | .MAC => ModifiedAttackComplexity.table
  | .MAT => ModifiedAttackRequirements.table
  | .MAV => ModifiedAttackVector.table
  | .MPR => ModifiedPrivilegesRequired.table
  | .MSA => ModifiedAvailabilityImpactToTheSubsequentSystem.table
  | .MSC => ModifiedConfidentialityImpactToTheSubsequentSystem.table
  | .MSI => ModifiedIntegrityImpactToTheSubsequentSystem.table
  | .MUI => ModifiedUserInteraction.table
  | .MVA => ModifiedAvailabilityImpactToTheVulnerableSystem.table
  | .MVC => ModifiedConfidentialityImpactToTheVulnerableSystem.table
  | .MVI => ModifiedIntegrityImpactToTheVulnerableSystem.table
  | .AU => Automatable.table
  | .R => Recovery.table
  | .RE => VulnerabilityResponseEffort.table
  | .S => Safety.table
  | .U => ProviderUrgency.table
  | .V => ValueDensity.table

/-- all values of each metric. -/
def MetricType.values : (m : MetricType) → List m.Val
  | .AC => AttackComplexity.all
  | .AT => AttackRequirements.all
  | .AV => AttackVector.all
  | .PR => PrivilegesRequired.all
  | .SA => AvailabilityImpactToTheSubsequentSystem.all
  | .SC => ConfidentialityImpactToTheSubsequentSystem.all
  | .SI => IntegrityImpactToTheSubsequentSystem.all
  | .UI => UserInteraction.all
  | .VA => AvailabilityImpactToTheVulnerableSystem.all
  | .VC => ConfidentialityImpactToTheVulnerableSystem.all
  | .VI => IntegrityImpactToTheVulnerableSystem.all
  | .E => ExploitMaturity.all
  | .AR => AvailabilityRequirements.all
  | .CR => ConfidentialityRequirements.all
  | .IR => IntegrityRequirements.all
  | .MAC => ModifiedAttackComplexity.all
  | .MAT => ModifiedAttackRequirements.all
  | .MAV => ModifiedAttackVector.all
  | .MPR => ModifiedPrivilegesRequired.all
  | .MSA => ModifiedAvailabilityImpactToTheSubsequentSystem.all
  | .MSC => ModifiedConfidentialityImpactToTheSubsequentSystem.all
  | .MSI => ModifiedIntegrityImpactToTheSubsequentSystem.all
  | .MUI => ModifiedUserInteraction.all
  | .MVA => ModifiedAvailabilityImpactToTheVulnerableSystem.all
  | .MVC => ModifiedConfidentialityImpactToTheVulnerableSystem.all
  | .MVI => ModifiedIntegrityImpactToTheVulnerableSystem.all
  | .AU => Automatable.all
  | .R => Recovery.all
  | .RE => VulnerabilityResponseEffort.all
  | .S => Safety.all
  | .U => ProviderUrgency.all
  | .V => ValueDensity.all

theorem MetricType.mem_values : (m : MetricType) → (x : m.Val) → x ∈ m.values
  | .AC => AttackComplexity.mem_all
  | .AT => AttackRequirements.mem_all
  | .AV => AttackVector.mem_all
  | .PR => PrivilegesRequired.mem_all
  | .SA => AvailabilityImpactToTheSubsequentSystem.mem_all
  | .SC => ConfidentialityImpactToTheSubsequentSystem.mem_all
  | .SI => IntegrityImpactToTheSubsequentSystem.mem_all
  | .UI => UserInteraction.mem_all
  | .VA => AvailabilityImpactToTheVulnerableSystem.mem_all
  | .VC => ConfidentialityImpactToTheVulnerableSystem.mem_all
  | .VI => IntegrityImpactToTheVulnerableSystem.mem_all
  | .E => ExploitMaturity.mem_all
  | .AR => AvailabilityRequirements.mem_all
  | .CR => ConfidentialityRequirements.mem_all
  | .IR => IntegrityRequirements.mem_all
  | .MAC => ModifiedAttackComplexity.mem_all
  | .MAT => ModifiedAttackRequirements.mem_all
  | .MAV => ModifiedAttackVector.mem_all
  | .MPR => ModifiedPrivilegesRequired.mem_all
  | .MSA => ModifiedAvailabilityImpactToTheSubsequentSystem.mem_all
  | .MSC => ModifiedConfidentialityImpactToTheSubsequentSystem.mem_all
  | .MSI => ModifiedIntegrityImpactToTheSubsequentSystem.mem_all
  | .MUI => ModifiedUserInteraction.mem_all
  | .MVA => ModifiedAvailabilityImpactToTheVulnerableSystem.mem_all
  | .MVC => ModifiedConfidentialityImpactToTheVulnerableSystem.mem_all
  | .MVI => ModifiedIntegrityImpactToTheVulnerableSystem.mem_all
  | .AU => Automatable.mem_all
  | .R => Recovery.mem_all
  | .RE => VulnerabilityResponseEffort.mem_all
  | .S => Safety.mem_all
  | .U => ProviderUrgency.mem_all
  | .V => ValueDensity.mem_all

end Verif.Cvss.V4
