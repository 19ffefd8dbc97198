import Verif.Model.Str

/-!
# CVSS v3 metrics

Generated from the Rust source by `/verif/tools/gen_cvss.py`: one inductive type per Rust enum, and its
`as_str`, `FromStr`, weight, level and merge tables.  A Rust `match` on string literals is a table looked up
from the top (`lookupStr`).
-/

namespace Verif.Cvss.V3

/-- `Availability`: cvss/src/v3/base/a.rs:24-57. -/
inductive Availability where
  | none
  | low
  | high
  deriving DecidableEq, Repr

/-- All values of `Availability`, in declaration order. -/
def Availability.all : List Availability := [.none, .low, .high]

theorem Availability.mem_all : ∀ x : Availability, x ∈ Availability.all := by intro x; cases x <;> decide

/-- `Availability::as_str`: cvss/src/v3/base/a.rs:59-77. -/
def Availability.asStr : Availability → Str
  | .none => "N".toList
  | .low => "L".toList
  | .high => "H".toList

/-- `Availability::score` (the decimal literal; rounding is applied where it is used): cvss/src/v3/base/a.rs:59-77. -/
def Availability.score : Availability → Rat
  | .none => 0
  | .low => 22 / 100
  | .high => 56 / 100

/-- `Availability::from_str`: cvss/src/v3/base/a.rs:85-99. -/
def Availability.table : List (Str × Availability) :=
  [("N".toList, .none), ("L".toList, .low), ("H".toList, .high)]

/-- `AttackComplexity`: cvss/src/v3/base/ac.rs:23-51. -/
inductive AttackComplexity where
  | high
  | low
  deriving DecidableEq, Repr

/-- All values of `AttackComplexity`, in declaration order. -/
def AttackComplexity.all : List AttackComplexity := [.high, .low]

theorem AttackComplexity.mem_all : ∀ x : AttackComplexity, x ∈ AttackComplexity.all := by intro x; cases x <;> decide

/-- `AttackComplexity::as_str`: cvss/src/v3/base/ac.rs:60-76. -/
def AttackComplexity.asStr : AttackComplexity → Str
  | .high => "H".toList
  | .low => "L".toList

/-- `AttackComplexity::score` (the decimal literal; rounding is applied where it is used): cvss/src/v3/base/ac.rs:60-76. -/
def AttackComplexity.score : AttackComplexity → Rat
  | .high => 44 / 100
  | .low => 77 / 100

/-- `AttackComplexity::from_str`: cvss/src/v3/base/ac.rs:84-97. -/
def AttackComplexity.table : List (Str × AttackComplexity) :=
  [("H".toList, .high), ("L".toList, .low)]

/-- `AttackVector`: cvss/src/v3/base/av.rs:21-70. -/
inductive AttackVector where
  | physical
  | local
  | adjacent
  | network
  deriving DecidableEq, Repr

/-- All values of `AttackVector`, in declaration order. -/
def AttackVector.all : List AttackVector := [.physical, .local, .adjacent, .network]

theorem AttackVector.mem_all : ∀ x : AttackVector, x ∈ AttackVector.all := by intro x; cases x <;> decide

/-- `AttackVector::as_str`: cvss/src/v3/base/av.rs:72-92. -/
def AttackVector.asStr : AttackVector → Str
  | .physical => "P".toList
  | .local => "L".toList
  | .adjacent => "A".toList
  | .network => "N".toList

/-- `AttackVector::score` (the decimal literal; rounding is applied where it is used): cvss/src/v3/base/av.rs:72-92. -/
def AttackVector.score : AttackVector → Rat
  | .physical => 2 / 10
  | .local => 55 / 100
  | .adjacent => 62 / 100
  | .network => 85 / 100

/-- `AttackVector::from_str`: cvss/src/v3/base/av.rs:100-115. -/
def AttackVector.table : List (Str × AttackVector) :=
  [("P".toList, .physical), ("L".toList, .local), ("A".toList, .adjacent), ("N".toList, .network)]

/-- `Confidentiality`: cvss/src/v3/base/c.rs:19-43. -/
inductive Confidentiality where
  | none
  | low
  | high
  deriving DecidableEq, Repr

/-- All values of `Confidentiality`, in declaration order. -/
def Confidentiality.all : List Confidentiality := [.none, .low, .high]

theorem Confidentiality.mem_all : ∀ x : Confidentiality, x ∈ Confidentiality.all := by intro x; cases x <;> decide

/-- `Confidentiality::as_str`: cvss/src/v3/base/c.rs:45-63. -/
def Confidentiality.asStr : Confidentiality → Str
  | .none => "N".toList
  | .low => "L".toList
  | .high => "H".toList

/-- `Confidentiality::score` (the decimal literal; rounding is applied where it is used): cvss/src/v3/base/c.rs:45-63. -/
def Confidentiality.score : Confidentiality → Rat
  | .none => 0
  | .low => 22 / 100
  | .high => 56 / 100

/-- `Confidentiality::from_str`: cvss/src/v3/base/c.rs:71-85. -/
def Confidentiality.table : List (Str × Confidentiality) :=
  [("N".toList, .none), ("L".toList, .low), ("H".toList, .high)]

/-- `Integrity`: cvss/src/v3/base/i.rs:17-39. -/
inductive Integrity where
  | none
  | low
  | high
  deriving DecidableEq, Repr

/-- All values of `Integrity`, in declaration order. -/
def Integrity.all : List Integrity := [.none, .low, .high]

theorem Integrity.mem_all : ∀ x : Integrity, x ∈ Integrity.all := by intro x; cases x <;> decide

/-- `Integrity::as_str`: cvss/src/v3/base/i.rs:41-59. -/
def Integrity.asStr : Integrity → Str
  | .none => "N".toList
  | .low => "L".toList
  | .high => "H".toList

/-- `Integrity::score` (the decimal literal; rounding is applied where it is used): cvss/src/v3/base/i.rs:41-59. -/
def Integrity.score : Integrity → Rat
  | .none => 0
  | .low => 22 / 100
  | .high => 56 / 100

/-- `Integrity::from_str`: cvss/src/v3/base/i.rs:67-81. -/
def Integrity.table : List (Str × Integrity) :=
  [("N".toList, .none), ("L".toList, .low), ("H".toList, .high)]

/-- `PrivilegesRequired`: cvss/src/v3/base/pr.rs:16-38. -/
inductive PrivilegesRequired where
  | high
  | low
  | none
  deriving DecidableEq, Repr

/-- All values of `PrivilegesRequired`, in declaration order. -/
def PrivilegesRequired.all : List PrivilegesRequired := [.high, .low, .none]

theorem PrivilegesRequired.mem_all : ∀ x : PrivilegesRequired, x ∈ PrivilegesRequired.all := by intro x; cases x <;> decide

/-- `PrivilegesRequired::as_str`: cvss/src/v3/base/pr.rs:63-77. -/
def PrivilegesRequired.asStr : PrivilegesRequired → Str
  | .high => "H".toList
  | .low => "L".toList
  | .none => "N".toList

/-- `PrivilegesRequired::from_str`: cvss/src/v3/base/pr.rs:85-99. -/
def PrivilegesRequired.table : List (Str × PrivilegesRequired) :=
  [("H".toList, .high), ("L".toList, .low), ("N".toList, .none)]

/-- `Scope`: cvss/src/v3/base/s.rs:38-54. -/
inductive Scope where
  | unchanged
  | changed
  deriving DecidableEq, Repr

/-- All values of `Scope`, in declaration order. -/
def Scope.all : List Scope := [.unchanged, .changed]

theorem Scope.mem_all : ∀ x : Scope, x ∈ Scope.all := by intro x; cases x <;> decide

/-- `Scope::as_str`: cvss/src/v3/base/s.rs:63-76. -/
def Scope.asStr : Scope → Str
  | .unchanged => "U".toList
  | .changed => "C".toList

/-- `Scope::from_str`: cvss/src/v3/base/s.rs:84-97. -/
def Scope.table : List (Str × Scope) :=
  [("U".toList, .unchanged), ("C".toList, .changed)]

/-- `UserInteraction`: cvss/src/v3/base/ui.rs:19-32. -/
inductive UserInteraction where
  | required
  | none
  deriving DecidableEq, Repr

/-- All values of `UserInteraction`, in declaration order. -/
def UserInteraction.all : List UserInteraction := [.required, .none]

theorem UserInteraction.mem_all : ∀ x : UserInteraction, x ∈ UserInteraction.all := by intro x; cases x <;> decide

/-- `UserInteraction::as_str`: cvss/src/v3/base/ui.rs:34-50. -/
def UserInteraction.asStr : UserInteraction → Str
  | .required => "R".toList
  | .none => "N".toList

/-- `UserInteraction::score` (the decimal literal; rounding is applied where it is used): cvss/src/v3/base/ui.rs:34-50. -/
def UserInteraction.score : UserInteraction → Rat
  | .required => 62 / 100
  | .none => 85 / 100

/-- `UserInteraction::from_str`: cvss/src/v3/base/ui.rs:58-71. -/
def UserInteraction.table : List (Str × UserInteraction) :=
  [("R".toList, .required), ("N".toList, .none)]

/-- `MetricType`: cvss/src/v3/metric.rs:30-54. -/
inductive MetricType where
  | A
  | AC
  | AV
  | C
  | I
  | PR
  | S
  | UI
  deriving DecidableEq, Repr

/-- All metric types, in declaration order. -/
def MetricType.all : List MetricType := [.A, .AC, .AV, .C, .I, .PR, .S, .UI]

theorem MetricType.mem_all : ∀ m : MetricType, m ∈ MetricType.all := by intro m; cases m <;> decide

/-- `MetricType::name`: cvss/src/v3/metric.rs:56-84. -/
def MetricType.name : MetricType → Str
  | .A => "A".toList
  | .AC => "AC".toList
  | .AV => "AV".toList
  | .C => "C".toList
  | .I => "I".toList
  | .PR => "PR".toList
  | .S => "S".toList
  | .UI => "UI".toList

/-- `MetricType::from_str`: cvss/src/v3/metric.rs:92-108. -/
def MetricType.table : List (Str × MetricType) :=
  [("A".toList, .A), ("AC".toList, .AC), ("AV".toList, .AV), ("C".toList, .C), ("I".toList, .I), ("PR".toList, .PR), ("S".toList, .S), ("UI".toList, .UI)]

/-- The value type of each metric (`const TYPE` of the metric files; the field types of the vector). -/
abbrev MetricType.Val : MetricType → Type
  | .A => Availability
  | .AC => AttackComplexity
  | .AV => AttackVector
  | .C => Confidentiality
  | .I => Integrity
  | .PR => PrivilegesRequired
  | .S => Scope
  | .UI => UserInteraction

instance (m : MetricType) : DecidableEq m.Val := by cases m <;> (simp only [MetricType.Val]; infer_instance)

/-- `as_str` of each metric. -/
def MetricType.asStr : (m : MetricType) → m.Val → Str
  | .A => Availability.asStr
  | .AC => AttackComplexity.asStr
  | .AV => AttackVector.asStr
  | .C => Confidentiality.asStr
  | .I => Integrity.asStr
  | .PR => PrivilegesRequired.asStr
  | .S => Scope.asStr
  | .UI => UserInteraction.asStr

/-- `FromStr` table of each metric. -/
def MetricType.valueTable : (m : MetricType) → List (Str × m.Val)
  | .A => Availability.table
  | .AC => AttackComplexity.table
  | .AV => AttackVector.table
  | .C => Confidentiality.table
  | .I => Integrity.table
  | .PR => PrivilegesRequired.table
  | .S => Scope.table
  | .UI => UserInteraction.table

/-- all values of each metric. -/
def MetricType.values : (m : MetricType) → List m.Val
  | .A => Availability.all
  | .AC => AttackComplexity.all
  | .AV => AttackVector.all
  | .C => Confidentiality.all
  | .I => Integrity.all
  | .PR => PrivilegesRequired.all
  | .S => Scope.all
  | .UI => UserInteraction.all

theorem MetricType.mem_values : (m : MetricType) → (x : m.Val) → x ∈ m.values
  | .A => Availability.mem_all
  | .AC => AttackComplexity.mem_all
  | .AV => AttackVector.mem_all
  | .C => Confidentiality.mem_all
  | .I => Integrity.mem_all
  | .PR => PrivilegesRequired.mem_all
  | .S => Scope.mem_all
  | .UI => UserInteraction.mem_all

end Verif.Cvss.V3
