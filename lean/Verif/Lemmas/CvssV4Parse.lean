import Verif.Model.CvssV4Score
import Verif.Spec.CvssScore

/-!
# CVSS v4: the composed highest severity vectors and the letters of a scoring vector
-/

namespace Verif.Cvss.V4

open Verif.Cvss.Spec

/-- The letter of a value of `AV`. -/
def MergedAttackVector.letter : MergedAttackVector → Char
  | .network => 'N'
  | .adjacent => 'A'
  | .local => 'L'
  | .physical => 'P'

theorem MergedAttackVector.level_step (x : MergedAttackVector) : x.level = (stepAV x.letter : ℕ) / 10 := by
  cases x <;> simp [MergedAttackVector.level, MergedAttackVector.letter, stepAV]

theorem set_av (z : ScoringVector) (x : MergedAttackVector) :
    z.setComposed ("AV".toList, [x.letter]) = .ok { z with av := x } := by
  cases x <;> rfl

theorem MergedAttackVector.letter_ok (x : MergedAttackVector) : x.letter ≠ '/' ∧ x.letter ≠ ':' := by
  cases x <;> decide

theorem MergedAttackVector.letter_inj {x y : MergedAttackVector} (h : x.letter = y.letter) : x = y := by
  revert h; cases x <;> cases y <;> decide

/-- The letter of a value of `PR`. -/
def MergedPrivilegesRequired.letter : MergedPrivilegesRequired → Char
  | .none => 'N'
  | .low => 'L'
  | .high => 'H'

theorem MergedPrivilegesRequired.level_step (x : MergedPrivilegesRequired) : x.level = (stepPR x.letter : ℕ) / 10 := by
  cases x <;> simp [MergedPrivilegesRequired.level, MergedPrivilegesRequired.letter, stepPR]

theorem set_pr (z : ScoringVector) (x : MergedPrivilegesRequired) :
    z.setComposed ("PR".toList, [x.letter]) = .ok { z with pr := x } := by
  cases x <;> rfl

theorem MergedPrivilegesRequired.letter_ok (x : MergedPrivilegesRequired) : x.letter ≠ '/' ∧ x.letter ≠ ':' := by
  cases x <;> decide

theorem MergedPrivilegesRequired.letter_inj {x y : MergedPrivilegesRequired} (h : x.letter = y.letter) : x = y := by
  revert h; cases x <;> cases y <;> decide

/-- The letter of a value of `UI`. -/
def MergedUserInteraction.letter : MergedUserInteraction → Char
  | .none => 'N'
  | .passive => 'P'
  | .active => 'A'

theorem MergedUserInteraction.level_step (x : MergedUserInteraction) : x.level = (stepUI x.letter : ℕ) / 10 := by
  cases x <;> simp [MergedUserInteraction.level, MergedUserInteraction.letter, stepUI]

theorem set_ui (z : ScoringVector) (x : MergedUserInteraction) :
    z.setComposed ("UI".toList, [x.letter]) = .ok { z with ui := x } := by
  cases x <;> rfl

theorem MergedUserInteraction.letter_ok (x : MergedUserInteraction) : x.letter ≠ '/' ∧ x.letter ≠ ':' := by
  cases x <;> decide

theorem MergedUserInteraction.letter_inj {x y : MergedUserInteraction} (h : x.letter = y.letter) : x = y := by
  revert h; cases x <;> cases y <;> decide

/-- The letter of a value of `AC`. -/
def MergedAttackComplexity.letter : MergedAttackComplexity → Char
  | .low => 'L'
  | .high => 'H'

theorem MergedAttackComplexity.level_step (x : MergedAttackComplexity) : x.level = (stepAC x.letter : ℕ) / 10 := by
  cases x <;> simp [MergedAttackComplexity.level, MergedAttackComplexity.letter, stepAC]

theorem set_ac (z : ScoringVector) (x : MergedAttackComplexity) :
    z.setComposed ("AC".toList, [x.letter]) = .ok { z with ac := x } := by
  cases x <;> rfl

theorem MergedAttackComplexity.letter_ok (x : MergedAttackComplexity) : x.letter ≠ '/' ∧ x.letter ≠ ':' := by
  cases x <;> decide

theorem MergedAttackComplexity.letter_inj {x y : MergedAttackComplexity} (h : x.letter = y.letter) : x = y := by
  revert h; cases x <;> cases y <;> decide

/-- The letter of a value of `AT`. -/
def MergedAttackRequirements.letter : MergedAttackRequirements → Char
  | .none => 'N'
  | .present => 'P'

theorem MergedAttackRequirements.level_step (x : MergedAttackRequirements) : x.level = (stepAT x.letter : ℕ) / 10 := by
  cases x <;> simp [MergedAttackRequirements.level, MergedAttackRequirements.letter, stepAT]

theorem set_at_ (z : ScoringVector) (x : MergedAttackRequirements) :
    z.setComposed ("AT".toList, [x.letter]) = .ok { z with at_ := x } := by
  cases x <;> rfl

theorem MergedAttackRequirements.letter_ok (x : MergedAttackRequirements) : x.letter ≠ '/' ∧ x.letter ≠ ':' := by
  cases x <;> decide

theorem MergedAttackRequirements.letter_inj {x y : MergedAttackRequirements} (h : x.letter = y.letter) : x = y := by
  revert h; cases x <;> cases y <;> decide

/-- The letter of a value of `VC`. -/
def MergedConfidentialityImpactToTheVulnerableSystem.letter : MergedConfidentialityImpactToTheVulnerableSystem → Char
  | .high => 'H'
  | .low => 'L'
  | .none => 'N'

theorem MergedConfidentialityImpactToTheVulnerableSystem.level_step (x : MergedConfidentialityImpactToTheVulnerableSystem) : x.level = (stepV x.letter : ℕ) / 10 := by
  cases x <;> simp [MergedConfidentialityImpactToTheVulnerableSystem.level, MergedConfidentialityImpactToTheVulnerableSystem.letter, stepV]

theorem set_vc (z : ScoringVector) (x : MergedConfidentialityImpactToTheVulnerableSystem) :
    z.setComposed ("VC".toList, [x.letter]) = .ok { z with vc := x } := by
  cases x <;> rfl

theorem MergedConfidentialityImpactToTheVulnerableSystem.letter_ok (x : MergedConfidentialityImpactToTheVulnerableSystem) : x.letter ≠ '/' ∧ x.letter ≠ ':' := by
  cases x <;> decide

theorem MergedConfidentialityImpactToTheVulnerableSystem.letter_inj {x y : MergedConfidentialityImpactToTheVulnerableSystem} (h : x.letter = y.letter) : x = y := by
  revert h; cases x <;> cases y <;> decide

/-- The letter of a value of `VI`. -/
def MergedIntegrityImpactToTheVulnerableSystem.letter : MergedIntegrityImpactToTheVulnerableSystem → Char
  | .high => 'H'
  | .low => 'L'
  | .none => 'N'

theorem MergedIntegrityImpactToTheVulnerableSystem.level_step (x : MergedIntegrityImpactToTheVulnerableSystem) : x.level = (stepV x.letter : ℕ) / 10 := by
  cases x <;> simp [MergedIntegrityImpactToTheVulnerableSystem.level, MergedIntegrityImpactToTheVulnerableSystem.letter, stepV]

theorem set_vi (z : ScoringVector) (x : MergedIntegrityImpactToTheVulnerableSystem) :
    z.setComposed ("VI".toList, [x.letter]) = .ok { z with vi := x } := by
  cases x <;> rfl

theorem MergedIntegrityImpactToTheVulnerableSystem.letter_ok (x : MergedIntegrityImpactToTheVulnerableSystem) : x.letter ≠ '/' ∧ x.letter ≠ ':' := by
  cases x <;> decide

theorem MergedIntegrityImpactToTheVulnerableSystem.letter_inj {x y : MergedIntegrityImpactToTheVulnerableSystem} (h : x.letter = y.letter) : x = y := by
  revert h; cases x <;> cases y <;> decide

/-- The letter of a value of `VA`. -/
def MergedAvailabilityImpactToTheVulnerableSystem.letter : MergedAvailabilityImpactToTheVulnerableSystem → Char
  | .high => 'H'
  | .low => 'L'
  | .none => 'N'

theorem MergedAvailabilityImpactToTheVulnerableSystem.level_step (x : MergedAvailabilityImpactToTheVulnerableSystem) : x.level = (stepV x.letter : ℕ) / 10 := by
  cases x <;> simp [MergedAvailabilityImpactToTheVulnerableSystem.level, MergedAvailabilityImpactToTheVulnerableSystem.letter, stepV]

theorem set_va (z : ScoringVector) (x : MergedAvailabilityImpactToTheVulnerableSystem) :
    z.setComposed ("VA".toList, [x.letter]) = .ok { z with va := x } := by
  cases x <;> rfl

theorem MergedAvailabilityImpactToTheVulnerableSystem.letter_ok (x : MergedAvailabilityImpactToTheVulnerableSystem) : x.letter ≠ '/' ∧ x.letter ≠ ':' := by
  cases x <;> decide

theorem MergedAvailabilityImpactToTheVulnerableSystem.letter_inj {x y : MergedAvailabilityImpactToTheVulnerableSystem} (h : x.letter = y.letter) : x = y := by
  revert h; cases x <;> cases y <;> decide

/-- The letter of a value of `CR`. -/
def MergedConfidentialityRequirements.letter : MergedConfidentialityRequirements → Char
  | .high => 'H'
  | .medium => 'M'
  | .low => 'L'

theorem MergedConfidentialityRequirements.level_step (x : MergedConfidentialityRequirements) : x.level = (stepR x.letter : ℕ) / 10 := by
  cases x <;> simp [MergedConfidentialityRequirements.level, MergedConfidentialityRequirements.letter, stepR]

theorem set_cr (z : ScoringVector) (x : MergedConfidentialityRequirements) :
    z.setComposed ("CR".toList, [x.letter]) = .ok { z with cr := x } := by
  cases x <;> rfl

theorem MergedConfidentialityRequirements.letter_ok (x : MergedConfidentialityRequirements) : x.letter ≠ '/' ∧ x.letter ≠ ':' := by
  cases x <;> decide

theorem MergedConfidentialityRequirements.letter_inj {x y : MergedConfidentialityRequirements} (h : x.letter = y.letter) : x = y := by
  revert h; cases x <;> cases y <;> decide

/-- The letter of a value of `IR`. -/
def MergedIntegrityRequirements.letter : MergedIntegrityRequirements → Char
  | .high => 'H'
  | .medium => 'M'
  | .low => 'L'

theorem MergedIntegrityRequirements.level_step (x : MergedIntegrityRequirements) : x.level = (stepR x.letter : ℕ) / 10 := by
  cases x <;> simp [MergedIntegrityRequirements.level, MergedIntegrityRequirements.letter, stepR]

theorem set_ir (z : ScoringVector) (x : MergedIntegrityRequirements) :
    z.setComposed ("IR".toList, [x.letter]) = .ok { z with ir := x } := by
  cases x <;> rfl

theorem MergedIntegrityRequirements.letter_ok (x : MergedIntegrityRequirements) : x.letter ≠ '/' ∧ x.letter ≠ ':' := by
  cases x <;> decide

theorem MergedIntegrityRequirements.letter_inj {x y : MergedIntegrityRequirements} (h : x.letter = y.letter) : x = y := by
  revert h; cases x <;> cases y <;> decide

/-- The letter of a value of `AR`. -/
def MergedAvailabilityRequirements.letter : MergedAvailabilityRequirements → Char
  | .high => 'H'
  | .medium => 'M'
  | .low => 'L'

theorem MergedAvailabilityRequirements.level_step (x : MergedAvailabilityRequirements) : x.level = (stepR x.letter : ℕ) / 10 := by
  cases x <;> simp [MergedAvailabilityRequirements.level, MergedAvailabilityRequirements.letter, stepR]

theorem set_ar (z : ScoringVector) (x : MergedAvailabilityRequirements) :
    z.setComposed ("AR".toList, [x.letter]) = .ok { z with ar := x } := by
  cases x <;> rfl

theorem MergedAvailabilityRequirements.letter_ok (x : MergedAvailabilityRequirements) : x.letter ≠ '/' ∧ x.letter ≠ ':' := by
  cases x <;> decide

theorem MergedAvailabilityRequirements.letter_inj {x y : MergedAvailabilityRequirements} (h : x.letter = y.letter) : x = y := by
  revert h; cases x <;> cases y <;> decide

/-- The letter of a value of `SC`. -/
def MergedConfidentialityImpactToTheSubsequentSystem.letter : MergedConfidentialityImpactToTheSubsequentSystem → Char
  | .high => 'H'
  | .low => 'L'
  | .none => 'N'

theorem MergedConfidentialityImpactToTheSubsequentSystem.level_step (x : MergedConfidentialityImpactToTheSubsequentSystem) : x.level = (stepS x.letter : ℕ) / 10 := by
  cases x <;> simp [MergedConfidentialityImpactToTheSubsequentSystem.level, MergedConfidentialityImpactToTheSubsequentSystem.letter, stepS]

theorem set_sc (z : ScoringVector) (x : MergedConfidentialityImpactToTheSubsequentSystem) :
    z.setComposed ("SC".toList, [x.letter]) = .ok { z with sc := x } := by
  cases x <;> rfl

theorem MergedConfidentialityImpactToTheSubsequentSystem.letter_ok (x : MergedConfidentialityImpactToTheSubsequentSystem) : x.letter ≠ '/' ∧ x.letter ≠ ':' := by
  cases x <;> decide

theorem MergedConfidentialityImpactToTheSubsequentSystem.letter_inj {x y : MergedConfidentialityImpactToTheSubsequentSystem} (h : x.letter = y.letter) : x = y := by
  revert h; cases x <;> cases y <;> decide

/-- The letter of a value of `SI`. -/
def MergedIntegrityImpactToTheSubsequentSystem.letter : MergedIntegrityImpactToTheSubsequentSystem → Char
  | .safety => 'S'
  | .high => 'H'
  | .low => 'L'
  | .none => 'N'

theorem MergedIntegrityImpactToTheSubsequentSystem.level_step (x : MergedIntegrityImpactToTheSubsequentSystem) : x.level = (stepS x.letter : ℕ) / 10 := by
  cases x <;> simp [MergedIntegrityImpactToTheSubsequentSystem.level, MergedIntegrityImpactToTheSubsequentSystem.letter, stepS]

theorem set_si (z : ScoringVector) (x : MergedIntegrityImpactToTheSubsequentSystem) :
    z.setComposed ("SI".toList, [x.letter]) = .ok { z with si := x } := by
  cases x <;> rfl

theorem MergedIntegrityImpactToTheSubsequentSystem.letter_ok (x : MergedIntegrityImpactToTheSubsequentSystem) : x.letter ≠ '/' ∧ x.letter ≠ ':' := by
  cases x <;> decide

theorem MergedIntegrityImpactToTheSubsequentSystem.letter_inj {x y : MergedIntegrityImpactToTheSubsequentSystem} (h : x.letter = y.letter) : x = y := by
  revert h; cases x <;> cases y <;> decide

/-- The letter of a value of `SA`. -/
def MergedAvailabilityImpactToTheSubsequentSystem.letter : MergedAvailabilityImpactToTheSubsequentSystem → Char
  | .safety => 'S'
  | .high => 'H'
  | .low => 'L'
  | .none => 'N'

theorem MergedAvailabilityImpactToTheSubsequentSystem.level_step (x : MergedAvailabilityImpactToTheSubsequentSystem) : x.level = (stepS x.letter : ℕ) / 10 := by
  cases x <;> simp [MergedAvailabilityImpactToTheSubsequentSystem.level, MergedAvailabilityImpactToTheSubsequentSystem.letter, stepS]

theorem set_sa (z : ScoringVector) (x : MergedAvailabilityImpactToTheSubsequentSystem) :
    z.setComposed ("SA".toList, [x.letter]) = .ok { z with sa := x } := by
  cases x <;> rfl

theorem MergedAvailabilityImpactToTheSubsequentSystem.letter_ok (x : MergedAvailabilityImpactToTheSubsequentSystem) : x.letter ≠ '/' ∧ x.letter ≠ ':' := by
  cases x <;> decide

theorem MergedAvailabilityImpactToTheSubsequentSystem.letter_inj {x y : MergedAvailabilityImpactToTheSubsequentSystem} (h : x.letter = y.letter) : x = y := by
  revert h; cases x <;> cases y <;> decide

/-- The letter of a value of `E`. -/
def MergedExploitMaturity.letter : MergedExploitMaturity → Char
  | .attacked => 'A'
  | .proofOfConcept => 'P'
  | .unreported => 'U'

theorem MergedExploitMaturity.level_step (x : MergedExploitMaturity) : x.level = (stepE x.letter : ℕ) / 10 := by
  cases x <;> simp [MergedExploitMaturity.level, MergedExploitMaturity.letter, stepE]

theorem set_e (z : ScoringVector) (x : MergedExploitMaturity) :
    z.setComposed ("E".toList, [x.letter]) = .ok { z with e := x } := by
  cases x <;> rfl

theorem MergedExploitMaturity.letter_ok (x : MergedExploitMaturity) : x.letter ≠ '/' ∧ x.letter ≠ ':' := by
  cases x <;> decide

theorem MergedExploitMaturity.letter_inj {x y : MergedExploitMaturity} (h : x.letter = y.letter) : x = y := by
  revert h; cases x <;> cases y <;> decide

/-- The values of EQ1. -/
structure G1 where
  av : MergedAttackVector
  pr : MergedPrivilegesRequired
  ui : MergedUserInteraction
  deriving DecidableEq

/-- Its components in a vector string. -/
def G1.comps (a : G1) : List (Str × Str) := [("AV".toList, [a.av.letter]), ("PR".toList, [a.pr.letter]), ("UI".toList, [a.ui.letter])]

def G1.put (a : G1) (z : ScoringVector) : ScoringVector := { z with av := a.av, pr := a.pr, ui := a.ui }

def ScoringVector.g1 (z : ScoringVector) : G1 := ⟨z.av, z.pr, z.ui⟩

/-- The values of EQ2. -/
structure G2 where
  ac : MergedAttackComplexity
  at_ : MergedAttackRequirements
  deriving DecidableEq

/-- Its components in a vector string. -/
def G2.comps (a : G2) : List (Str × Str) := [("AC".toList, [a.ac.letter]), ("AT".toList, [a.at_.letter])]

def G2.put (a : G2) (z : ScoringVector) : ScoringVector := { z with ac := a.ac, at_ := a.at_ }

def ScoringVector.g2 (z : ScoringVector) : G2 := ⟨z.ac, z.at_⟩

/-- The values of EQ36. -/
structure G36 where
  vc : MergedConfidentialityImpactToTheVulnerableSystem
  vi : MergedIntegrityImpactToTheVulnerableSystem
  va : MergedAvailabilityImpactToTheVulnerableSystem
  cr : MergedConfidentialityRequirements
  ir : MergedIntegrityRequirements
  ar : MergedAvailabilityRequirements
  deriving DecidableEq

/-- Its components in a vector string. -/
def G36.comps (a : G36) : List (Str × Str) := [("VC".toList, [a.vc.letter]), ("VI".toList, [a.vi.letter]), ("VA".toList, [a.va.letter]), ("CR".toList, [a.cr.letter]), ("IR".toList, [a.ir.letter]), ("AR".toList, [a.ar.letter])]

def G36.put (a : G36) (z : ScoringVector) : ScoringVector := { z with vc := a.vc, vi := a.vi, va := a.va, cr := a.cr, ir := a.ir, ar := a.ar }

def ScoringVector.g36 (z : ScoringVector) : G36 := ⟨z.vc, z.vi, z.va, z.cr, z.ir, z.ar⟩

/-- The values of EQ4. -/
structure G4 where
  sc : MergedConfidentialityImpactToTheSubsequentSystem
  si : MergedIntegrityImpactToTheSubsequentSystem
  sa : MergedAvailabilityImpactToTheSubsequentSystem
  deriving DecidableEq

/-- Its components in a vector string. -/
def G4.comps (a : G4) : List (Str × Str) := [("SC".toList, [a.sc.letter]), ("SI".toList, [a.si.letter]), ("SA".toList, [a.sa.letter])]

def G4.put (a : G4) (z : ScoringVector) : ScoringVector := { z with sc := a.sc, si := a.si, sa := a.sa }

def ScoringVector.g4 (z : ScoringVector) : G4 := ⟨z.sc, z.si, z.sa⟩

/-- The values of EQ5. -/
structure G5 where
  e : MergedExploitMaturity
  deriving DecidableEq

/-- Its components in a vector string. -/
def G5.comps (a : G5) : List (Str × Str) := [("E".toList, [a.e.letter])]

def G5.put (a : G5) (z : ScoringVector) : ScoringVector := { z with e := a.e }

def ScoringVector.g5 (z : ScoringVector) : G5 := ⟨z.e⟩

/-- The highest severity values of EQ1. -/
def max1 : Nat → List G1
  | 0 => [⟨.network, .none, .none⟩]
  | 1 => [⟨.adjacent, .none, .none⟩, ⟨.network, .low, .none⟩, ⟨.network, .none, .passive⟩]
  | _ => [⟨.physical, .none, .none⟩, ⟨.adjacent, .low, .passive⟩]

/-- The highest severity values of EQ2. -/
def max2 : Nat → List G2
  | 0 => [⟨.low, .none⟩]
  | _ => [⟨.high, .none⟩, ⟨.low, .present⟩]

/-- The highest severity values of EQ3 and EQ6. -/
def max36 : Nat → Nat → List G36
  | 0, 0 => [⟨.high, .high, .high, .high, .high, .high⟩]
  | 0, _ => [⟨.high, .high, .low, .medium, .medium, .high⟩, ⟨.high, .high, .high, .medium, .medium, .medium⟩]
  | 1, 0 => [⟨.low, .high, .high, .high, .high, .high⟩, ⟨.high, .low, .high, .high, .high, .high⟩]
  | 1, _ => [⟨.low, .high, .low, .high, .medium, .high⟩, ⟨.low, .high, .high, .high, .medium, .medium⟩, ⟨.high, .low, .high, .medium, .high, .medium⟩, ⟨.high, .low, .low, .medium, .high, .high⟩, ⟨.low, .low, .high, .high, .high, .medium⟩]
  | _, _ => [⟨.low, .low, .low, .high, .high, .high⟩]

/-- The highest severity values of EQ4. -/
def max4 : Nat → List G4
  | 0 => [⟨.high, .safety, .safety⟩]
  | 1 => [⟨.high, .high, .high⟩]
  | _ => [⟨.low, .low, .low⟩]

/-- The highest severity values of EQ5. -/
def max5 : Nat → List G5
  | 0 => [⟨.attacked⟩]
  | 1 => [⟨.proofOfConcept⟩]
  | _ => [⟨.unreported⟩]

/-- Components as text, each followed by a slash. -/
def renderAll (cs : List (Str × Str)) : Str := cs.flatMap fun c => c.1 ++ ':' :: c.2 ++ ['/']

theorem max1_str : ∀ n < 3, maxComposed (.eq1 n) = .ok ((max1 n).map fun a => renderAll a.comps) := by decide +kernel
theorem max2_str : ∀ n < 2, maxComposed (.eq2 n) = .ok ((max2 n).map fun a => renderAll a.comps) := by decide +kernel
theorem max36_str : ∀ p ∈ [(0, 0), (0, 1), (1, 0), (1, 1), (2, 1)],
    maxComposed (.eq3eq6 p.1 p.2) = .ok ((max36 p.1 p.2).map fun a => renderAll a.comps) := by decide +kernel
theorem max4_str : ∀ n < 3, maxComposed (.eq4 n) = .ok ((max4 n).map fun a => renderAll a.comps) := by decide +kernel
theorem max5_str : ∀ n < 3, maxComposed (.eq5 n) = .ok ((max5 n).map fun a => renderAll a.comps) := by decide +kernel

/-- The letters that count. -/
def ScoringVector.eff (z : ScoringVector) : Eff where
  AV := z.av.letter
  PR := z.pr.letter
  UI := z.ui.letter
  AC := z.ac.letter
  AT := z.at_.letter
  VC := z.vc.letter
  VI := z.vi.letter
  VA := z.va.letter
  CR := z.cr.letter
  IR := z.ir.letter
  AR := z.ar.letter
  SC := z.sc.letter
  SI := z.si.letter
  SA := z.sa.letter
  E := z.e.letter

theorem setAll_append (z : ScoringVector) (l l' : List (Str × Str)) :
    z.setAll (l ++ l') = (z.setAll l) >>= fun z' => z'.setAll l' := by
  induction l generalizing z with
  | nil => rfl
  | cons c cs ih =>
    show (z.setComposed c).bind _ = ((z.setComposed c).bind _).bind _
    cases z.setComposed c with
    | ok z' => exact ih z'
    | err => rfl
    | panic => rfl

theorem setAll_cons_ok {z z' : ScoringVector} {c : Str × Str} (h : z.setComposed c = .ok z') (l : List (Str × Str)) :
    z.setAll (c :: l) = z'.setAll l := by
  show (z.setComposed c) >>= _ = _
  rw [h]
  rfl

theorem setAll_nil (z : ScoringVector) : z.setAll [] = .ok z := rfl

theorem put1 (a : G1) (z : ScoringVector) : z.setAll a.comps = .ok (a.put z) := by
  unfold G1.comps
  rw [setAll_cons_ok (set_av _ _), setAll_cons_ok (set_pr _ _), setAll_cons_ok (set_ui _ _)]; rfl

theorem put2 (a : G2) (z : ScoringVector) : z.setAll a.comps = .ok (a.put z) := by
  unfold G2.comps
  rw [setAll_cons_ok (set_ac _ _), setAll_cons_ok (set_at_ _ _)]; rfl

theorem put36 (a : G36) (z : ScoringVector) : z.setAll a.comps = .ok (a.put z) := by
  unfold G36.comps
  rw [setAll_cons_ok (set_vc _ _), setAll_cons_ok (set_vi _ _), setAll_cons_ok (set_va _ _),
    setAll_cons_ok (set_cr _ _), setAll_cons_ok (set_ir _ _), setAll_cons_ok (set_ar _ _)]; rfl

theorem put4 (a : G4) (z : ScoringVector) : z.setAll a.comps = .ok (a.put z) := by
  unfold G4.comps
  rw [setAll_cons_ok (set_sc _ _), setAll_cons_ok (set_si _ _), setAll_cons_ok (set_sa _ _)]; rfl

theorem put5 (a : G5) (z : ScoringVector) : z.setAll a.comps = .ok (a.put z) := by
  unfold G5.comps
  rw [setAll_cons_ok (set_e _ _)]; rfl

/-- A component that survives splitting. -/
def CompOk (c : Str × Str) : Prop := '/' ∉ c.1 ∧ ':' ∉ c.1 ∧ ∃ x, c.2 = [x] ∧ x ≠ '/' ∧ x ≠ ':'

theorem renderAll_cons (c : Str × Str) (cs : List (Str × Str)) :
    renderAll (c :: cs) = (c.1 ++ ':' :: c.2) ++ '/' :: renderAll cs := by
  simp [renderAll]

theorem renderAll_append (l l' : List (Str × Str)) : renderAll (l ++ l') = renderAll l ++ renderAll l' := by
  simp [renderAll]

theorem renderAll_join {cs : List (Str × Str)} (h : cs ≠ []) :
    renderAll cs = joinC '/' (cs.map fun c => c.1 ++ ':' :: c.2) ++ ['/'] := by
  induction cs with
  | nil => exact absurd rfl h
  | cons c cs ih =>
    rw [renderAll_cons]
    cases cs with
    | nil => simp [renderAll, joinC]
    | cons c' cs' =>
      rw [ih (by simp)]
      simp [joinC]

theorem trimSlash_append {s : Str} (h : s.getLast? ≠ some '/') : ScoringVector.trimSlash (s ++ ['/']) = s := by
  unfold ScoringVector.trimSlash
  rw [List.reverse_append]
  show (List.dropWhile _ ('/' :: s.reverse)).reverse = s
  rw [List.dropWhile_cons_of_pos (by decide)]
  rw [← List.head?_reverse] at h
  cases hs : s.reverse with
  | nil => simpa using hs.symm
  | cons x xs =>
    rw [hs] at h
    simp only [List.head?_cons, ne_eq, Option.some.injEq] at h
    rw [List.dropWhile_cons_of_neg (by simpa using h), ← hs, List.reverse_reverse]

theorem trimSlash_id {s : Str} (h : s.getLast? ≠ some '/') : ScoringVector.trimSlash s = s := by
  unfold ScoringVector.trimSlash
  rw [← List.head?_reverse] at h
  cases hs : s.reverse with
  | nil => simpa using hs.symm
  | cons x xs =>
    rw [hs] at h
    simp only [List.head?_cons, ne_eq, Option.some.injEq] at h
    rw [List.dropWhile_cons_of_neg (by simpa using h), ← hs, List.reverse_reverse]

theorem getLast_comp {c : Str × Str} (h : CompOk c) (s : Str) :
    (s ++ (c.1 ++ ':' :: c.2)).getLast? ≠ some '/' := by
  obtain ⟨_, _, x, hx, h1, _⟩ := h
  rw [hx]
  simpa using h1

theorem joinC_getLast {cs : List (Str × Str)} (h : cs ≠ []) (hok : ∀ c ∈ cs, CompOk c) :
    (joinC '/' (cs.map fun c => c.1 ++ ':' :: c.2)).getLast? ≠ some '/' := by
  induction cs with
  | nil => exact absurd rfl h
  | cons c cs ih =>
    cases cs with
    | nil => simpa [joinC] using getLast_comp (hok c (by simp)) []
    | cons c' cs' =>
      have := ih (by simp) (fun x hx => hok x (List.mem_cons_of_mem _ hx))
      show ((c.1 ++ ':' :: c.2) ++ '/' :: joinC '/' ((c' :: cs').map fun c => c.1 ++ ':' :: c.2)).getLast? ≠ _
      rw [List.getLast?_append, List.getLast?_cons]
      cases hl : (joinC '/' ((c' :: cs').map fun c => c.1 ++ ':' :: c.2)).getLast? with
      | none =>
        exfalso
        rw [List.getLast?_eq_none_iff] at hl
        obtain ⟨_, _, x, hx, _⟩ := hok c' (by simp)
        cases cs' <;> simp [joinC] at hl
      | some y =>
        rw [hl] at this
        simpa using this

theorem twoParts_comp {c : Str × Str} (h : CompOk c) : ScoringVector.twoParts (c.1 ++ ':' :: c.2) = .ok c := by
  obtain ⟨_, h2, x, hx, _, h3⟩ := h
  unfold ScoringVector.twoParts
  rw [splitC_append h2, hx, splitC_of_not_mem (by simpa using fun h => h3 h.symm)]
  show Outcome.ok (c.1, [x]) = _
  rw [← hx]

theorem mapList_twoParts {cs : List (Str × Str)} (hok : ∀ c ∈ cs, CompOk c) :
    Outcome.mapList ScoringVector.twoParts (cs.map fun c => c.1 ++ ':' :: c.2) = .ok cs := by
  induction cs with
  | nil => rfl
  | cons c cs ih =>
    simp only [List.map_cons, Outcome.mapList]
    rw [twoParts_comp (hok c (by simp)), ih fun x hx => hok x (List.mem_cons_of_mem _ hx)]

/-- The components come back from the text. -/
theorem from_renderAll {cs : List (Str × Str)} (h : cs ≠ []) (hok : ∀ c ∈ cs, CompOk c) :
    ScoringVector.fromMaxComposed (ScoringVector.trimSlash (renderAll cs)) = ScoringVector.default.setAll cs := by
  rw [renderAll_join h, trimSlash_append (joinC_getLast h hok)]
  unfold ScoringVector.fromMaxComposed
  rw [trimSlash_id (joinC_getLast h hok), splitC_joinC (by simpa using h)]
  · rw [mapList_twoParts hok]
    rfl
  · intro p hp
    rw [List.mem_map] at hp
    obtain ⟨c, hc, rfl⟩ := hp
    obtain ⟨h1, h2, x, hx, h3, _⟩ := hok c hc
    rw [hx]
    simpa [h1] using fun h => h3 h.symm

/-- A whole composed vector. -/
def composed (a : G1) (b : G2) (c : G36) (d : G4) (e : G5) : ScoringVector :=
  e.put (d.put (c.put (b.put (a.put ScoringVector.default))))

theorem comps_ok (a : G1) (b : G2) (c : G36) (d : G4) (e : G5) :
    ∀ x ∈ a.comps ++ b.comps ++ c.comps ++ d.comps ++ e.comps, CompOk x := by
  have key : ∀ (k : Str) (l : Char), '/' ∉ k → ':' ∉ k → l ≠ '/' ∧ l ≠ ':' → CompOk (k, [l]) :=
    fun k l h1 h2 h => ⟨h1, h2, l, rfl, h⟩
  intro x hx
  simp only [G1.comps, G2.comps, G36.comps, G4.comps, G5.comps, List.mem_append, List.mem_cons,
    List.not_mem_nil, or_false] at hx
  rcases hx with ((((h | h | h) | h | h) | h | h | h | h | h | h) | h | h | h) | h <;> subst h
  · exact key _ _ (by decide) (by decide) (MergedAttackVector.letter_ok _)
  · exact key _ _ (by decide) (by decide) (MergedPrivilegesRequired.letter_ok _)
  · exact key _ _ (by decide) (by decide) (MergedUserInteraction.letter_ok _)
  · exact key _ _ (by decide) (by decide) (MergedAttackComplexity.letter_ok _)
  · exact key _ _ (by decide) (by decide) (MergedAttackRequirements.letter_ok _)
  · exact key _ _ (by decide) (by decide) (MergedConfidentialityImpactToTheVulnerableSystem.letter_ok _)
  · exact key _ _ (by decide) (by decide) (MergedIntegrityImpactToTheVulnerableSystem.letter_ok _)
  · exact key _ _ (by decide) (by decide) (MergedAvailabilityImpactToTheVulnerableSystem.letter_ok _)
  · exact key _ _ (by decide) (by decide) (MergedConfidentialityRequirements.letter_ok _)
  · exact key _ _ (by decide) (by decide) (MergedIntegrityRequirements.letter_ok _)
  · exact key _ _ (by decide) (by decide) (MergedAvailabilityRequirements.letter_ok _)
  · exact key _ _ (by decide) (by decide) (MergedConfidentialityImpactToTheSubsequentSystem.letter_ok _)
  · exact key _ _ (by decide) (by decide) (MergedIntegrityImpactToTheSubsequentSystem.letter_ok _)
  · exact key _ _ (by decide) (by decide) (MergedAvailabilityImpactToTheSubsequentSystem.letter_ok _)
  · exact key _ _ (by decide) (by decide) (MergedExploitMaturity.letter_ok _)

theorem from_composed (a : G1) (b : G2) (c : G36) (d : G4) (e : G5) :
    ScoringVector.fromMaxComposed (ScoringVector.trimSlash
      (renderAll a.comps ++ renderAll b.comps ++ renderAll c.comps ++ renderAll d.comps ++ renderAll e.comps)) =
    .ok (composed a b c d e) := by
  rw [← renderAll_append, ← renderAll_append, ← renderAll_append, ← renderAll_append,
    from_renderAll (by simp [G1.comps]) (comps_ok a b c d e)]
  rw [setAll_append, setAll_append, setAll_append, setAll_append, put1]
  simp only [Outcome.bind_ok]
  rw [put2]
  simp only [Outcome.bind_ok]
  rw [put36]
  simp only [Outcome.bind_ok]
  rw [put4]
  simp only [Outcome.bind_ok]
  rw [put5]
  rfl

end Verif.Cvss.V4
