import Verif.Lemmas.CvssV4Mono

/-!
# CVSS v4: monotonicity, EQ by EQ
-/

namespace Verif.Cvss.V4

open Verif.Cvss.Spec

/-- The distances as functions. -/
def G1.d (x : G1) : ℕ := match (max1 x.cls).find? x.below with | some m => x.dist m | none => 0
def G2.d (x : G2) : ℕ := match (max2 x.cls).find? x.below with | some m => x.dist m | none => 0
def G36.d (x : G36) : ℕ := match (max36 x.cls3 x.cls6).find? x.below with | some m => x.dist m | none => 0
def G4.d (x : G4) : ℕ := match (max4 x.cls).find? x.below with | some m => x.dist m | none => 0

/-- `x` (before) and `y` (after) are in the same class and `y` is no nearer, or the change of class is covered by a
critical one. -/
def rel (crit : List (ℕ × ℕ × ℕ × ℕ)) (c d c' d' : ℕ) : Bool :=
  (c == c' && decide (d ≤ d')) || crit.any fun x => x.1 == c && x.2.2.1 == c' && decide (d ≤ x.2.1) && decide (x.2.2.2 ≤ d')

def G1.rel (x y : G1) : Bool := V4.rel crit1 x.cls x.d y.cls y.d
def G2.rel (x y : G2) : Bool := V4.rel crit2 x.cls x.d y.cls y.d
def G4.rel (x y : G4) : Bool := V4.rel crit4 x.cls x.d y.cls y.d
def G36.rel (x y : G36) : Bool :=
  (x.cls3 == y.cls3 && x.cls6 == y.cls6 && decide (x.d ≤ y.d)) ||
    crit36.any fun c => c.1.1 == x.cls3 && c.1.2 == x.cls6 && c.2.2.1.1 == y.cls3 && c.2.2.1.2 == y.cls6 &&
      decide (x.d ≤ c.2.1) && decide (c.2.2.2 ≤ y.d)

theorem rel1_av : ∀ b ∈ MergedPrivilegesRequired.all, ∀ c ∈ MergedUserInteraction.all,
    ∀ x ∈ MergedAttackVector.all, ∀ y ∈ MergedAttackVector.all, stepAV x.letter ≤ stepAV y.letter →
    G1.rel ⟨x, b, c⟩ ⟨y, b, c⟩ = true := by decide +kernel
theorem rel1_pr : ∀ a ∈ MergedAttackVector.all, ∀ c ∈ MergedUserInteraction.all,
    ∀ x ∈ MergedPrivilegesRequired.all, ∀ y ∈ MergedPrivilegesRequired.all, stepPR x.letter ≤ stepPR y.letter →
    G1.rel ⟨a, x, c⟩ ⟨a, y, c⟩ = true := by decide +kernel
theorem rel1_ui : ∀ a ∈ MergedAttackVector.all, ∀ b ∈ MergedPrivilegesRequired.all,
    ∀ x ∈ MergedUserInteraction.all, ∀ y ∈ MergedUserInteraction.all, stepUI x.letter ≤ stepUI y.letter →
    G1.rel ⟨a, b, x⟩ ⟨a, b, y⟩ = true := by decide +kernel
theorem rel2_ac : ∀ b ∈ MergedAttackRequirements.all,
    ∀ x ∈ MergedAttackComplexity.all, ∀ y ∈ MergedAttackComplexity.all, stepAC x.letter ≤ stepAC y.letter →
    G2.rel ⟨x, b⟩ ⟨y, b⟩ = true := by decide +kernel
theorem rel2_at : ∀ a ∈ MergedAttackComplexity.all,
    ∀ x ∈ MergedAttackRequirements.all, ∀ y ∈ MergedAttackRequirements.all, stepAT x.letter ≤ stepAT y.letter →
    G2.rel ⟨a, x⟩ ⟨a, y⟩ = true := by decide +kernel
theorem rel4_sc : ∀ b ∈ MergedIntegrityImpactToTheSubsequentSystem.all,
    ∀ c ∈ MergedAvailabilityImpactToTheSubsequentSystem.all,
    ∀ x ∈ MergedConfidentialityImpactToTheSubsequentSystem.all,
    ∀ y ∈ MergedConfidentialityImpactToTheSubsequentSystem.all, stepS x.letter ≤ stepS y.letter →
    G4.rel ⟨x, b, c⟩ ⟨y, b, c⟩ = true := by decide +kernel
theorem rel4_si : ∀ a ∈ MergedConfidentialityImpactToTheSubsequentSystem.all,
    ∀ c ∈ MergedAvailabilityImpactToTheSubsequentSystem.all,
    ∀ x ∈ MergedIntegrityImpactToTheSubsequentSystem.all,
    ∀ y ∈ MergedIntegrityImpactToTheSubsequentSystem.all, stepS x.letter ≤ stepS y.letter →
    G4.rel ⟨a, x, c⟩ ⟨a, y, c⟩ = true := by decide +kernel
theorem rel4_sa : ∀ a ∈ MergedConfidentialityImpactToTheSubsequentSystem.all,
    ∀ b ∈ MergedIntegrityImpactToTheSubsequentSystem.all,
    ∀ x ∈ MergedAvailabilityImpactToTheSubsequentSystem.all,
    ∀ y ∈ MergedAvailabilityImpactToTheSubsequentSystem.all, stepS x.letter ≤ stepS y.letter →
    G4.rel ⟨a, b, x⟩ ⟨a, b, y⟩ = true := by decide +kernel

section
open MergedConfidentialityImpactToTheVulnerableSystem renaming all → vcs
open MergedIntegrityImpactToTheVulnerableSystem renaming all → vis
open MergedAvailabilityImpactToTheVulnerableSystem renaming all → vas
open MergedConfidentialityRequirements renaming all → crs
open MergedIntegrityRequirements renaming all → irs
open MergedAvailabilityRequirements renaming all → ars

theorem rel36_vc : ∀ b ∈ vis, ∀ c ∈ vas, ∀ d ∈ crs, ∀ e ∈ irs, ∀ f ∈ ars, ∀ x ∈ vcs, ∀ y ∈ vcs,
    stepV x.letter ≤ stepV y.letter → G36.rel ⟨x, b, c, d, e, f⟩ ⟨y, b, c, d, e, f⟩ = true := by decide +kernel
theorem rel36_vi : ∀ a ∈ vcs, ∀ c ∈ vas, ∀ d ∈ crs, ∀ e ∈ irs, ∀ f ∈ ars, ∀ x ∈ vis, ∀ y ∈ vis,
    stepV x.letter ≤ stepV y.letter → G36.rel ⟨a, x, c, d, e, f⟩ ⟨a, y, c, d, e, f⟩ = true := by decide +kernel
theorem rel36_va : ∀ a ∈ vcs, ∀ b ∈ vis, ∀ d ∈ crs, ∀ e ∈ irs, ∀ f ∈ ars, ∀ x ∈ vas, ∀ y ∈ vas,
    stepV x.letter ≤ stepV y.letter → G36.rel ⟨a, b, x, d, e, f⟩ ⟨a, b, y, d, e, f⟩ = true := by decide +kernel
theorem rel36_cr : ∀ a ∈ vcs, ∀ b ∈ vis, ∀ c ∈ vas, ∀ e ∈ irs, ∀ f ∈ ars, ∀ x ∈ crs, ∀ y ∈ crs,
    stepR x.letter ≤ stepR y.letter → G36.rel ⟨a, b, c, x, e, f⟩ ⟨a, b, c, y, e, f⟩ = true := by decide +kernel
theorem rel36_ir : ∀ a ∈ vcs, ∀ b ∈ vis, ∀ c ∈ vas, ∀ d ∈ crs, ∀ f ∈ ars, ∀ x ∈ irs, ∀ y ∈ irs,
    stepR x.letter ≤ stepR y.letter → G36.rel ⟨a, b, c, d, x, f⟩ ⟨a, b, c, d, y, f⟩ = true := by decide +kernel
theorem rel36_ar : ∀ a ∈ vcs, ∀ b ∈ vis, ∀ c ∈ vas, ∀ d ∈ crs, ∀ e ∈ irs, ∀ x ∈ ars, ∀ y ∈ ars,
    stepR x.letter ≤ stepR y.letter → G36.rel ⟨a, b, c, d, e, x⟩ ⟨a, b, c, d, e, y⟩ = true := by decide +kernel
end

end Verif.Cvss.V4
