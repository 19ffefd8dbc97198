import Verif.Lemmas.CvssV4Eff
import Verif.Lemmas.CvssV2Score

/-!
# CVSS v4: the search for the highest severity vector, EQ by EQ
-/

namespace Verif.Cvss

open Verif.Cvss.Spec

theorem sub_tenth_near {F : Fp} (hF : F.Ok) {i j : ℕ} (hi : i ≤ 100) (hj : j ≤ 100) :
    Near 3 (F.sub (F.fl ((i : ℚ) / 10)) (F.fl ((j : ℚ) / 10))) (((i : ℚ) - j) / 10) := by
  have hi' : (i : ℚ) ≤ 100 := by exact_mod_cast hi
  have hj' : (j : ℚ) ≤ 100 := by exact_mod_cast hj
  have hi0 : (0 : ℚ) ≤ i := by positivity
  have hj0 : (0 : ℚ) ≤ j := by positivity
  have a : Near 1 (F.fl ((i : ℚ) / 10)) ((i : ℚ) / 10) :=
    Near.lit hF (A := 10) (by rw [abs_of_nonneg (by positivity)]; push_cast; linarith) (by norm_num)
  have b : Near 1 (F.fl ((j : ℚ) / 10)) ((j : ℚ) / 10) :=
    Near.lit hF (A := 10) (by rw [abs_of_nonneg (by positivity)]; push_cast; linarith) (by norm_num)
  have := Near.sub hF a b (A := 10) (by rw [abs_le]; push_cast; constructor <;> linarith) (by norm_num) (by norm_num)
  rw [show ((i : ℚ) - j) / 10 = (i : ℚ) / 10 - (j : ℚ) / 10 by ring]
  exact this.mono (by norm_num)

theorem sub_tenth_neg {F : Fp} (hF : F.Ok) {i j : ℕ} (hi : i ≤ 100) (hj : j ≤ 100) :
    F.sub (F.fl ((i : ℚ) / 10)) (F.fl ((j : ℚ) / 10)) < F.fl 0 ↔ i < j := by
  rw [fl_zero hF]
  have h := sub_tenth_near hF hi hj
  constructor
  · intro h'
    by_contra hn
    rcases Nat.eq_or_lt_of_le (Nat.not_lt.mp hn) with rfl | hlt
    · unfold Fp.sub at h'
      rw [sub_self, fl_zero hF] at h'
      exact lt_irrefl _ h'
    · have : (j : ℚ) + 1 ≤ i := by exact_mod_cast hlt
      have := near_pos h (by norm_num) (by linarith)
      linarith
  · intro h'
    have : (i : ℚ) + 1 ≤ j := by exact_mod_cast h'
    exact near_neg h (by norm_num) (by linarith)

theorem stepAV_le (c : Char) : stepAV c ≤ 100 := by unfold stepAV; split <;> norm_num
theorem stepPR_le (c : Char) : stepPR c ≤ 100 := by unfold stepPR; split <;> norm_num
theorem stepUI_le (c : Char) : stepUI c ≤ 100 := by unfold stepUI; split <;> norm_num
theorem stepAC_le (c : Char) : stepAC c ≤ 100 := by unfold stepAC; split <;> norm_num
theorem stepAT_le (c : Char) : stepAT c ≤ 100 := by unfold stepAT; split <;> norm_num
theorem stepV_le (c : Char) : stepV c ≤ 100 := by unfold stepV; split <;> norm_num
theorem stepS_le (c : Char) : stepS c ≤ 100 := by unfold stepS; split <;> norm_num
theorem stepR_le (c : Char) : stepR c ≤ 100 := by unfold stepR; split <;> norm_num

namespace V4

/-! ### The classes, EQ by EQ -/

def G1.cls (x : G1) : Nat :=
  if x.av = .network ∧ x.pr = .none ∧ x.ui = .none then 0
  else if (x.av = .network ∨ x.pr = .none ∨ x.ui = .none) ∧ x.av ≠ .physical then 1
  else 2

def G2.cls (x : G2) : Nat := if x.ac = .low ∧ x.at_ = .none then 0 else 1

def G36.cls3 (x : G36) : Nat :=
  if x.vc = .high ∧ x.vi = .high then 0 else if x.vc = .high ∨ x.vi = .high ∨ x.va = .high then 1 else 2

def G36.cls6 (x : G36) : Nat :=
  if (x.cr = .high ∧ x.vc = .high) ∨ (x.ir = .high ∧ x.vi = .high) ∨ (x.ar = .high ∧ x.va = .high) then 0 else 1

def G4.cls (x : G4) : Nat :=
  if x.si = .safety ∨ x.sa = .safety then 0 else if x.sc = .high ∨ x.si = .high ∨ x.sa = .high then 1 else 2

theorem eq1_cls (z : ScoringVector) : z.eq1 = z.g1.cls := rfl
theorem eq2_cls (z : ScoringVector) : z.eq2 = z.g2.cls := rfl
theorem eq3_cls (z : ScoringVector) : z.eq3 = z.g36.cls3 := rfl
theorem eq6_cls (z : ScoringVector) : z.eq6 = z.g36.cls6 := rfl
theorem eq4_cls (z : ScoringVector) : z.eq4 = z.g4.cls := rfl

/-! ### The letters -/

def G1.letters (x : G1) : List Char := [x.av.letter, x.pr.letter, x.ui.letter]
def G2.letters (x : G2) : List Char := [x.ac.letter, x.at_.letter]
def G36.letters (x : G36) : List Char :=
  [x.vc.letter, x.vi.letter, x.va.letter, x.cr.letter, x.ir.letter, x.ar.letter]
def G4.letters (x : G4) : List Char := [x.sc.letter, x.si.letter, x.sa.letter]

/-- `a` is nowhere less severe than `x`. -/
def G1.below (x a : G1) : Bool :=
  decide (stepAV a.av.letter ≤ stepAV x.av.letter ∧ stepPR a.pr.letter ≤ stepPR x.pr.letter ∧
    stepUI a.ui.letter ≤ stepUI x.ui.letter)
def G2.below (x a : G2) : Bool :=
  decide (stepAC a.ac.letter ≤ stepAC x.ac.letter ∧ stepAT a.at_.letter ≤ stepAT x.at_.letter)
def G36.below (x a : G36) : Bool :=
  decide (stepV a.vc.letter ≤ stepV x.vc.letter ∧ stepV a.vi.letter ≤ stepV x.vi.letter ∧
    stepV a.va.letter ≤ stepV x.va.letter ∧ stepR a.cr.letter ≤ stepR x.cr.letter ∧
    stepR a.ir.letter ≤ stepR x.ir.letter ∧ stepR a.ar.letter ≤ stepR x.ar.letter)
def G4.below (x a : G4) : Bool :=
  decide (stepS a.sc.letter ≤ stepS x.sc.letter ∧ stepS a.si.letter ≤ stepS x.si.letter ∧
    stepS a.sa.letter ≤ stepS x.sa.letter)

def G1.dist (x a : G1) : ℕ :=
  (stepAV x.av.letter - stepAV a.av.letter) + (stepPR x.pr.letter - stepPR a.pr.letter) +
    (stepUI x.ui.letter - stepUI a.ui.letter)
def G2.dist (x a : G2) : ℕ :=
  (stepAC x.ac.letter - stepAC a.ac.letter) + (stepAT x.at_.letter - stepAT a.at_.letter)
def G36.dist (x a : G36) : ℕ :=
  (stepV x.vc.letter - stepV a.vc.letter) + (stepV x.vi.letter - stepV a.vi.letter) +
    (stepV x.va.letter - stepV a.va.letter) + (stepR x.cr.letter - stepR a.cr.letter) +
    (stepR x.ir.letter - stepR a.ir.letter) + (stepR x.ar.letter - stepR a.ar.letter)
def G4.dist (x a : G4) : ℕ :=
  (stepS x.sc.letter - stepS a.sc.letter) + (stepS x.si.letter - stepS a.si.letter) +
    (stepS x.sa.letter - stepS a.sa.letter)

/-- The largest distances that occur. -/
def dmax1 : ℕ → ℕ | 0 => 0 | 1 => 3 | _ => 4
def dmax2 : ℕ → ℕ | 0 => 0 | _ => 1
def dmax36 : ℕ → ℕ → ℕ | 0, 0 => 6 | 0, _ => 5 | 1, _ => 7 | _, _ => 9
def dmax4 : ℕ → ℕ | 0 => 5 | 1 => 4 | _ => 3

theorem g1_all : ∀ a ∈ MergedAttackVector.all, ∀ b ∈ MergedPrivilegesRequired.all, ∀ c ∈ MergedUserInteraction.all,
    (⟨a, b, c⟩ : G1).cls < 3 ∧
    ∃ m ∈ max1 (⟨a, b, c⟩ : G1).cls, (max1 (⟨a, b, c⟩ : G1).cls).find? (G1.below ⟨a, b, c⟩) = some m ∧
      v4Distance [stepAV, stepPR, stepUI] (⟨a, b, c⟩ : G1).letters (v4Max1 (⟨a, b, c⟩ : G1).cls) =
        some (G1.dist ⟨a, b, c⟩ m) ∧ G1.dist ⟨a, b, c⟩ m ≤ dmax1 (⟨a, b, c⟩ : G1).cls := by
  decide +kernel

theorem g2_all : ∀ a ∈ MergedAttackComplexity.all, ∀ b ∈ MergedAttackRequirements.all,
    (⟨a, b⟩ : G2).cls < 2 ∧
    ∃ m ∈ max2 (⟨a, b⟩ : G2).cls, (max2 (⟨a, b⟩ : G2).cls).find? (G2.below ⟨a, b⟩) = some m ∧
      v4Distance [stepAC, stepAT] (⟨a, b⟩ : G2).letters (v4Max2 (⟨a, b⟩ : G2).cls) =
        some (G2.dist ⟨a, b⟩ m) ∧ G2.dist ⟨a, b⟩ m ≤ dmax2 (⟨a, b⟩ : G2).cls := by
  decide +kernel

theorem g4_all : ∀ a ∈ MergedConfidentialityImpactToTheSubsequentSystem.all,
    ∀ b ∈ MergedIntegrityImpactToTheSubsequentSystem.all, ∀ c ∈ MergedAvailabilityImpactToTheSubsequentSystem.all,
    (⟨a, b, c⟩ : G4).cls < 3 ∧
    ∃ m ∈ max4 (⟨a, b, c⟩ : G4).cls, (max4 (⟨a, b, c⟩ : G4).cls).find? (G4.below ⟨a, b, c⟩) = some m ∧
      v4Distance [stepS, stepS, stepS] (⟨a, b, c⟩ : G4).letters (v4Max4 (⟨a, b, c⟩ : G4).cls) =
        some (G4.dist ⟨a, b, c⟩ m) ∧ G4.dist ⟨a, b, c⟩ m ≤ dmax4 (⟨a, b, c⟩ : G4).cls := by
  decide +kernel

theorem g36_all : ∀ a ∈ MergedConfidentialityImpactToTheVulnerableSystem.all,
    ∀ b ∈ MergedIntegrityImpactToTheVulnerableSystem.all, ∀ c ∈ MergedAvailabilityImpactToTheVulnerableSystem.all,
    ∀ d ∈ MergedConfidentialityRequirements.all, ∀ e ∈ MergedIntegrityRequirements.all,
    ∀ f ∈ MergedAvailabilityRequirements.all,
    ((⟨a, b, c, d, e, f⟩ : G36).cls3, (⟨a, b, c, d, e, f⟩ : G36).cls6) ∈ [(0, 0), (0, 1), (1, 0), (1, 1), (2, 1)] ∧
    ∃ m ∈ max36 (⟨a, b, c, d, e, f⟩ : G36).cls3 (⟨a, b, c, d, e, f⟩ : G36).cls6,
      (max36 (⟨a, b, c, d, e, f⟩ : G36).cls3 (⟨a, b, c, d, e, f⟩ : G36).cls6).find? (G36.below ⟨a, b, c, d, e, f⟩) =
        some m ∧
      v4Distance [stepV, stepV, stepV, stepR, stepR, stepR] (⟨a, b, c, d, e, f⟩ : G36).letters
        (v4Max36 (⟨a, b, c, d, e, f⟩ : G36).cls3 (⟨a, b, c, d, e, f⟩ : G36).cls6) =
        some (G36.dist ⟨a, b, c, d, e, f⟩ m) ∧ G36.dist ⟨a, b, c, d, e, f⟩ m ≤
          dmax36 (⟨a, b, c, d, e, f⟩ : G36).cls3 (⟨a, b, c, d, e, f⟩ : G36).cls6 := by
  decide +kernel

theorem g1_ok (x : G1) : x.cls < 3 ∧ ∃ m ∈ max1 x.cls, (max1 x.cls).find? x.below = some m ∧
    v4Distance [stepAV, stepPR, stepUI] x.letters (v4Max1 x.cls) = some (x.dist m) ∧ x.dist m ≤ dmax1 x.cls :=
  g1_all x.av (MergedAttackVector.mem_all _) x.pr (MergedPrivilegesRequired.mem_all _) x.ui
    (MergedUserInteraction.mem_all _)

theorem g2_ok (x : G2) : x.cls < 2 ∧ ∃ m ∈ max2 x.cls, (max2 x.cls).find? x.below = some m ∧
    v4Distance [stepAC, stepAT] x.letters (v4Max2 x.cls) = some (x.dist m) ∧ x.dist m ≤ dmax2 x.cls :=
  g2_all x.ac (MergedAttackComplexity.mem_all _) x.at_ (MergedAttackRequirements.mem_all _)

theorem g4_ok (x : G4) : x.cls < 3 ∧ ∃ m ∈ max4 x.cls, (max4 x.cls).find? x.below = some m ∧
    v4Distance [stepS, stepS, stepS] x.letters (v4Max4 x.cls) = some (x.dist m) ∧ x.dist m ≤ dmax4 x.cls :=
  g4_all x.sc (MergedConfidentialityImpactToTheSubsequentSystem.mem_all _) x.si
    (MergedIntegrityImpactToTheSubsequentSystem.mem_all _) x.sa
    (MergedAvailabilityImpactToTheSubsequentSystem.mem_all _)

theorem g36_ok (x : G36) : (x.cls3, x.cls6) ∈ [(0, 0), (0, 1), (1, 0), (1, 1), (2, 1)] ∧
    ∃ m ∈ max36 x.cls3 x.cls6, (max36 x.cls3 x.cls6).find? x.below = some m ∧
    v4Distance [stepV, stepV, stepV, stepR, stepR, stepR] x.letters (v4Max36 x.cls3 x.cls6) = some (x.dist m) ∧
    x.dist m ≤ dmax36 x.cls3 x.cls6 :=
  g36_all x.vc (MergedConfidentialityImpactToTheVulnerableSystem.mem_all _) x.vi
    (MergedIntegrityImpactToTheVulnerableSystem.mem_all _) x.va
    (MergedAvailabilityImpactToTheVulnerableSystem.mem_all _) x.cr (MergedConfidentialityRequirements.mem_all _)
    x.ir (MergedIntegrityRequirements.mem_all _) x.ar (MergedAvailabilityRequirements.mem_all _)

/-! ### The search -/

theorem anyNegative_composed {F : Fp} (hF : F.Ok) (z : ScoringVector) (a : G1) (b : G2) (c : G36) (d : G4) (e : G5) :
    (distancesFrom F z (composed a b c d e)).anyNegative F =
      !(z.g1.below a && z.g2.below b && z.g36.below c && z.g4.below d) := by
  rw [Bool.eq_iff_iff]
  unfold Distances.anyNegative G1.below G2.below G36.below G4.below
  rw [decide_eq_true_iff, Bool.not_eq_true', Bool.and_eq_false_iff, Bool.and_eq_false_iff, Bool.and_eq_false_iff,
    decide_eq_false_iff_not, decide_eq_false_iff_not, decide_eq_false_iff_not, decide_eq_false_iff_not]
  unfold distancesFrom
  simp only [MergedAttackVector.level_step, MergedPrivilegesRequired.level_step, MergedUserInteraction.level_step,
    MergedAttackComplexity.level_step, MergedAttackRequirements.level_step,
    MergedConfidentialityImpactToTheVulnerableSystem.level_step,
    MergedIntegrityImpactToTheVulnerableSystem.level_step, MergedAvailabilityImpactToTheVulnerableSystem.level_step,
    MergedConfidentialityRequirements.level_step, MergedIntegrityRequirements.level_step,
    MergedAvailabilityRequirements.level_step, MergedConfidentialityImpactToTheSubsequentSystem.level_step,
    MergedIntegrityImpactToTheSubsequentSystem.level_step, MergedAvailabilityImpactToTheSubsequentSystem.level_step,
    sub_tenth_neg hF (stepAV_le _) (stepAV_le _), sub_tenth_neg hF (stepPR_le _) (stepPR_le _),
    sub_tenth_neg hF (stepUI_le _) (stepUI_le _), sub_tenth_neg hF (stepAC_le _) (stepAC_le _),
    sub_tenth_neg hF (stepAT_le _) (stepAT_le _), sub_tenth_neg hF (stepV_le _) (stepV_le _),
    sub_tenth_neg hF (stepS_le _) (stepS_le _), sub_tenth_neg hF (stepR_le _) (stepR_le _)]
  simp only [composed, G1.put, G2.put, G36.put, G4.put, G5.put, ScoringVector.g1, ScoringVector.g2,
    ScoringVector.g36, ScoringVector.g4]
  omega

theorem searchMax_find {F : Fp} {α : Type} (z : ScoringVector) (str : α → Str) (vec : α → ScoringVector)
    (ok : α → Bool) (l : List α)
    (h : ∀ t ∈ l, ScoringVector.fromMaxComposed (ScoringVector.trimSlash (str t)) = .ok (vec t))
    (hok : ∀ t ∈ l, (distancesFrom F z (vec t)).anyNegative F = !ok t) {t : α} (ht : l.find? ok = some t) (d : Distances) :
    searchMax F z (l.map str) d = .ok (distancesFrom F z (vec t)) := by
  induction l generalizing d with
  | nil => simp at ht
  | cons s rest ih =>
    simp only [List.map_cons, searchMax]
    rw [h s (by simp)]
    simp only [Outcome.bind_ok]
    rw [hok s (by simp)]
    cases hs : ok s with
    | true =>
      rw [List.find?_cons_of_pos hs] at ht
      simp only [Option.some.injEq] at ht
      subst ht
      simp
    | false =>
      rw [List.find?_cons_of_neg (by simp [hs])] at ht
      simp only [Bool.not_false, if_true]
      exact ih (fun t ht => h t (List.mem_cons_of_mem _ ht)) (fun t ht => hok t (List.mem_cons_of_mem _ ht)) ht _

/-- Searching a product finds the first of each factor. -/
theorem find_flatMap {α β : Type} (l : List α) (g : α → List β) (p : α → Bool) (q : β → Bool) (k : α → β)
    (hp : ∀ a ∈ l, p a = true → (g a).find? q = some (k a)) (hn : ∀ a ∈ l, p a = false → (g a).find? q = none)
    {a : α} (ha : l.find? p = some a) : (l.flatMap g).find? q = some (k a) := by
  induction l with
  | nil => simp at ha
  | cons x xs ih =>
    rw [List.flatMap_cons, List.find?_append]
    cases hx : p x with
    | true =>
      rw [List.find?_cons_of_pos hx] at ha
      simp only [Option.some.injEq] at ha
      subst ha
      rw [hp x (by simp) hx]
      rfl
    | false =>
      rw [List.find?_cons_of_neg (by simp [hx])] at ha
      rw [hn x (by simp) hx]
      exact ih (fun a h => hp a (List.mem_cons_of_mem _ h)) (fun a h => hn a (List.mem_cons_of_mem _ h)) ha

theorem composeMaxes_map (l1 : List G1) (l2 : List G2) (l36 : List G36) (l4 : List G4) (l5 : List G5) :
    composeMaxes (l1.map fun a => renderAll a.comps) (l2.map fun a => renderAll a.comps)
      (l36.map fun a => renderAll a.comps) (l4.map fun a => renderAll a.comps) (l5.map fun a => renderAll a.comps) =
    (l1.flatMap fun a => l2.flatMap fun b => l36.flatMap fun c => l4.flatMap fun d => l5.map fun e =>
      (a, b, c, d, e)).map fun t => renderAll t.1.comps ++ renderAll t.2.1.comps ++ renderAll t.2.2.1.comps ++
        renderAll t.2.2.2.1.comps ++ renderAll t.2.2.2.2.comps := by
  unfold composeMaxes
  simp only [List.map_flatMap, List.flatMap_map, List.map_map]
  rfl

theorem search_ok {F : Fp} (hF : F.Ok) (z : ScoringVector) (l1 : List G1) (l2 : List G2) (l36 : List G36)
    (l4 : List G4) (e : G5) {a : G1} {b : G2} {c : G36} {d : G4} (ha : l1.find? z.g1.below = some a)
    (hb : l2.find? z.g2.below = some b) (hc : l36.find? z.g36.below = some c) (hd : l4.find? z.g4.below = some d)
    (d0 : Distances) :
    searchMax F z (composeMaxes (l1.map fun a => renderAll a.comps) (l2.map fun a => renderAll a.comps)
      (l36.map fun a => renderAll a.comps) (l4.map fun a => renderAll a.comps) ([e].map fun a => renderAll a.comps)) d0 =
    .ok (distancesFrom F z (composed a b c d e)) := by
  rw [composeMaxes_map]
  refine searchMax_find z _ (fun t : G1 × G2 × G36 × G4 × G5 => composed t.1 t.2.1 t.2.2.1 t.2.2.2.1 t.2.2.2.2)
    (fun t => z.g1.below t.1 && z.g2.below t.2.1 && z.g36.below t.2.2.1 && z.g4.below t.2.2.2.1) _
    (fun t _ => from_composed _ _ _ _ _) (fun t _ => anyNegative_composed hF z _ _ _ _ _) (t := (a, b, c, d, e)) ?_ d0
  refine find_flatMap l1 _ z.g1.below _ (fun a => (a, b, c, d, e)) ?_ ?_ ha
  · intro a _ h1
    refine find_flatMap l2 _ z.g2.below _ (fun b => (a, b, c, d, e)) ?_ ?_ hb
    · intro b _ h2
      refine find_flatMap l36 _ z.g36.below _ (fun c => (a, b, c, d, e)) ?_ ?_ hc
      · intro c _ h3
        refine find_flatMap l4 _ z.g4.below _ (fun d => (a, b, c, d, e)) ?_ ?_ hd
        · intro d _ h4
          simp [h1, h2, h3, h4]
        · intro d _ h4
          simp [h4]
      · intro c _ h3
        simp [h3]
    · intro b _ h2
      simp [h2]
  · intro a _ h1
    simp [h1]

/-! ### The classes and distances by letters -/

theorem eff_eq1 (z : ScoringVector) : z.eff.eq1 = z.g1.cls := by
  unfold Eff.eq1 G1.cls ScoringVector.eff ScoringVector.g1
  cases z.av <;> cases z.pr <;> cases z.ui <;> rfl

theorem eff_eq2 (z : ScoringVector) : z.eff.eq2 = z.g2.cls := by
  unfold Eff.eq2 G2.cls ScoringVector.eff ScoringVector.g2
  cases z.ac <;> cases z.at_ <;> rfl

theorem eff_eq3 (z : ScoringVector) : z.eff.eq3 = z.g36.cls3 := by
  unfold Eff.eq3 G36.cls3 ScoringVector.eff ScoringVector.g36
  cases z.vc <;> cases z.vi <;> cases z.va <;> rfl

theorem eff_eq4 (z : ScoringVector) : z.eff.eq4 = z.g4.cls := by
  unfold Eff.eq4 G4.cls ScoringVector.eff ScoringVector.g4
  cases z.sc <;> cases z.si <;> cases z.sa <;> rfl

theorem eff_eq5 (z : ScoringVector) : z.eff.eq5 = z.eq5 := by
  unfold Eff.eq5 ScoringVector.eq5 ScoringVector.eff
  cases z.e <;> rfl

theorem eff_eq6 (z : ScoringVector) : z.eff.eq6 = z.g36.cls6 := by
  have h1 : ∀ x : MergedConfidentialityRequirements, x.letter = 'H' ↔ x = .high := by intro x; cases x <;> decide
  have h2 : ∀ x : MergedIntegrityRequirements, x.letter = 'H' ↔ x = .high := by intro x; cases x <;> decide
  have h3 : ∀ x : MergedAvailabilityRequirements, x.letter = 'H' ↔ x = .high := by intro x; cases x <;> decide
  have h4 : ∀ x : MergedConfidentialityImpactToTheVulnerableSystem, x.letter = 'H' ↔ x = .high := by
    intro x; cases x <;> decide
  have h5 : ∀ x : MergedIntegrityImpactToTheVulnerableSystem, x.letter = 'H' ↔ x = .high := by
    intro x; cases x <;> decide
  have h6 : ∀ x : MergedAvailabilityImpactToTheVulnerableSystem, x.letter = 'H' ↔ x = .high := by
    intro x; cases x <;> decide
  unfold Eff.eq6 G36.cls6 ScoringVector.eff ScoringVector.g36
  simp only [h1, h2, h3, h4, h5, h6]

end V4

end Verif.Cvss
