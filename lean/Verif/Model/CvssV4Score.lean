import Verif.Model.CvssV4Lookup
import Verif.Model.CvssV3Score

/-!
# CVSS v4 scores
-/

namespace Verif.Cvss.V4

/-- `VectorEq`: cvss/src/v4/scoring.rs:35-42. -/
inductive VectorEq where
  | eq1 (n : Nat)
  | eq2 (n : Nat)
  | eq3eq6 (n m : Nat)
  | eq4 (n : Nat)
  | eq5 (n : Nat)

/-- `max_composed`; `unreachable!` panics: cvss/src/v4/scoring/max_composed.rs:8-41. -/
def maxComposed : VectorEq → Outcome (List Str)
  | .eq1 0 => .ok ["AV:N/PR:N/UI:N/".toList]
  | .eq1 1 => .ok ["AV:A/PR:N/UI:N/".toList, "AV:N/PR:L/UI:N/".toList, "AV:N/PR:N/UI:P/".toList]
  | .eq1 2 => .ok ["AV:P/PR:N/UI:N/".toList, "AV:A/PR:L/UI:P/".toList]
  | .eq2 0 => .ok ["AC:L/AT:N/".toList]
  | .eq2 1 => .ok ["AC:H/AT:N/".toList, "AC:L/AT:P/".toList]
  | .eq3eq6 0 0 => .ok ["VC:H/VI:H/VA:H/CR:H/IR:H/AR:H/".toList]
  | .eq3eq6 0 1 => .ok ["VC:H/VI:H/VA:L/CR:M/IR:M/AR:H/".toList, "VC:H/VI:H/VA:H/CR:M/IR:M/AR:M/".toList]
  | .eq3eq6 1 0 => .ok ["VC:L/VI:H/VA:H/CR:H/IR:H/AR:H/".toList, "VC:H/VI:L/VA:H/CR:H/IR:H/AR:H/".toList]
  | .eq3eq6 1 1 => .ok ["VC:L/VI:H/VA:L/CR:H/IR:M/AR:H/".toList, "VC:L/VI:H/VA:H/CR:H/IR:M/AR:M/".toList,
      "VC:H/VI:L/VA:H/CR:M/IR:H/AR:M/".toList, "VC:H/VI:L/VA:L/CR:M/IR:H/AR:H/".toList,
      "VC:L/VI:L/VA:H/CR:H/IR:H/AR:M/".toList]
  | .eq3eq6 2 1 => .ok ["VC:L/VI:L/VA:L/CR:H/IR:H/AR:H/".toList]
  | .eq4 0 => .ok ["SC:H/SI:S/SA:S/".toList]
  | .eq4 1 => .ok ["SC:H/SI:H/SA:H/".toList]
  | .eq4 2 => .ok ["SC:L/SI:L/SA:L/".toList]
  | .eq5 0 => .ok ["E:A/".toList]
  | .eq5 1 => .ok ["E:P/".toList]
  | .eq5 2 => .ok ["E:U/".toList]
  | _ => .panic

/-- `max_severity`; `unreachable!` panics: cvss/src/v4/scoring/max_severity.rs:6-26. -/
def maxSeverity : VectorEq → Outcome Nat
  | .eq1 0 => .ok 1
  | .eq1 1 => .ok 4
  | .eq1 2 => .ok 5
  | .eq2 0 => .ok 1
  | .eq2 1 => .ok 2
  | .eq3eq6 0 0 => .ok 7
  | .eq3eq6 0 1 => .ok 6
  | .eq3eq6 1 0 => .ok 8
  | .eq3eq6 1 1 => .ok 8
  | .eq3eq6 2 1 => .ok 10
  | .eq4 0 => .ok 6
  | .eq4 1 => .ok 5
  | .eq4 2 => .ok 4
  | .eq5 0 => .ok 1
  | .eq5 1 => .ok 1
  | .eq5 2 => .ok 1
  | _ => .panic

/-- `ScoringVector`: cvss/src/v4/scoring.rs:44-75. -/
structure ScoringVector where
  ac : MergedAttackComplexity
  at_ : MergedAttackRequirements
  av : MergedAttackVector
  pr : MergedPrivilegesRequired
  sa : MergedAvailabilityImpactToTheSubsequentSystem
  sc : MergedConfidentialityImpactToTheSubsequentSystem
  si : MergedIntegrityImpactToTheSubsequentSystem
  ui : MergedUserInteraction
  va : MergedAvailabilityImpactToTheVulnerableSystem
  vc : MergedConfidentialityImpactToTheVulnerableSystem
  vi : MergedIntegrityImpactToTheVulnerableSystem
  e : MergedExploitMaturity
  ar : MergedAvailabilityRequirements
  cr : MergedConfidentialityRequirements
  ir : MergedIntegrityRequirements
  au : Automatable
  r : Recovery
  re : VulnerabilityResponseEffort
  s : Safety
  u : ProviderUrgency
  v : ValueDensity
  deriving DecidableEq, Repr

namespace ScoringVector

/-- `ScoringVector::default()` (derived): cvss/src/v4/scoring.rs:48. -/
def default : ScoringVector where
  ac := MergedAttackComplexity.default
  at_ := MergedAttackRequirements.default
  av := MergedAttackVector.default
  pr := MergedPrivilegesRequired.default
  sa := MergedAvailabilityImpactToTheSubsequentSystem.default
  sc := MergedConfidentialityImpactToTheSubsequentSystem.default
  si := MergedIntegrityImpactToTheSubsequentSystem.default
  ui := MergedUserInteraction.default
  va := MergedAvailabilityImpactToTheVulnerableSystem.default
  vc := MergedConfidentialityImpactToTheVulnerableSystem.default
  vi := MergedIntegrityImpactToTheVulnerableSystem.default
  e := MergedExploitMaturity.default
  ar := MergedAvailabilityRequirements.default
  cr := MergedConfidentialityRequirements.default
  ir := MergedIntegrityRequirements.default
  au := Automatable.default
  r := Recovery.default
  re := VulnerabilityResponseEffort.default
  s := Safety.default
  u := ProviderUrgency.default
  v := ValueDensity.default

/-- `option.unwrap()`. -/
def unwrap {α : Type} : Option α → Outcome α
  | some x => .ok x
  | none => .panic

/-- `impl From<&Vector> for ScoringVector`: the mandatory metrics are unwrapped: cvss/src/v4/scoring.rs:77-105. -/
def ofVector (w : Vector) : Outcome ScoringVector := do
  let ac ← unwrap (w.metrics .AC)
  let at_ ← unwrap (w.metrics .AT)
  let av ← unwrap (w.metrics .AV)
  let pr ← unwrap (w.metrics .PR)
  let sa ← unwrap (w.metrics .SA)
  let sc ← unwrap (w.metrics .SC)
  let si ← unwrap (w.metrics .SI)
  let ui ← unwrap (w.metrics .UI)
  let va ← unwrap (w.metrics .VA)
  let vc ← unwrap (w.metrics .VC)
  let vi ← unwrap (w.metrics .VI)
  .ok {
    ac := ac.merge (w.metrics .MAC)
    at_ := at_.merge (w.metrics .MAT)
    av := av.merge (w.metrics .MAV)
    pr := pr.merge (w.metrics .MPR)
    sa := sa.merge (w.metrics .MSA)
    sc := sc.merge (w.metrics .MSC)
    si := si.merge (w.metrics .MSI)
    ui := ui.merge (w.metrics .MUI)
    va := va.merge (w.metrics .MVA)
    vc := vc.merge (w.metrics .MVC)
    vi := vi.merge (w.metrics .MVI)
    e := ExploitMaturity.merge ((w.metrics .E).getD ExploitMaturity.default)
    ar := AvailabilityRequirements.merge ((w.metrics .AR).getD AvailabilityRequirements.default)
    cr := ConfidentialityRequirements.merge ((w.metrics .CR).getD ConfidentialityRequirements.default)
    ir := IntegrityRequirements.merge ((w.metrics .IR).getD IntegrityRequirements.default)
    au := (w.metrics .AU).getD Automatable.default
    r := (w.metrics .R).getD Recovery.default
    re := (w.metrics .RE).getD VulnerabilityResponseEffort.default
    s := (w.metrics .S).getD Safety.default
    u := (w.metrics .U).getD ProviderUrgency.default
    v := (w.metrics .V).getD ValueDensity.default }

/-- One component of a composed vector: `MetricType::from_str` and the value's `from_str`, both unwrapped; the
metric types that do not occur in a `ScoringVector` are `unreachable!`.  cvss/src/v4/scoring.rs:126-154. -/
def setComposed (z : ScoringVector) (c : Str × Str) : Outcome ScoringVector :=
  match lookupStr MetricType.table (upper c.1) with
  | some .AC => Outcome.map (fun x => { z with ac := x }) (unwrap (lookupStr MergedAttackComplexity.table (upper c.2)))
  | some .AT => Outcome.map (fun x => { z with at_ := x }) (unwrap (lookupStr MergedAttackRequirements.table (upper c.2)))
  | some .AV => Outcome.map (fun x => { z with av := x }) (unwrap (lookupStr MergedAttackVector.table (upper c.2)))
  | some .PR => Outcome.map (fun x => { z with pr := x }) (unwrap (lookupStr MergedPrivilegesRequired.table (upper c.2)))
  | some .SA => Outcome.map (fun x => { z with sa := x }) (unwrap (lookupStr MergedAvailabilityImpactToTheSubsequentSystem.table (upper c.2)))
  | some .SC => Outcome.map (fun x => { z with sc := x }) (unwrap (lookupStr MergedConfidentialityImpactToTheSubsequentSystem.table (upper c.2)))
  | some .SI => Outcome.map (fun x => { z with si := x }) (unwrap (lookupStr MergedIntegrityImpactToTheSubsequentSystem.table (upper c.2)))
  | some .UI => Outcome.map (fun x => { z with ui := x }) (unwrap (lookupStr MergedUserInteraction.table (upper c.2)))
  | some .VA => Outcome.map (fun x => { z with va := x }) (unwrap (lookupStr MergedAvailabilityImpactToTheVulnerableSystem.table (upper c.2)))
  | some .VC => Outcome.map (fun x => { z with vc := x }) (unwrap (lookupStr MergedConfidentialityImpactToTheVulnerableSystem.table (upper c.2)))
  | some .VI => Outcome.map (fun x => { z with vi := x }) (unwrap (lookupStr MergedIntegrityImpactToTheVulnerableSystem.table (upper c.2)))
  | some .E => Outcome.map (fun x => { z with e := x }) (unwrap (lookupStr MergedExploitMaturity.table (upper c.2)))
  | some .AR => Outcome.map (fun x => { z with ar := x }) (unwrap (lookupStr MergedAvailabilityRequirements.table (upper c.2)))
  | some .CR => Outcome.map (fun x => { z with cr := x }) (unwrap (lookupStr MergedConfidentialityRequirements.table (upper c.2)))
  | some .IR => Outcome.map (fun x => { z with ir := x }) (unwrap (lookupStr MergedIntegrityRequirements.table (upper c.2)))
  | some .AU => Outcome.map (fun x => { z with au := x }) (unwrap (lookupStr Automatable.table (upper c.2)))
  | some .R => Outcome.map (fun x => { z with r := x }) (unwrap (lookupStr Recovery.table (upper c.2)))
  | some .RE => Outcome.map (fun x => { z with re := x }) (unwrap (lookupStr VulnerabilityResponseEffort.table (upper c.2)))
  | some .S => Outcome.map (fun x => { z with s := x }) (unwrap (lookupStr Safety.table (upper c.2)))
  | some .U => Outcome.map (fun x => { z with u := x }) (unwrap (lookupStr ProviderUrgency.table (upper c.2)))
  | some .V => Outcome.map (fun x => { z with v := x }) (unwrap (lookupStr ValueDensity.table (upper c.2)))
  | _ => .panic

/-- Left fold that stops at a panic. -/
def setAll : ScoringVector → List (Str × Str) → Outcome ScoringVector
  | z, [] => .ok z
  | z, c :: cs => do
    let z' ← z.setComposed c
    setAll z' cs

/-- `s.trim_end_matches('/')`. -/
def trimSlash (s : Str) : Str := (s.reverse.dropWhile (· = '/')).reverse

/-- The first two parts of a component, unwrapped: cvss/src/v4/scoring.rs:115-120. -/
def twoParts (s : Str) : Outcome (Str × Str) :=
  match splitC ':' s with
  | a :: b :: _ => .ok (a, b)
  | _ => .panic

/-- `from_max_composed_vector`: cvss/src/v4/scoring.rs:110-156. -/
def fromMaxComposed (s : Str) : Outcome ScoringVector := do
  let cs ← Outcome.mapList twoParts (splitC '/' (trimSlash s))
  setAll default cs

/-- `eq1`: cvss/src/v4/scoring.rs:158-177. -/
def eq1 (z : ScoringVector) : Nat :=
  if z.av = .network ∧ z.pr = .none ∧ z.ui = .none then 0
  else if (z.av = .network ∨ z.pr = .none ∨ z.ui = .none) ∧ z.av ≠ .physical then 1
  else 2

/-- `eq2`: cvss/src/v4/scoring.rs:179-187. -/
def eq2 (z : ScoringVector) : Nat := if z.ac = .low ∧ z.at_ = .none then 0 else 1

/-- `eq3`: cvss/src/v4/scoring.rs:189-205. -/
def eq3 (z : ScoringVector) : Nat :=
  if z.vc = .high ∧ z.vi = .high then 0 else if z.vc = .high ∨ z.vi = .high ∨ z.va = .high then 1 else 2

/-- `eq4`: cvss/src/v4/scoring.rs:207-223. -/
def eq4 (z : ScoringVector) : Nat :=
  if z.si = .safety ∨ z.sa = .safety then 0 else if z.sc = .high ∨ z.si = .high ∨ z.sa = .high then 1 else 2

/-- `eq5`: cvss/src/v4/scoring.rs:225-236. -/
def eq5 (z : ScoringVector) : Nat := if z.e = .attacked then 0 else if z.e = .proofOfConcept then 1 else 2

/-- `eq6`: cvss/src/v4/scoring.rs:238-252. -/
def eq6 (z : ScoringVector) : Nat :=
  if (z.cr = .high ∧ z.vc = .high) ∨ (z.ir = .high ∧ z.vi = .high) ∨ (z.ar = .high ∧ z.va = .high) then 0 else 1

end ScoringVector

/-- `MacroVector`: cvss/src/v4/scoring.rs:505-512. -/
structure MacroVector where
  e1 : Nat
  e2 : Nat
  e3 : Nat
  e4 : Nat
  e5 : Nat
  e6 : Nat

/-- `macro_vector`: cvss/src/v4/scoring.rs:254-263. -/
def ScoringVector.macroVector (z : ScoringVector) : MacroVector := ⟨z.eq1, z.eq2, z.eq3, z.eq4, z.eq5, z.eq6⟩

/-- `lookup_global`: cvss/src/v4/scoring/lookup.rs:6-279. -/
def lookupGlobal (F : Fp) (m : MacroVector) : Option ℚ :=
  (lookupTenths m.e1 m.e2 m.e3 m.e4 m.e5 m.e6).map (fun t : Nat => F.fl ((t : ℚ) / 10))

/-- `a > b` on `Option<f64>`: `None` is below every `Some`. -/
def optGt : Option ℚ → Option ℚ → Bool
  | some a, some b => decide (b < a)
  | some _, none => true
  | none, _ => false

/-- `score_eq3eq6_next_lower_macro`: cvss/src/v4/scoring.rs:294-317. -/
def nextLower36 (F : Fp) (m : MacroVector) : Option ℚ :=
  if m.e3 = 1 ∧ m.e6 = 1 then lookupGlobal F { m with e3 := m.e3 + 1 }
  else if m.e3 = 0 ∧ m.e6 = 1 then lookupGlobal F { m with e3 := m.e3 + 1 }
  else if m.e3 = 1 ∧ m.e6 = 0 then lookupGlobal F { m with e6 := m.e6 + 1 }
  else if m.e3 = 0 ∧ m.e6 = 0 then
    let left := lookupGlobal F { m with e6 := m.e6 + 1 }
    let right := lookupGlobal F { m with e3 := m.e3 + 1 }
    if optGt left right then left else right
  else lookupGlobal F { m with e3 := m.e3 + 1 }

/-- The severity distances of cvss/src/v4/scoring.rs:346-359. -/
structure Distances where
  av : ℚ
  pr : ℚ
  ui : ℚ
  ac : ℚ
  at_ : ℚ
  vc : ℚ
  vi : ℚ
  va : ℚ
  sc : ℚ
  si : ℚ
  sa : ℚ
  cr : ℚ
  ir : ℚ
  ar : ℚ

/-- Their initial values: cvss/src/v4/scoring.rs:346-359. -/
def Distances.zero (F : Fp) : Distances :=
  ⟨F.fl 0, F.fl 0, F.fl 0, F.fl 0, F.fl 0, F.fl 0, F.fl 0, F.fl 0, F.fl 0, F.fl 0, F.fl 0, F.fl 0, F.fl 0, F.fl 0⟩

/-- The distances from a highest severity vector: cvss/src/v4/scoring.rs:366-379. -/
def distancesFrom (F : Fp) (z v : ScoringVector) : Distances where
  av := F.sub (F.fl z.av.level) (F.fl v.av.level)
  pr := F.sub (F.fl z.pr.level) (F.fl v.pr.level)
  ui := F.sub (F.fl z.ui.level) (F.fl v.ui.level)
  ac := F.sub (F.fl z.ac.level) (F.fl v.ac.level)
  at_ := F.sub (F.fl z.at_.level) (F.fl v.at_.level)
  vc := F.sub (F.fl z.vc.level) (F.fl v.vc.level)
  vi := F.sub (F.fl z.vi.level) (F.fl v.vi.level)
  va := F.sub (F.fl z.va.level) (F.fl v.va.level)
  sc := F.sub (F.fl z.sc.level) (F.fl v.sc.level)
  si := F.sub (F.fl z.si.level) (F.fl v.si.level)
  sa := F.sub (F.fl z.sa.level) (F.fl v.sa.level)
  cr := F.sub (F.fl z.cr.level) (F.fl v.cr.level)
  ir := F.sub (F.fl z.ir.level) (F.fl v.ir.level)
  ar := F.sub (F.fl z.ar.level) (F.fl v.ar.level)

/-- The test for the wrong maximum: cvss/src/v4/scoring.rs:382-396. -/
def Distances.anyNegative (F : Fp) (d : Distances) : Bool :=
  decide (d.av < F.fl 0 ∨ d.pr < F.fl 0 ∨ d.ui < F.fl 0 ∨ d.ac < F.fl 0 ∨ d.at_ < F.fl 0 ∨ d.vc < F.fl 0 ∨
    d.vi < F.fl 0 ∨ d.va < F.fl 0 ∨ d.sc < F.fl 0 ∨ d.si < F.fl 0 ∨ d.sa < F.fl 0 ∨ d.cr < F.fl 0 ∨
    d.ir < F.fl 0 ∨ d.ar < F.fl 0)

/-- The nested loops that compose the highest severity vectors: cvss/src/v4/scoring.rs:332-344. -/
def composeMaxes (l1 l2 l36 l4 l5 : List Str) : List Str :=
  l1.flatMap fun a => l2.flatMap fun b => l36.flatMap fun c => l4.flatMap fun d => l5.map fun e => a ++ b ++ c ++ d ++ e

/-- The search for the maximum to use; the distances of the last one stay if all are wrong:
cvss/src/v4/scoring.rs:362-402. -/
def searchMax (F : Fp) (z : ScoringVector) : List Str → Distances → Outcome Distances
  | [], d => .ok d
  | s :: rest, _ => do
    let v ← ScoringVector.fromMaxComposed (ScoringVector.trimSlash s)
    let d := distancesFrom F z v
    if d.anyNegative F then searchMax F z rest d else .ok d

/-- One `normalized_severity` with the increment of `n_existing_lower`: cvss/src/v4/scoring.rs:441-472. -/
def normalized (F : Fp) (available : Option ℚ) (distance maxSeverity : ℚ) : ℚ × Nat :=
  match available with
  | some a => (F.mul a (F.div distance maxSeverity), 1)
  | none => (F.fl 0, 0)

/-- `normalized_severity_eq5`: cvss/src/v4/scoring.rs:474-481. -/
def normalized5 (F : Fp) (available : Option ℚ) : ℚ × Nat :=
  match available with
  | some a => (F.mul a (F.fl 0), 1)
  | none => (F.fl 0, 0)

/-- Steps 1c to 3 of `score`: cvss/src/v4/scoring.rs:404-501. -/
def interpolate (F : Fp) (value : ℚ) (low1 low2 low36 low4 low5 : Option ℚ) (d : Distances) (m1 m2 m36 m4 : Nat) : ℚ :=
  let d1 := F.add (F.add d.av d.pr) d.ui
  let d2 := F.add d.ac d.at_
  let d36 := F.add (F.add (F.add (F.add (F.add d.vc d.vi) d.va) d.cr) d.ir) d.ar
  let d4 := F.add (F.add d.sc d.si) d.sa
  let step := F.fl 0.1
  let n1 := normalized F (low1.map (F.sub value)) d1 (F.mul (F.fl m1) step)
  let n2 := normalized F (low2.map (F.sub value)) d2 (F.mul (F.fl m2) step)
  let n36 := normalized F (low36.map (F.sub value)) d36 (F.mul (F.fl m36) step)
  let n4 := normalized F (low4.map (F.sub value)) d4 (F.mul (F.fl m4) step)
  let n5 := normalized5 F (low5.map (F.sub value))
  let n := n1.2 + n2.2 + n36.2 + n4.2 + n5.2
  let mean :=
    if n = 0 then F.fl 0
    else F.div (F.add (F.add (F.add (F.add n1.1 n2.1) n36.1) n4.1) n5.1) (F.fl n)
  F.sub value mean

/-- `ScoringVector::score`: cvss/src/v4/scoring.rs:265-501. -/
def ScoringVector.score (F : Fp) (z : ScoringVector) : Outcome ℚ :=
  if z.vc = .none ∧ z.vi = .none ∧ z.va = .none ∧ z.sc = .none ∧ z.si = .none ∧ z.sa = .none then .ok (F.fl 0)
  else do
    let m := z.macroVector
    let value ← ScoringVector.unwrap (lookupGlobal F m)
    let low1 := lookupGlobal F { m with e1 := m.e1 + 1 }
    let low2 := lookupGlobal F { m with e2 := m.e2 + 1 }
    let low36 := nextLower36 F m
    let low4 := lookupGlobal F { m with e4 := m.e4 + 1 }
    let low5 := lookupGlobal F { m with e5 := m.e5 + 1 }
    let l1 ← maxComposed (.eq1 m.e1)
    let l2 ← maxComposed (.eq2 m.e2)
    let l36 ← maxComposed (.eq3eq6 m.e3 m.e6)
    let l4 ← maxComposed (.eq4 m.e4)
    let l5 ← maxComposed (.eq5 m.e5)
    let d ← searchMax F z (composeMaxes l1 l2 l36 l4 l5) (Distances.zero F)
    let m1 ← maxSeverity (.eq1 m.e1)
    let m2 ← maxSeverity (.eq2 m.e2)
    let m36 ← maxSeverity (.eq3eq6 m.e3 m.e6)
    let m4 ← maxSeverity (.eq4 m.e4)
    .ok (interpolate F value low1 low2 low36 low4 low5 d m1 m2 m36 m4)

/-- `Score::round_v4`: cvss/src/v4/score.rs:154-158. -/
def roundV4 (F : Fp) (x : ℚ) : ℚ :=
  let y := if x < F.fl 0 then F.fl 0 else if F.fl 10 < x then F.fl 10 else x
  F.div (roundAway (F.mul (F.add y (F.fl (1 / 10 ^ 6))) (F.fl 10))) (F.fl 10)

/-- `Nomenclature`: cvss/src/v4/score.rs:36-45. -/
inductive Nomenclature where
  | b
  | be
  | bt
  | bte
  deriving DecidableEq, Repr

/-- `impl Display for Nomenclature`: cvss/src/v4/score.rs:48-57. -/
def Nomenclature.display : Nomenclature → Str
  | .b => "CVSS-B".toList
  | .be => "CVSS-BE".toList
  | .bt => "CVSS-BT".toList
  | .bte => "CVSS-BTE".toList

/-- `impl FromStr for Nomenclature`: cvss/src/v4/score.rs:59-73. -/
def Nomenclature.fromStr (s : Str) : Outcome Nomenclature :=
  match lookupStr [("CVSS-B".toList, Nomenclature.b), ("CVSS-BE".toList, .be), ("CVSS-BT".toList, .bt),
    ("CVSS-BTE".toList, .bte)] s with
  | some n => .ok n
  | none => .err

/-- `impl From<&Vector> for Nomenclature`: cvss/src/v4/score.rs:75-102. -/
def Nomenclature.ofVector (w : Vector) : Nomenclature :=
  let threat := (w.metrics .E).isSome
  let environmental := (w.metrics .AR).isSome || (w.metrics .CR).isSome || (w.metrics .IR).isSome ||
    (w.metrics .MAC).isSome || (w.metrics .MAT).isSome || (w.metrics .MAV).isSome || (w.metrics .MPR).isSome ||
    (w.metrics .MSA).isSome || (w.metrics .MSC).isSome || (w.metrics .MSI).isSome || (w.metrics .MUI).isSome ||
    (w.metrics .MVA).isSome || (w.metrics .MVC).isSome || (w.metrics .MVI).isSome
  match threat, environmental with
  | true, true => .bte
  | true, false => .bt
  | false, true => .be
  | false, false => .b

/-- `impl From<&Vector> for Score` (`Vector::score`), the value: cvss/src/v4/score.rs:121-133. -/
def Vector.score (F : Fp) (w : Vector) : Outcome ℚ := do
  let z ← ScoringVector.ofVector w
  let x ← z.score F
  .ok (roundV4 F x)

/-- `Score::severity` of the score: cvss/src/v4/score.rs:166-178. -/
def Vector.severity (F : Fp) (w : Vector) : Outcome Adv.Severity := do
  let x ← w.score F
  .ok (severityOf F x)

end Verif.Cvss.V4
