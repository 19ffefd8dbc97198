import Verif.Model.CvssText
import Verif.Model.Float
import Verif.Model.Advisory

/-!
# CVSS v3 scores
-/

namespace Verif.Cvss

/-- `Score::severity` of v3 and v4: cvss/src/v3/score.rs:40-53, cvss/src/v4/score.rs:169-181. -/
def severityOf (F : Fp) (x : ℚ) : Adv.Severity :=
  if x < F.fl 0.1 then .none
  else if x < F.fl 4 then .low
  else if x < F.fl 7 then .medium
  else if x < F.fl 9 then .high
  else .critical

/-- `option.map(|x| x.score()).unwrap_or(default)`; weights are decimal literals, rounded. -/
def weightOr (F : Fp) {α : Type} (score : α → ℚ) (default : ℚ) : Option α → ℚ
  | none => F.fl default
  | some x => F.fl (score x)

namespace V3

/-- `PrivilegesRequired::scoped_score`: cvss/src/v3/base/pr.rs:42-60. -/
def PrivilegesRequired.scopedScore (changed : Bool) : PrivilegesRequired → ℚ
  | .high => if changed then 0.50 else 0.27
  | .low => if changed then 0.68 else 0.62
  | .none => 0.85

/-- `Score::roundup`: cvss/src/v3/score.rs:28-38. -/
def roundup (F : Fp) (x : ℚ) : ℚ :=
  let n := castU64 (F.mul x (F.fl 100000))
  if n % 10000 = 0 then F.div (F.fl n) (F.fl 100000)
  else F.div (F.add (floorF (F.div (F.fl n) (F.fl 10000))) (F.fl 1)) (F.fl 10)

/-- `Option<Scope>`: `map(|s| s.is_changed()).unwrap_or(false)`. -/
def scopeChanged : Option Scope → Bool
  | some .changed => true
  | _ => false

/-- `is_scope_changed`: cvss/src/v3/base.rs:202-205. -/
def Base.isScopeChanged (b : Base) : Bool := scopeChanged (b.metrics .S)

/-- `exploitability`: cvss/src/v3/base.rs:138-148. -/
def Base.exploitability (F : Fp) (b : Base) : ℚ :=
  let av := weightOr F AttackVector.score 0 (b.metrics .AV)
  let ac := weightOr F AttackComplexity.score 0 (b.metrics .AC)
  let ui := weightOr F UserInteraction.score 0 (b.metrics .UI)
  let pr := weightOr F (PrivilegesRequired.scopedScore b.isScopeChanged) 0 (b.metrics .PR)
  F.mul (F.mul (F.mul (F.mul (F.fl 8.22) av) ac) pr) ui

/-- `impact`: cvss/src/v3/base.rs:162-167. -/
def Base.impact (F : Fp) (b : Base) : ℚ :=
  let c := weightOr F Confidentiality.score 0 (b.metrics .C)
  let i := weightOr F Integrity.score 0 (b.metrics .I)
  let a := weightOr F Availability.score 0 (b.metrics .A)
  F.sub (F.fl 1) (absF (F.mul (F.mul (F.sub (F.fl 1) c) (F.sub (F.fl 1) i)) (F.sub (F.fl 1) a)))

/-- The arithmetic of `score` before `roundup`, from the two sub-scores: cvss/src/v3/base.rs:106-120. -/
def rawScore (F : Fp) (changed : Bool) (exploitability iss : ℚ) : ℚ :=
  let impactSub :=
    if !changed then F.mul (F.fl 6.42) iss
    else F.sub (F.mul (F.fl 7.52) (F.sub iss (F.fl 0.029)))
      (F.mul (F.fl 3.25) (F.pow15 (F.sub iss (F.fl 0.02))))
  if impactSub ≤ F.fl 0 then F.fl 0
  else if !changed then minF (F.add impactSub exploitability) (F.fl 10)
  else minF (F.mul (F.fl 1.08) (F.add impactSub exploitability)) (F.fl 10)

/-- `score`: cvss/src/v3/base.rs:102-123. -/
def Base.score (F : Fp) (b : Base) : ℚ :=
  roundup F (rawScore F b.isScopeChanged (b.exploitability F) (b.impact F))

/-- `severity`: cvss/src/v3/base.rs:196-200. -/
def Base.severity (F : Fp) (b : Base) : Adv.Severity := severityOf F (b.score F)

end V3

end Verif.Cvss
