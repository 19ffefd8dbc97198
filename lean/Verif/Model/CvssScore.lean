import Verif.Model.CvssV2Score
import Verif.Model.CvssV4Score

/-!
# The score of a CVSS vector of any version
-/

namespace Verif.Cvss

/-- `Cvss::score`: cvss/src/cvss.rs:50-62. -/
def Cvss.score (F : Fp) : Cvss → Outcome ℚ
  | .v20 v => .ok (V2.Vector.score F v)
  | .v30 b => .ok (b.score F)
  | .v31 b => .ok (b.score F)
  | .v40 v => v.score F

/-- `Cvss::severity`: cvss/src/cvss.rs:64-77. -/
def Cvss.severity (F : Fp) : Cvss → Outcome Adv.Severity
  | .v20 v => .ok (V2.Vector.severity F v)
  | .v30 b => .ok (b.severity F)
  | .v31 b => .ok (b.severity F)
  | .v40 v => v.severity F

end Verif.Cvss
