import Verif.Spec.SemverText
import Verif.Model.Lockfile
import Verif.Model.AdvisoryFile
import Verif.Model.ReportJson

/-!
# The readers and writers of versions that the code uses

`cargo-lock/src/package.rs:9`, `rustsec/src/advisory/versions.rs:4`, `rustsec/src/advisory/affected.rs:8`: the crate
`semver` reads and writes versions and requirements everywhere.
-/

namespace Verif.Spec

open Verif Verif.Semver Verif.Lock Verif.Adv Verif.RepJson

/-- Lockfiles with the versions of the `semver` crate. -/
def semverCodec (U : UrlLib) : Codec := { url := U, showVersion := Version.text, parseVersion := readVersion }

/-- The advisories' requirements are those of the `semver` crate. -/
def UsesSemver (L : AdvLib) : Prop := L.req = readReq

/-- A report is read and written with the `semver` crate. -/
structure ReportUsesSemver (L : ReportLib) : Prop where
  req : UsesSemver L.adv
  showReq : L.showReq = VersionReq.text
  showVersion : L.showVersion = Version.text
  parseVersion : L.parseVersion = readVersion

end Verif.Spec
