import Verif.Model.ReportJson
import Verif.Spec.Json
import Verif.Props.Source

/-!
# Specification for C79 and C80: what a report must be made of to survive, and where its contents are in the text
-/

namespace Verif.Spec

open Verif.Semver Verif.Osv Verif.Lock Verif.Adv Verif.Rep Verif.RepJson Verif.Props

/-- What is assumed of the libraries: a value that was read is read again from what is written for it. -/
structure ReportLib.Lawful (L : ReportLib) : Prop where
  url : UrlLib.Lawful L.adv.url
  req : ∀ s r, L.adv.req s = some r → L.adv.req (L.showReq r) = some r
  version : ∀ s v, L.parseVersion s = some v → L.parseVersion (L.showVersion v) = some v
  time : ∀ t s, L.showTime t = some s → L.parseTime s = some t

/-- The value was read from some text. -/
def FromText {α : Type} (read : Str → Outcome α) (x : α) : Prop := ∃ s, read s = .ok x

/-- A source that was read from text, is not a path, and whose git reference has no special characters. -/
def SourceKept (L : ReportLib) (s : SourceId) : Prop :=
  FromText (SourceId.fromUrl L.adv.url) s ∧ s.kind ≠ .path ∧ ∀ r, s.kind = .git r → PlainRef r s.precise

/-- All requirements were read from text. -/
def ReqsRead (L : ReportLib) (rs : List VersionReq) : Prop := ∀ r ∈ rs, ∃ s, L.adv.req s = some r

/-- The metadata of an advisory, read from text. -/
structure MetadataRead (L : ReportLib) (m : FileMetadata) : Prop where
  id : FromText Id.fromStr m.id
  date : FromText (DateText.fromStr L.adv.civil) m.date
  aliases : ∀ i ∈ m.aliases, FromText Id.fromStr i
  related : ∀ i ∈ m.related, FromText Id.fromStr i
  categories : ∀ c ∈ m.categories, ∃ s, Category.fromStr s = c
  cvss : ∀ c, m.cvss = some c → FromText Cvss.Cvss.fromStr c
  informational : ∀ i, m.informational = some i → ∃ s, Informational.fromStr s = i
  references : ∀ u ∈ m.references, ∃ s, Url.parse L.adv.url s = some u
  source : ∀ s, m.source = some s → SourceKept L s
  url : ∀ u, m.url = some u → ∃ s, Url.parse L.adv.url s = some u
  withdrawn : ∀ d, m.withdrawn = some d → FromText (DateText.fromStr L.adv.civil) d
  license : ∃ s, License.fromStr s = m.license

/-- Version ranges that were read from text and accepted. -/
structure VersionsRead (L : ReportLib) (v : Versions) : Prop where
  patched : ReqsRead L v.patched
  unaffected : ReqsRead L v.unaffected
  accepted : Versions.new v.patched v.unaffected = .ok v

/-- An `[affected]` table that was read from text. -/
def AffectedRead (L : ReportLib) (a : Affected) : Prop :=
  ∀ e ∈ a.functions, FromText FunctionPath.fromStr e.1 ∧ ReqsRead L e.2

/-- A dependency of a package. -/
structure DependencyRead (L : ReportLib) (d : Dependency) : Prop where
  version : ∃ s, L.parseVersion s = some d.version
  source : ∀ s, d.source = some s → SourceKept L s

/-- A package of a lockfile. -/
structure PackageRead (L : ReportLib) (p : Package) : Prop where
  version : ∃ s, L.parseVersion s = some p.version
  source : ∀ s, p.source = some s → SourceKept L s
  checksum : ∀ c, p.checksum = some c → FromText Checksum.fromStr c
  dependencies : ∀ d ∈ p.dependencies, DependencyRead L d
  replace : ∀ d, p.replace = some d → DependencyRead L d

/-- A vulnerability made of an advisory and a package that were read. -/
structure VulnerabilityRead (L : ReportLib) (v : FullVulnerability) : Prop where
  advisory : MetadataRead L v.advisory
  versions : VersionsRead L v.versions
  affected : ∀ a, v.affected = some a → AffectedRead L a
  package : PackageRead L v.package

/-- A warning made of an advisory (or none) and a package that were read. -/
structure WarningRead (L : ReportLib) (w : FullWarning) : Prop where
  package : PackageRead L w.package
  advisory : ∀ m, w.advisory = some m → MetadataRead L m
  affected : ∀ a, w.affected = some a → AffectedRead L a
  versions : ∀ v, w.versions = some v → VersionsRead L v

/-- A report made of such vulnerabilities and warnings, with settings that were read, and a commit time that can be
written. -/
structure ReportRead (L : ReportLib) (r : FullReport L.Time) : Prop where
  time : ∀ t, r.database.lastUpdated = some t → ∃ s, L.showTime t = some s
  ignore : ∀ i ∈ r.settings.ignore, FromText Id.fromStr i
  informational : ∀ i ∈ r.settings.informationalWarnings, ∃ s, Informational.fromStr s = i
  vulnerabilities : ∀ v ∈ r.vulnerabilities.list, VulnerabilityRead L v
  warnings : ∀ e ∈ r.warnings, ∀ w ∈ e.2, WarningRead L w

/-! ### Places in a JSON value -/

/-- A step into a JSON value: a member of an object or an element of an array. -/
inductive JsonStep where
  | key (k : String)
  | idx (i : Nat)

/-- The value at a place. -/
def jsonAt : List JsonStep → Json → Option Json
  | [], j => some j
  | .key k :: p, .obj l => (l.lookup k.toList).bind (jsonAt p)
  | .idx i :: p, .arr l => (l[i]?).bind (jsonAt p)
  | _ :: _, _ => none

end Verif.Spec
