import Verif.Model.Json
import Verif.Model.AdvisoryFile
import Verif.Model.Lockfile
import Verif.Model.Report

/-!
# The JSON report: `Serialize` and `Deserialize` of `Report`

`cargo audit --json` writes the report with `serde_json`; the same types read it back.  Here the report has all its
fields.  A `BTreeMap` is the list of its entries in order, a `time::OffsetDateTime` is opaque.  Text conversions of
other crates (`semver`, `url`, `jiff`, `time`) are parameters.  Payloads of errors are dropped.
-/

namespace Verif.RepJson

open Verif.Semver Verif.Osv Verif.Lock Verif.Adv Verif.Rep

/-- The libraries behind the text of the leaves. -/
structure ReportLib where
  /-- parsers used when an advisory is read -/
  adv : AdvLib
  /-- `Display for semver::VersionReq` -/
  showReq : VersionReq → Str
  /-- `Display for semver::Version` -/
  showVersion : Version → Str
  /-- `semver::Version::from_str` -/
  parseVersion : Str → Option Version
  /-- `time::OffsetDateTime` -/
  Time : Type
  /-- `time::serde::rfc3339` when writing: fails on years before 0 or after 9999, and on offsets with seconds -/
  showTime : Time → Option Str
  /-- `time::serde::rfc3339` when reading -/
  parseTime : Str → Option Time

/-! ### The report -/

/-- `rustsec/src/vulnerability.rs:10-24`: `struct Vulnerability`, with all metadata. -/
structure FullVulnerability where
  advisory : FileMetadata
  versions : Versions
  affected : Option Affected
  package : Package

/-- `rustsec/src/warning.rs:8-25`: `struct Warning`, with all metadata. -/
structure FullWarning where
  kind : WarningKind
  package : Package
  advisory : Option FileMetadata
  affected : Option Affected
  versions : Option Versions

/-- `rustsec/src/report.rs:94-109`: `struct DatabaseInfo`. -/
structure DatabaseInfo (T : Type) where
  advisoryCount : Nat
  lastCommit : Option Str
  lastUpdated : Option T

/-- `rustsec/src/report.rs:142-153`: `struct VulnerabilityInfo`. -/
structure FullVulnerabilityInfo where
  found : Bool
  count : Nat
  list : List FullVulnerability

/-- `rustsec/src/report.rs:16-34`: `struct Report`; `lockfile` is `LockfileInfo` (124-131), one number. -/
structure FullReport (T : Type) where
  database : DatabaseInfo T
  dependencyCount : Nat
  settings : Settings
  vulnerabilities : FullVulnerabilityInfo
  warnings : List (WarningKind × List FullWarning)

/-! ### `Serialize` -/

/-- A string member. -/
def jstr (s : Str) : Json := .str s

/-- `Option<T>`: `null` or the value. -/
def jopt {α : Type} (f : α → Json) : Option α → Json
  | none => .null
  | some a => f a

/-- `Vec<T>`. -/
def jarr {α : Type} (f : α → Json) (l : List α) : Json := .arr (l.map f)

/-- `cargo-lock/src/package/source.rs:289-297`: `Serialize for SourceId`: `null` for a path, else `Display`
(314-318). -/
def jsource (s : SourceId) : Json :=
  if s.kind = .path then .null else .str (s.asUrl false)

/-- `rustsec/src/advisory/metadata.rs:13-98`: the derived `Serialize` of `Metadata` and those of its fields:
`id.rs:156-160`, `date.rs` (derived, a newtype of `String`), `collection.rs:61-65`, `category.rs:116-120`,
`keyword.rs:8` (derived), `cvss/src/cvss.rs:108-117`, `informational.rs:101-105`, `license.rs:40-47`. -/
def jmetadata (m : FileMetadata) : Json :=
  .obj
    [("id".toList, jstr m.id.string),
      ("package".toList, jstr m.package),
      ("title".toList, jstr m.title),
      ("description".toList, jstr m.description),
      ("date".toList, jstr m.date.text),
      ("aliases".toList, jarr (fun i => jstr i.string) m.aliases),
      ("related".toList, jarr (fun i => jstr i.string) m.related),
      ("collection".toList, jopt (fun c => jstr c.asStr) m.collection),
      ("categories".toList, jarr (fun c => jstr c.name) m.categories),
      ("keywords".toList, jarr jstr m.keywords),
      ("cvss".toList, jopt (fun c => jstr (Cvss.Cvss.display c)) m.cvss),
      ("informational".toList, jopt (fun i => jstr i.asStr) m.informational),
      ("references".toList, jarr (fun u => jstr u.text) m.references),
      ("source".toList, jopt jsource m.source),
      ("url".toList, jopt (fun u => jstr u.text) m.url),
      ("withdrawn".toList, jopt (fun d => jstr d.text) m.withdrawn),
      ("license".toList, jstr m.license.spdx),
      ("expect-deleted".toList, .bool m.expectDeleted)]

/-- One entry of the `functions` map: the key is the path as a string (`affected.rs:115-119`).  `Display` of the empty
path, which no parse returns, would panic; the model writes the empty string. -/
def jfunction (L : ReportLib) (e : List Str × List VersionReq) : Str × Json :=
  ((match FunctionPath.display e.1 with | .ok s => s | .err | .panic => []), jarr (fun r => jstr (L.showReq r)) e.2)

/-- `rustsec/src/advisory/affected.rs:19-36`: the derived `Serialize` of `Affected`. -/
def jaffected (L : ReportLib) (a : Affected) : Json :=
  .obj
    [("arch".toList, jarr jstr a.arch),
      ("os".toList, jarr jstr a.os),
      ("functions".toList, .obj (a.functions.map (jfunction L)))]

/-- `rustsec/src/advisory/versions.rs:9-18`: the derived `Serialize` of `Versions`. -/
def jversions (L : ReportLib) (v : Versions) : Json :=
  .obj
    [("patched".toList, jarr (fun r => jstr (L.showReq r)) v.patched),
      ("unaffected".toList, jarr (fun r => jstr (L.showReq r)) v.unaffected)]

/-- `cargo-lock/src/dependency.rs:17-27`: the derived `Serialize` of `Dependency`. -/
def jdependency (L : ReportLib) (d : Dependency) : Json :=
  .obj
    [("name".toList, jstr d.name),
      ("version".toList, jstr (L.showVersion d.version)),
      ("source".toList, jopt jsource d.source)]

/-- `cargo-lock/src/package.rs:18-40`: the `dependencies` member is left out when it is empty. -/
def jdependencies (L : ReportLib) (ds : List Dependency) : List (Str × Json) :=
  match ds with
  | [] => []
  | d :: ds => [("dependencies".toList, jarr (jdependency L) (d :: ds))]

/-- `cargo-lock/src/package.rs:18-40`: the derived `Serialize` of `Package`; `Checksum`: `checksum.rs:106-110`. -/
def jpackage (L : ReportLib) (p : Package) : Json :=
  .obj
    ([("name".toList, jstr p.name),
      ("version".toList, jstr (L.showVersion p.version)),
      ("source".toList, jopt jsource p.source),
      ("checksum".toList, jopt (fun c => jstr (Checksum.show c)) p.checksum)]
      ++ jdependencies L p.dependencies
      ++ [("replace".toList, jopt (jdependency L) p.replace)])

/-- `rustsec/src/vulnerability.rs:10-24`: the derived `Serialize` of `Vulnerability`. -/
def jvulnerability (L : ReportLib) (v : FullVulnerability) : Json :=
  .obj
    [("advisory".toList, jmetadata v.advisory),
      ("versions".toList, jversions L v.versions),
      ("affected".toList, jopt (jaffected L) v.affected),
      ("package".toList, jpackage L v.package)]

/-- `rustsec/src/warning.rs:8-25,66-86`: the derived `Serialize` of `Warning` and `WarningKind`. -/
def jwarning (L : ReportLib) (w : FullWarning) : Json :=
  .obj
    [("kind".toList, jstr w.kind.asStr),
      ("package".toList, jpackage L w.package),
      ("advisory".toList, jopt jmetadata w.advisory),
      ("affected".toList, jopt (jaffected L) w.affected),
      ("versions".toList, jopt (jversions L) w.versions)]

/-- `rustsec/src/report.rs:58-78`: the derived `Serialize` of `Settings`; `Severity`: `cvss/src/severity.rs:91-98`. -/
def jsettings (s : Settings) : Json :=
  .obj
    [("target_arch".toList, jarr jstr s.targetArch),
      ("target_os".toList, jarr jstr s.targetOs),
      ("severity".toList, jopt (fun v => jstr v.asStr) s.severity),
      ("ignore".toList, jarr (fun i => jstr i.string) s.ignore),
      ("informational_warnings".toList, jarr (fun i => jstr i.asStr) s.informationalWarnings)]

/-- `rustsec/src/report.rs:106-108`: `time::serde::rfc3339::option` when writing. -/
def jtime (L : ReportLib) : Option L.Time → Outcome Json
  | none => .ok .null
  | some t =>
    match L.showTime t with
    | some s => .ok (.str s)
    | none => .err

/-- `rustsec/src/report.rs:94-109`: the derived `Serialize` of `DatabaseInfo`. -/
def jdatabase (L : ReportLib) (d : DatabaseInfo L.Time) : Outcome Json := do
  let t ← jtime L d.lastUpdated
  .ok (.obj
    [("advisory-count".toList, .num d.advisoryCount),
      ("last-commit".toList, jopt jstr d.lastCommit),
      ("last-updated".toList, t)])

/-- `rustsec/src/report.rs:142-153`: the derived `Serialize` of `VulnerabilityInfo`. -/
def jvulnerabilities (L : ReportLib) (v : FullVulnerabilityInfo) : Json :=
  .obj
    [("found".toList, .bool v.found),
      ("count".toList, .num v.count),
      ("list".toList, jarr (jvulnerability L) v.list)]

/-- `rustsec/src/report.rs:166`: a map keyed by warning kind. -/
def jwarnings (L : ReportLib) (ws : List (WarningKind × List FullWarning)) : Json :=
  .obj (ws.map fun e => (e.1.asStr, jarr (jwarning L) e.2))

/-- `rustsec/src/report.rs:16-34`: the derived `Serialize` of `Report`.  Errors only if the time of the last commit
cannot be written. -/
def FullReport.serialize (L : ReportLib) (r : FullReport L.Time) : Outcome Json := do
  let d ← jdatabase L r.database
  .ok (.obj
    [("database".toList, d),
      ("lockfile".toList, .obj [("dependency-count".toList, .num r.dependencyCount)]),
      ("settings".toList, jsettings r.settings),
      ("vulnerabilities".toList, jvulnerabilities L r.vulnerabilities),
      ("warnings".toList, jwarnings L r.warnings)])

/-! ### `Deserialize` -/

/-- The members of an object. -/
def members {α : Type} (f : List (Str × Json) → Outcome α) : Json → Outcome α
  | .obj l => f l
  | _ => .err

/-- A value that must be a string. -/
def dstr {α : Type} (f : Str → Outcome α) : Json → Outcome α
  | .str s => f s
  | _ => .err

/-- `Vec<T>`. -/
def darr {α : Type} (f : Json → Outcome α) : Json → Outcome (List α)
  | .arr l => Outcome.mapList f l
  | _ => .err

/-- `Option<T>`: `null` is `None`. -/
def dopt {α : Type} (f : Json → Outcome α) : Json → Outcome (Option α)
  | .null => .ok none
  | j => Cvss.Outcome.map some (f j)

/-- An unsigned number. -/
def dnum : Json → Outcome Nat
  | .num n => .ok n
  | _ => .err

/-- A boolean. -/
def dbool : Json → Outcome Bool
  | .bool b => .ok b
  | _ => .err

/-- A field without a default: an error if it is missing. -/
def field {α : Type} (l : List (Str × Json)) (k : String) (f : Json → Outcome α) : Outcome α :=
  match l.lookup k.toList with
  | some j => f j
  | none => .err

/-- A field with a default (`#[serde(default)]`; an `Option` defaults to `None`). -/
def fieldOr {α : Type} (l : List (Str × Json)) (k : String) (d : α) (f : Json → Outcome α) : Outcome α :=
  match l.lookup k.toList with
  | some j => f j
  | none => .ok d

/-- `cargo-lock/src/package/source.rs:299-304`: `Deserialize for SourceId`. -/
def dsource (L : ReportLib) : Json → Outcome SourceId := dstr (SourceId.fromUrl L.adv.url)

/-- `rustsec/src/advisory/metadata.rs:13-98`: the derived `Deserialize` of `Metadata` (unknown members are
ignored); fields as in `FileMetadata.decode`. -/
def dmetadata (L : ReportLib) : Json → Outcome FileMetadata :=
  members fun t => do
    let id ← field t "id" (dstr Id.fromStr)
    let package ← field t "package" (dstr .ok)
    let title ← fieldOr t "title" [] (dstr .ok)
    let description ← fieldOr t "description" [] (dstr .ok)
    let date ← field t "date" (dstr (DateText.fromStr L.adv.civil))
    let aliases ← fieldOr t "aliases" [] (darr (dstr Id.fromStr))
    let related ← fieldOr t "related" [] (darr (dstr Id.fromStr))
    let collection ← fieldOr t "collection" none (dopt (dstr fun s => ofOption (Collection.fromStr s)))
    let categories ← fieldOr t "categories" [] (darr (dstr fun s => .ok (Category.fromStr s)))
    let keywords ← fieldOr t "keywords" [] (darr (dstr .ok))
    let cvss ← fieldOr t "cvss" none (dopt (dstr Cvss.Cvss.fromStr))
    let informational ← fieldOr t "informational" none (dopt (dstr fun s => .ok (Informational.fromStr s)))
    let references ← fieldOr t "references" [] (darr (dstr fun s => ofOption (Url.parse L.adv.url s)))
    let source ← fieldOr t "source" none (dopt (dsource L))
    let url ← fieldOr t "url" none (dopt (dstr fun s => ofOption (Url.parse L.adv.url s)))
    let withdrawn ← fieldOr t "withdrawn" none (dopt (dstr (DateText.fromStr L.adv.civil)))
    let license ← fieldOr t "license" .ccZero10 (dstr fun s => .ok (License.ofString s))
    let expectDeleted ← fieldOr t "expect-deleted" false dbool
    .ok { id, package, title, description, date, aliases, related, collection, categories, keywords, cvss,
          informational, references, source, url, withdrawn, license, expectDeleted }

/-- A list of version requirements. -/
def dreqs (L : ReportLib) : Json → Outcome (List VersionReq) := darr (dstr fun s => ofOption (L.adv.req s))

/-- One entry of the `functions` map (`affected.rs:109-113` for the key). -/
def dfunction (L : ReportLib) (e : Str × Json) : Outcome (List Str × List VersionReq) := do
  let p ← FunctionPath.fromStr e.1
  let rs ← dreqs L e.2
  .ok (p, rs)

/-- `rustsec/src/advisory/affected.rs:19-36`: the derived `Deserialize` of `Affected`. -/
def daffected (L : ReportLib) : Json → Outcome Affected :=
  members fun t => do
    let arch ← fieldOr t "arch" [] (darr (dstr .ok))
    let os ← fieldOr t "os" [] (darr (dstr .ok))
    let functions ← fieldOr t "functions" [] (members fun l => Outcome.mapList (dfunction L) l)
    .ok { arch, os, functions }

/-- `rustsec/src/advisory/versions.rs:9-18,52-71`: `Deserialize` of `Versions` through `RawVersions`. -/
def dversions (L : ReportLib) : Json → Outcome Versions :=
  members fun t => do
    let patched ← field t "patched" (dreqs L)
    let unaffected ← fieldOr t "unaffected" [] (dreqs L)
    Versions.new patched unaffected

/-- A version. -/
def dversion (L : ReportLib) : Json → Outcome Version := dstr fun s => ofOption (L.parseVersion s)

/-- `cargo-lock/src/dependency.rs:17-27`: the derived `Deserialize` of `Dependency`. -/
def ddependency (L : ReportLib) : Json → Outcome Dependency :=
  members fun t => do
    let name ← field t "name" (dstr .ok)
    let version ← field t "version" (dversion L)
    let source ← fieldOr t "source" none (dopt (dsource L))
    .ok { name, version, source }

/-- `cargo-lock/src/package.rs:18-40`: the derived `Deserialize` of `Package`; `Checksum`: `checksum.rs:97-104`. -/
def dpackage (L : ReportLib) : Json → Outcome Package :=
  members fun t => do
    let name ← field t "name" (dstr .ok)
    let version ← field t "version" (dversion L)
    let source ← fieldOr t "source" none (dopt (dsource L))
    let checksum ← fieldOr t "checksum" none (dopt (dstr Checksum.fromStr))
    let dependencies ← fieldOr t "dependencies" [] (darr (ddependency L))
    let replace ← fieldOr t "replace" none (dopt (ddependency L))
    .ok { name, version, source, checksum, dependencies, replace }

/-- `rustsec/src/vulnerability.rs:10-24`: the derived `Deserialize` of `Vulnerability`. -/
def dvulnerability (L : ReportLib) : Json → Outcome FullVulnerability :=
  members fun t => do
    let advisory ← field t "advisory" (dmetadata L)
    let versions ← field t "versions" (dversions L)
    let affected ← fieldOr t "affected" none (dopt (daffected L))
    let package ← field t "package" (dpackage L)
    .ok { advisory, versions, affected, package }

/-- `rustsec/src/warning.rs:8-25`: the derived `Deserialize` of `Warning`. -/
def dwarning (L : ReportLib) : Json → Outcome FullWarning :=
  members fun t => do
    let kind ← field t "kind" (dstr fun s => ofOption (WarningKind.fromStr s))
    let package ← field t "package" (dpackage L)
    let advisory ← fieldOr t "advisory" none (dopt (dmetadata L))
    let affected ← fieldOr t "affected" none (dopt (daffected L))
    let versions ← fieldOr t "versions" none (dopt (dversions L))
    .ok { kind, package, advisory, affected, versions }

/-- `rustsec/src/report.rs:58-78`: the derived `Deserialize` of `Settings`. -/
def dsettings : Json → Outcome Settings :=
  members fun t => do
    let targetArch ← field t "target_arch" (darr (dstr .ok))
    let targetOs ← field t "target_os" (darr (dstr .ok))
    let severity ← fieldOr t "severity" none (dopt (dstr fun s => ofOption (Severity.fromStr s)))
    let ignore ← field t "ignore" (darr (dstr Id.fromStr))
    let informationalWarnings ← field t "informational_warnings" (darr (dstr fun s => .ok (Informational.fromStr s)))
    .ok { targetArch, targetOs, severity, ignore, informationalWarnings }

/-- `rustsec/src/report.rs:94-109`: the derived `Deserialize` of `DatabaseInfo` (a field read `with` a function is not
optional even if it is an `Option`). -/
def ddatabase (L : ReportLib) : Json → Outcome (DatabaseInfo L.Time) :=
  members fun t => do
    let advisoryCount ← field t "advisory-count" dnum
    let lastCommit ← fieldOr t "last-commit" none (dopt (dstr .ok))
    let lastUpdated ← field t "last-updated" (dopt (dstr fun s => ofOption (L.parseTime s)))
    .ok { advisoryCount, lastCommit, lastUpdated }

/-- `rustsec/src/report.rs:142-153`: the derived `Deserialize` of `VulnerabilityInfo`. -/
def dvulnerabilities (L : ReportLib) : Json → Outcome FullVulnerabilityInfo :=
  members fun t => do
    let found ← field t "found" dbool
    let count ← field t "count" dnum
    let list ← field t "list" (darr (dvulnerability L))
    .ok { found, count, list }

/-- One entry of the warnings (`warning.rs:66-86` for the key). -/
def dwarningEntry (L : ReportLib) (e : Str × Json) : Outcome (WarningKind × List FullWarning) := do
  let k ← ofOption (WarningKind.fromStr e.1)
  let ws ← darr (dwarning L) e.2
  .ok (k, ws)

/-- `rustsec/src/report.rs:16-34`: the derived `Deserialize` of `Report`. -/
def FullReport.deserialize (L : ReportLib) : Json → Outcome (FullReport L.Time) :=
  members fun t => do
    let database ← field t "database" (ddatabase L)
    let dependencyCount ← field t "lockfile" (members fun l => field l "dependency-count" dnum)
    let settings ← field t "settings" dsettings
    let vulnerabilities ← field t "vulnerabilities" (dvulnerabilities L)
    let warnings ← field t "warnings" (members fun l => Outcome.mapList (dwarningEntry L) l)
    .ok { database, dependencyCount, settings, vulnerabilities, warnings }

/-! ### The output of `cargo audit --json` -/

/-- cargo-audit/src/presenter.rs:121-127: one report is written and ended with a newline; `unwrap` panics if writing
fails (writing to standard output is taken to succeed). -/
def printJsonReport (L : ReportLib) (r : FullReport L.Time) : Outcome Str :=
  match FullReport.serialize L r with
  | .ok j => .ok (Json.print j ++ ['\n'])
  | .err => .panic
  | .panic => .panic

/-- Several files are audited one after the other: the reports follow each other
(cargo-audit/src/presenter.rs:124-125). -/
def printJsonReports (L : ReportLib) (rs : List (FullReport L.Time)) : Outcome Str := do
  let texts ← Outcome.mapList (printJsonReport L) rs
  .ok texts.flatten

end Verif.RepJson
