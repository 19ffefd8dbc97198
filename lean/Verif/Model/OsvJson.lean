import Verif.Model.JsonPretty
import Verif.Model.ReportJson
import Verif.Model.OsvExport

/-!
# OSV files: `Serialize` and `Deserialize` of `OsvAdvisory`

`rustsec-admin osv` and `rustsec-admin web` write these records as JSON; `rustsec-admin sync` reads records that others
wrote (osv.dev) with the same types.  Here the record has all its fields (`rustsec/src/osv/advisory.rs:21-212`).

Simplifications: a struct is read from an object only (`serde` would also take an array of its fields in order); numbers
are unsigned and none is a field of this record; payloads of errors are dropped.
-/

namespace Verif.OsvJson

open Verif.Semver Verif.Osv Verif.Lock Verif.Adv Verif.RepJson Verif.Export Verif.Sync

/-! ### The record -/

/-- `osv/advisory.rs:138-145`: `enum OsvTimelineEvent`. -/
inductive OsvEvent where
  | introduced (v : Str)
  | fixed (v : Str)
  | lastAffected (v : Str)
  deriving DecidableEq, Repr

/-- `osv/advisory.rs:47-56`: `struct OsvPackage`. -/
structure OsvPackage where
  ecosystem : Str
  name : Str
  purl : Option Str

/-- `osv/advisory.rs:101-108`: `struct OsvJsonRange`. -/
structure OsvJsonRange where
  kind : Str
  events : List OsvEvent

/-- `osv/advisory.rs:185-192`: `struct OsvEcosystemSpecificAffected`. -/
structure OsvAffects where
  arch : List Str
  os : List Str
  functions : List (List Str)

/-- `osv/advisory.rs:179-183`: `struct OsvEcosystemSpecific`. -/
structure OsvEcosystem where
  affects : Option OsvAffects
  affectedFunctions : Option (List (List Str))

/-- `osv/advisory.rs:204-210`: `struct OsvDatabaseSpecific`. -/
structure OsvDatabase where
  categories : List Category
  cvss : Option Cvss.Cvss
  informational : Option Informational

/-- `osv/advisory.rs:91-99`: `struct OsvAffected`. -/
structure OsvAffectedFile where
  package : OsvPackage
  ecosystemSpecific : Option OsvEcosystem
  databaseSpecific : OsvDatabase
  ranges : Option (List OsvJsonRange)
  versions : Option (List Str)

/-- `osv/advisory.rs:164-177`: `enum OsvReferenceKind`. -/
inductive OsvRefKind where
  | advisory | article | report | fix | package | web
  deriving DecidableEq, Repr

/-- `osv/advisory.rs:147-153`: `struct OsvReference`. -/
structure OsvRef where
  kind : OsvRefKind
  url : Url

/-- `osv/advisory.rs:21-45`: `struct OsvAdvisory`; `license` is the only field of its `database_specific` (212-216). -/
structure OsvFile where
  schemaVersion : Option Version
  id : Id
  modified : Str
  published : Str
  withdrawn : Option Str
  aliases : List Id
  related : List Id
  summary : Str
  details : Str
  severity : List OsvSeverity
  affected : List OsvAffectedFile
  references : List OsvRef
  license : Option Str

/-! ### `Serialize` -/

/-- `osv/advisory.rs:138-145`: one member named after the variant. -/
def jevent : OsvEvent → Json
  | .introduced v => .obj [("introduced".toList, jstr v)]
  | .fixed v => .obj [("fixed".toList, jstr v)]
  | .lastAffected v => .obj [("last_affected".toList, jstr v)]

/-- `osv/advisory.rs:47-56`. -/
def josvPackage (p : OsvPackage) : Json :=
  .obj
    [("ecosystem".toList, jstr p.ecosystem),
      ("name".toList, jstr p.name),
      ("purl".toList, jopt jstr p.purl)]

/-- `osv/advisory.rs:101-108`. -/
def jrange (r : OsvJsonRange) : Json :=
  .obj
    [("type".toList, jstr r.kind),
      ("events".toList, jarr jevent r.events)]

/-- `affected.rs:115-119`: a function path, as text (the empty path, which no parse returns, would panic). -/
def jpath (p : List Str) : Json :=
  jstr (match FunctionPath.display p with | .ok s => s | .err | .panic => [])

/-- `osv/advisory.rs:185-192`. -/
def jaffects (a : OsvAffects) : Json :=
  .obj
    [("arch".toList, jarr jstr a.arch),
      ("os".toList, jarr jstr a.os),
      ("functions".toList, jarr jpath a.functions)]

/-- `osv/advisory.rs:179-183`. -/
def jecosystem (e : OsvEcosystem) : Json :=
  .obj
    [("affects".toList, jopt jaffects e.affects),
      ("affected_functions".toList, jopt (jarr jpath) e.affectedFunctions)]

/-- `osv/advisory.rs:204-210`. -/
def josvDatabase (d : OsvDatabase) : Json :=
  .obj
    [("categories".toList, jarr (fun c => jstr c.name) d.categories),
      ("cvss".toList, jopt (fun c => jstr (Cvss.Cvss.display c)) d.cvss),
      ("informational".toList, jopt (fun i => jstr i.asStr) d.informational)]

/-- `osv/advisory.rs:91-99`. -/
def jaffectedFile (a : OsvAffectedFile) : Json :=
  .obj
    [("package".toList, josvPackage a.package),
      ("ecosystem_specific".toList, jopt jecosystem a.ecosystemSpecific),
      ("database_specific".toList, josvDatabase a.databaseSpecific),
      ("ranges".toList, jopt (jarr jrange) a.ranges),
      ("versions".toList, jopt (jarr jstr) a.versions)]

/-- `osv/advisory.rs:164-177`: the names of the variants. -/
def OsvRefKind.name : OsvRefKind → Str
  | .advisory => "ADVISORY".toList
  | .article => "ARTICLE".toList
  | .report => "REPORT".toList
  | .fix => "FIX".toList
  | .package => "PACKAGE".toList
  | .web => "WEB".toList

/-- `osv/advisory.rs:147-153`. -/
def jreference (r : OsvRef) : Json :=
  .obj
    [("type".toList, jstr r.kind.name),
      ("url".toList, jstr r.url.text)]

/-- `osv/advisory.rs:68-76`: the names of the variants. -/
def severityType : OsvSeverity → Str
  | .v2 _ => "CVSS_V2".toList
  | .v3 _ => "CVSS_V3".toList
  | .v4 _ => "CVSS_V4".toList

/-- `osv/advisory.rs:68-76`: adjacently tagged. -/
def jseverity (s : OsvSeverity) : Json :=
  .obj
    [("type".toList, jstr (severityType s)),
      ("score".toList, jstr s.score)]

/-- A member that is left out if there is no value (`skip_serializing_if = "Option::is_none"`). -/
def jskip {α : Type} (k : String) (f : α → Json) : Option α → List (Str × Json)
  | none => []
  | some a => [(k.toList, f a)]

/-- `osv/advisory.rs:21-45`: the derived `Serialize` of `OsvAdvisory`. -/
def OsvFile.serialize (L : ReportLib) (o : OsvFile) : Json :=
  .obj
    (jskip "schema_version" (fun v => jstr (L.showVersion v)) o.schemaVersion
      ++ ([("id".toList, jstr o.id.string),
        ("modified".toList, jstr o.modified),
        ("published".toList, jstr o.published)]
      ++ (jskip "withdrawn" jstr o.withdrawn
      ++ [("aliases".toList, jarr (fun i => jstr i.string) o.aliases),
        ("related".toList, jarr (fun i => jstr i.string) o.related),
        ("summary".toList, jstr o.summary),
        ("details".toList, jstr o.details),
        ("severity".toList, jarr jseverity o.severity),
        ("affected".toList, jarr jaffectedFile o.affected),
        ("references".toList, jarr jreference o.references),
        ("database_specific".toList, .obj [("license".toList, jopt jstr o.license)])])))

/-! ### `Deserialize` -/

/-- The values of a member. -/
def values (l : List (Str × Json)) (k : String) : List Json :=
  (l.filter fun e => e.1 = k.toList).map Prod.snd

/-- A field without a default: an error if it is missing or given twice. -/
def need {α : Type} (l : List (Str × Json)) (k : String) (f : Json → Outcome α) : Outcome α :=
  match values l k with
  | [j] => f j
  | _ => .err

/-- A field with a default (`#[serde(default)]`; an `Option` defaults to `None`): an error if it is given twice. -/
def may {α : Type} (l : List (Str × Json)) (k : String) (d : α) (f : Json → Outcome α) : Outcome α :=
  match values l k with
  | [] => .ok d
  | [j] => f j
  | _ => .err

/-- `osv/advisory.rs:138-145`: an object with one member, named after a variant. -/
def devent : Json → Outcome OsvEvent
  | .obj [(k, v)] =>
    if k = "introduced".toList then Cvss.Outcome.map .introduced (dstr .ok v)
    else if k = "fixed".toList then Cvss.Outcome.map .fixed (dstr .ok v)
    else if k = "last_affected".toList then Cvss.Outcome.map .lastAffected (dstr .ok v)
    else .err
  | _ => .err

/-- `osv/advisory.rs:47-56`. -/
def dosvPackage : Json → Outcome OsvPackage :=
  members fun t => do
    let ecosystem ← need t "ecosystem" (dstr .ok)
    let name ← need t "name" (dstr .ok)
    let purl ← may t "purl" none (dopt (dstr .ok))
    .ok { ecosystem, name, purl }

/-- `osv/advisory.rs:101-108`. -/
def drange : Json → Outcome OsvJsonRange :=
  members fun t => do
    let kind ← need t "type" (dstr .ok)
    let events ← need t "events" (darr devent)
    .ok { kind, events }

/-- `osv/advisory.rs:185-192`. -/
def daffects : Json → Outcome OsvAffects :=
  members fun t => do
    let arch ← need t "arch" (darr (dstr .ok))
    let os ← need t "os" (darr (dstr .ok))
    let functions ← need t "functions" (darr (dstr FunctionPath.fromStr))
    .ok { arch, os, functions }

/-- `osv/advisory.rs:179-183`. -/
def decosystem : Json → Outcome OsvEcosystem :=
  members fun t => do
    let affects ← may t "affects" none (dopt daffects)
    let affectedFunctions ← may t "affected_functions" none (dopt (darr (dstr FunctionPath.fromStr)))
    .ok { affects, affectedFunctions }

/-- `osv/advisory.rs:204-210`. -/
def dosvDatabase : Json → Outcome OsvDatabase :=
  members fun t => do
    let categories ← may t "categories" [] (darr (dstr fun s => .ok (Category.fromStr s)))
    let cvss ← may t "cvss" none (dopt (dstr Cvss.Cvss.fromStr))
    let informational ← may t "informational" none (dopt (dstr fun s => .ok (Informational.fromStr s)))
    .ok { categories, cvss, informational }

/-- `osv/advisory.rs:91-99`: of these only the package and `database_specific` are required. -/
def daffectedFile : Json → Outcome OsvAffectedFile :=
  members fun t => do
    let package ← need t "package" dosvPackage
    let ecosystemSpecific ← may t "ecosystem_specific" none (dopt decosystem)
    let databaseSpecific ← need t "database_specific" dosvDatabase
    let ranges ← may t "ranges" none (dopt (darr drange))
    let versions ← may t "versions" none (dopt (darr (dstr .ok)))
    .ok { package, ecosystemSpecific, databaseSpecific, ranges, versions }

/-- `osv/advisory.rs:164-177`. -/
def OsvRefKind.fromName (s : Str) : Option OsvRefKind :=
  if s = "ADVISORY".toList then some .advisory
  else if s = "ARTICLE".toList then some .article
  else if s = "REPORT".toList then some .report
  else if s = "FIX".toList then some .fix
  else if s = "PACKAGE".toList then some .package
  else if s = "WEB".toList then some .web
  else none

/-- `osv/advisory.rs:164-177`: `serde_json` reads a variant without content from its name, or from an object that gives the
name the value `null`. -/
def drefKind : Json → Outcome OsvRefKind
  | .str s => ofOption (OsvRefKind.fromName s)
  | .obj [(k, .null)] => ofOption (OsvRefKind.fromName k)
  | _ => .err

/-- `osv/advisory.rs:147-153`. -/
def dreference (L : ReportLib) : Json → Outcome OsvRef :=
  members fun t => do
    let kind ← need t "type" drefKind
    let url ← need t "url" (dstr fun s => ofOption (Url.parse L.adv.url s))
    .ok { kind, url }

/-- `osv/advisory.rs:68-76`: the content, read as the type says. -/
def dscore (ty : Str) : Json → Outcome OsvSeverity :=
  if ty = "CVSS_V2".toList then dstr fun s => Cvss.Outcome.map .v2 (Cvss.V2.Vector.fromStr s)
  else if ty = "CVSS_V3".toList then dstr fun s => Cvss.Outcome.map .v3 (Cvss.V3.Base.fromStr s)
  else if ty = "CVSS_V4".toList then dstr fun s => Cvss.Outcome.map .v4 (Cvss.V4.Vector.fromStr s)
  else fun _ => .err

/-- `osv/advisory.rs:68-76`: adjacently tagged; other members are ignored. -/
def dseverity : Json → Outcome OsvSeverity :=
  members fun t => do
    let ty ← need t "type" (dstr .ok)
    need t "score" (dscore ty)

/-- `osv/advisory.rs:21-45`: the derived `Deserialize` of `OsvAdvisory`; unknown members are ignored. -/
def OsvFile.deserialize (L : ReportLib) : Json → Outcome OsvFile :=
  members fun t => do
    let schemaVersion ← may t "schema_version" none (dopt (dversion L))
    let id ← need t "id" (dstr Id.fromStr)
    let modified ← need t "modified" (dstr .ok)
    let published ← need t "published" (dstr .ok)
    let withdrawn ← may t "withdrawn" none (dopt (dstr .ok))
    let aliases ← may t "aliases" [] (darr (dstr Id.fromStr))
    let related ← may t "related" [] (darr (dstr Id.fromStr))
    let summary ← need t "summary" (dstr .ok)
    let details ← need t "details" (dstr .ok)
    let severity ← may t "severity" [] (darr dseverity)
    let affected ← may t "affected" [] (darr daffectedFile)
    let references ← may t "references" [] (darr (dreference L))
    let license ← may t "database_specific" none (members fun d => may d "license" none (dopt (dstr .ok)))
    .ok { schemaVersion, id, modified, published, withdrawn, aliases, related, summary, details, severity, affected,
          references, license }

/-! ### The files -/

/-- The kinds that the exporter writes, among all kinds. -/
def refKind : RefKind → OsvRefKind
  | .advisory => .advisory
  | .report => .report
  | .package => .package
  | .web => .web

/-- `osv/advisory.rs:114-127`: the events of the timeline hold versions as text. -/
def eventText (L : ReportLib) : TimelineEvent → OsvEvent
  | .introduced v => .introduced (L.showVersion v)
  | .fixed v => .fixed (L.showVersion v)

/-- `osv/advisory.rs:247-290`: what `from_rustsec` fills in, with its constants. -/
def affectedFile (L : ReportLib) (a : OsvAffected) : OsvAffectedFile :=
  { package := { ecosystem := a.ecosystem, name := a.name, purl := some a.purl }
    ranges := some [{ kind := "SEMVER".toList, events := a.events.map (eventText L) }]
    versions := some []
    ecosystemSpecific := some {
      affects := some { arch := a.arch, os := a.os, functions := a.functions }
      affectedFunctions := none }
    databaseSpecific := { categories := a.categories, cvss := a.cvss, informational := a.informational } }

/-- `osv/advisory.rs:247-290`: the record that `from_rustsec` returns, with all fields. -/
def exportedFile (L : ReportLib) (o : OsvAdvisory) : OsvFile :=
  { schemaVersion := none, id := o.id, modified := o.modified, published := o.published, withdrawn := o.withdrawn,
    aliases := o.aliases, related := o.related, summary := o.summary, details := o.details, severity := o.severity,
    affected := o.affected.map (affectedFile L),
    references := o.references.map fun r => { kind := refKind r.kind, url := r.url },
    license := some o.license }

/-- `admin/src/osv_export.rs:82-88`: the content of one output file. -/
def osvText (L : ReportLib) (o : OsvAdvisory) : Str := Json.pretty 0 ((exportedFile L o).serialize L)

/-- `admin/src/web.rs:227-239`: the content of the OSV file of one package. -/
def osvListText (L : ReportLib) (os : List OsvAdvisory) : Str :=
  Json.pretty 0 (jarr (fun o => (exportedFile L o).serialize L) os)

/-- What `sync` uses of a file. -/
def OsvFile.record (o : OsvFile) : OsvRecord :=
  { id := o.id, aliases := o.aliases, withdrawn := o.withdrawn.isSome,
    affected := o.affected.map fun a => (a.package.ecosystem, a.package.name),
    references := o.references.map fun r => r.url.text, published := o.published }

end Verif.OsvJson
