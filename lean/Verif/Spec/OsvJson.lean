import Verif.Model.OsvJson
import Verif.Spec.ReportJson
import Verif.Spec.Json

/-!
# What the OSV files are about
-/

namespace Verif.Spec

open Verif Verif.Adv Verif.Lock Verif.Osv Verif.Export Verif.RepJson Verif.OsvJson Verif.Sync

/-- A severity whose vector was read from text. -/
def SeverityRead : OsvSeverity → Prop
  | .v2 v => FromText Cvss.V2.Vector.fromStr v
  | .v3 b => FromText Cvss.V3.Base.fromStr b
  | .v4 v => FromText Cvss.V4.Vector.fromStr v

/-- What an affected package holds was read from text. -/
structure AffectedFileRead (a : OsvAffectedFile) : Prop where
  functions : ∀ e, a.ecosystemSpecific = some e →
    (∀ x, e.affects = some x → ∀ p ∈ x.functions, FromText FunctionPath.fromStr p) ∧
      ∀ l, e.affectedFunctions = some l → ∀ p ∈ l, FromText FunctionPath.fromStr p
  categories : ∀ c ∈ a.databaseSpecific.categories, ∃ s, Category.fromStr s = c
  cvss : ∀ c, a.databaseSpecific.cvss = some c → FromText Cvss.Cvss.fromStr c
  informational : ∀ i, a.databaseSpecific.informational = some i → ∃ s, Informational.fromStr s = i

/-- The parts of a record that are not plain text were read from text. -/
structure OsvFileRead (L : ReportLib) (o : OsvFile) : Prop where
  schemaVersion : ∀ v, o.schemaVersion = some v → ∃ s, L.parseVersion s = some v
  id : FromText Id.fromStr o.id
  aliases : ∀ i ∈ o.aliases, FromText Id.fromStr i
  related : ∀ i ∈ o.related, FromText Id.fromStr i
  severity : ∀ s ∈ o.severity, SeverityRead s
  affected : ∀ a ∈ o.affected, AffectedFileRead a
  references : ∀ r ∈ o.references, ∃ s, Url.parse L.adv.url s = some r.url

/-- Reading an OSV file: JSON, then the record.  What `sync` is given as its parser (`admin/src/commands/sync.rs:461-462`). -/
def readOsvFile (L : ReportLib) (text : Str) : Option OsvFile :=
  (readJson text).bind fun j =>
    match OsvFile.deserialize L j with
    | .ok o => some o
    | _ => none

/-- The part of the file that `sync` works with. -/
def readOsv (L : ReportLib) (text : Str) : Option OsvRecord := (readOsvFile L text).map OsvFile.record

/-- The members called `k` of an object. -/
def membersCalled (k : String) : Json → List Json
  | .obj l => (l.filter fun e => e.1 = k.toList).map Prod.snd
  | _ => []

/-- The items of an array. -/
def itemsOf : Json → List Json
  | .arr l => l
  | _ => []

/-- The members of a record that this program knows. -/
def osvMembers : List String :=
  ["schema_version", "id", "modified", "published", "withdrawn", "aliases", "related", "summary", "details", "severity",
    "affected", "references", "database_specific"]

/-- An event that this program understands. -/
def KnownEvent (j : Json) : Prop :=
  ∃ k ∈ ["introduced", "fixed", "last_affected"], ∃ v, j = .obj [(k.toList, .str v)]

/-- The reference types that this program understands. -/
def knownReferences : List String := ["ADVISORY", "ARTICLE", "REPORT", "FIX", "PACKAGE", "WEB"]

/-- The severity types that this program understands. -/
def knownSeverities : List String := ["CVSS_V2", "CVSS_V3", "CVSS_V4"]

/-- What a record must look like to be read at all (the OSV schema requires only `id` and `modified`). -/
structure Readable (j : Json) : Prop where
  once : ∀ k ∈ osvMembers, (membersCalled k j).length ≤ 1
  required : ∀ k ∈ ["id", "modified", "published", "summary", "details"], ∃ s, membersCalled k j = [.str s]
  affected : ∀ v ∈ membersCalled "affected" j, ∀ a ∈ itemsOf v,
    (∃ p, membersCalled "package" a = [p] ∧
      ∀ k ∈ ["ecosystem", "name"], ∃ s, membersCalled k p = [.str s]) ∧
    (∃ l, membersCalled "database_specific" a = [.obj l])
  events : ∀ v ∈ membersCalled "affected" j, ∀ a ∈ itemsOf v, ∀ rs ∈ membersCalled "ranges" a, ∀ r ∈ itemsOf rs,
    ∃ es, membersCalled "events" r = [.arr es] ∧ ∀ e ∈ es, KnownEvent e
  references : ∀ v ∈ membersCalled "references" j, ∀ r ∈ itemsOf v,
    ∃ k ∈ knownReferences, membersCalled "type" r = [.str k.toList] ∨
      membersCalled "type" r = [.obj [(k.toList, .null)]]
  severity : ∀ v ∈ membersCalled "severity" j, ∀ r ∈ itemsOf v,
    ∃ k ∈ knownSeverities, membersCalled "type" r = [.str k.toList]

/-- The place of the first affected package. -/
def firstAffected (p : List JsonStep) : List JsonStep := .key "affected" :: .idx 0 :: p

/-- The name of the type of a reference in the OSV schema. -/
def osvReferenceType : RefKind → Str
  | .advisory => "ADVISORY".toList
  | .report => "REPORT".toList
  | .package => "PACKAGE".toList
  | .web => "WEB".toList

/-- The name of the type of a severity in the OSV schema, with the vector's text. -/
def osvSeverityText : OsvSeverity → Str × Str
  | .v2 v => ("CVSS_V2".toList, v.display)
  | .v3 b => ("CVSS_V3".toList, b.display)
  | .v4 v => ("CVSS_V4".toList, v.display)

/-- The name of an event in the OSV schema, with its version. -/
def osvEventName : TimelineEvent → String × Semver.Version
  | .introduced v => ("introduced", v)
  | .fixed v => ("fixed", v)

/-- What an OSV document says about one affected package, at the places of the OSV schema. -/
structure ShowsOsvAffected (L : ReportLib) (j : Json) (a : OsvAffected) : Prop where
  ecosystem : jsonAt (firstAffected [.key "package", .key "ecosystem"]) j = some (.str a.ecosystem)
  name : jsonAt (firstAffected [.key "package", .key "name"]) j = some (.str a.name)
  purl : jsonAt (firstAffected [.key "package", .key "purl"]) j = some (.str a.purl)
  rangeType : jsonAt (firstAffected [.key "ranges", .idx 0, .key "type"]) j = some (.str "SEMVER".toList)
  onlyRange : jsonAt (firstAffected [.key "ranges", .idx 1]) j = none
  event : ∀ (i : Nat) (e : TimelineEvent), a.events[i]? = some e →
    jsonAt (firstAffected [.key "ranges", .idx 0, .key "events", .idx i]) j =
      some (.obj [((osvEventName e).1.toList, .str (L.showVersion (osvEventName e).2))])
  lastEvent : jsonAt (firstAffected [.key "ranges", .idx 0, .key "events", .idx a.events.length]) j = none
  versions : jsonAt (firstAffected [.key "versions"]) j = some (.arr [])
  arch : jsonAt (firstAffected [.key "ecosystem_specific", .key "affects", .key "arch"]) j = some (.arr (a.arch.map .str))
  os : jsonAt (firstAffected [.key "ecosystem_specific", .key "affects", .key "os"]) j = some (.arr (a.os.map .str))
  function : ∀ (i : Nat) (p : List Str), a.functions[i]? = some p → ∀ s, FunctionPath.display p = .ok s →
    jsonAt (firstAffected [.key "ecosystem_specific", .key "affects", .key "functions", .idx i]) j = some (.str s)
  categories : jsonAt (firstAffected [.key "database_specific", .key "categories"]) j =
    some (.arr (a.categories.map fun c => .str c.name))
  cvss : jsonAt (firstAffected [.key "database_specific", .key "cvss"]) j =
    some (match a.cvss with | some c => .str (Cvss.Cvss.display c) | none => .null)
  informational : jsonAt (firstAffected [.key "database_specific", .key "informational"]) j =
    some (match a.informational with | some i => .str i.asStr | none => .null)

/-- What an OSV document says, at the places of the OSV schema. -/
structure ShowsOsv (L : ReportLib) (j : Json) (o : OsvAdvisory) : Prop where
  id : jsonAt [.key "id"] j = some (.str o.id.string)
  modified : jsonAt [.key "modified"] j = some (.str o.modified)
  published : jsonAt [.key "published"] j = some (.str o.published)
  withdrawn : jsonAt [.key "withdrawn"] j = o.withdrawn.map .str
  aliases : jsonAt [.key "aliases"] j = some (.arr (o.aliases.map fun i => .str i.string))
  related : jsonAt [.key "related"] j = some (.arr (o.related.map fun i => .str i.string))
  summary : jsonAt [.key "summary"] j = some (.str o.summary)
  details : jsonAt [.key "details"] j = some (.str o.details)
  severity : ∀ (i : Nat) (s : OsvSeverity), o.severity[i]? = some s →
    jsonAt [.key "severity", .idx i, .key "type"] j = some (.str (osvSeverityText s).1) ∧
    jsonAt [.key "severity", .idx i, .key "score"] j = some (.str (osvSeverityText s).2)
  lastSeverity : jsonAt [.key "severity", .idx o.severity.length] j = none
  reference : ∀ (i : Nat) (r : OsvReference), o.references[i]? = some r →
    jsonAt [.key "references", .idx i, .key "type"] j = some (.str (osvReferenceType r.kind)) ∧
    jsonAt [.key "references", .idx i, .key "url"] j = some (.str r.url.text)
  lastReference : jsonAt [.key "references", .idx o.references.length] j = none
  license : jsonAt [.key "database_specific", .key "license"] j = some (.str o.license)
  onlyAffected : jsonAt [.key "affected", .idx 1] j = none
  affected : ∃ a, o.affected = [a] ∧ ShowsOsvAffected L j a

end Verif.Spec
