import Verif.Model.Sync
import Verif.Model.ModTimes

/-!
# Exporting advisories in OSV format

Model of `rustsec/src/osv/advisory.rs:215-372` (one advisory) and of `admin/src/osv_export.rs` (the
`rustsec-admin osv` command).  A record is the value that is serialised; its JSON text is not modelled.

The repository is the disk of `Verif.Assign`, the history that of `Verif.Git`.  Output files are identified by
their names below the destination directory; IDs that contain `/` or are empty (the code would then leave that
directory) are left out.
-/

namespace Verif.Export

open Verif.Adv Verif.Assign Verif.Git Verif.Osv Verif.Lock Verif.Sync

/-! ### Times -/

/-- `time`: `format(&Rfc3339)` of a UTC time in seconds (no fraction); `expect` panics outside the years
0..9999 (`osv/advisory.rs:254-257`).  `cal` is the calendar of the `time` crate. -/
def rfc3339 (cal : Int → Int × Nat × Nat) (seconds : Int) : Outcome Str :=
  let date := cal (seconds / 86400)
  let s := (seconds % 86400).toNat
  if 0 ≤ date.1 ∧ date.1 ≤ 9999 then
    .ok (isoFormat date.1 date.2.1 date.2.2 ++ 'T' :: (showNatPad 2 (s / 3600) ++ ':' ::
      (showNatPad 2 (s / 60 % 60) ++ ':' :: (showNatPad 2 (s % 60) ++ ['Z']))))
  else .panic

/-- `osv/advisory.rs:366-368`: `rustsec_date_to_rfc3339`; the year is not padded. -/
def dateToRfc3339 (d : DateText) : Outcome Str := do
  let year ← d.year
  let month ← d.month
  let day ← d.day
  .ok (showNat year ++ '-' :: (showNatPad 2 month ++ '-' :: (showNatPad 2 day ++ "T12:00:00Z".toList)))

/-! ### References -/

/-- `osv/advisory.rs:166-177`: the kinds that the exporter writes. -/
inductive RefKind where
  | advisory | report | package | web
  deriving DecidableEq, Repr

/-- `str::contains`. -/
def urlHas (s : Str) (pat : String) : Bool := (findStr pat.toList s).isSome

/-- `osv/advisory.rs:351-364`: `guess_url_kind`. -/
def guessUrlKind (url : Url) : RefKind :=
  let s := url.text
  if (urlHas s "://github.com/" || urlHas s "://gitlab.") && urlHas s "/issues/" then .report
  else if urlHas s "/advisories/" || urlHas s "://www.cve.org/" then .advisory
  else if urlHas s "://crates.io/crates/" then .package
  else .web

/-- `osv/advisory.rs:147-153`: `struct OsvReference`. -/
structure OsvReference where
  kind : RefKind
  url : Url
  deriving DecidableEq, Repr

/-- `osv/advisory.rs:154-161`: `From<Url> for OsvReference`. -/
def OsvReference.ofUrl (url : Url) : OsvReference := { kind := guessUrlKind url, url }

/-- `Url::parse(..).unwrap()`. -/
def parseUrl (L : UrlLib) (s : Str) : Outcome Url :=
  match Url.parse L s with
  | some u => .ok u
  | none => .panic

/-! ### The record -/

/-- `osv/advisory.rs:69-76`: `enum OsvSeverity`. -/
inductive OsvSeverity where
  | v2 (v : Cvss.V2.Vector)
  | v3 (b : Cvss.V3.Base)
  | v4 (v : Cvss.V4.Vector)

/-- `osv/advisory.rs:78-90`: `TryFrom<Cvss> for OsvSeverity` (never fails). -/
def OsvSeverity.ofCvss : Cvss.Cvss → OsvSeverity
  | .v20 v => .v2 v
  | .v30 b => .v3 b
  | .v31 b => .v3 b
  | .v40 v => .v4 v

/-- The `score` that is written: the vector's text (`Serialize` of the vectors). -/
def OsvSeverity.score : OsvSeverity → Str
  | .v2 v => v.display
  | .v3 b => b.display
  | .v4 v => v.display


/-- The derived order of `FunctionPath`, a list of identifiers. -/
def pathCmp (a b : List Str) : Ordering := List.compareLex strCmp a b

/-- `osv/advisory.rs:47-57,92-100,179-212`: `OsvAffected` with the structures in it, without the constant fields
(`ranges` is one `SEMVER` range with these events, `versions` is empty, `affected_functions` is absent). -/
structure OsvAffected where
  ecosystem : Str
  name : Str
  purl : Str
  events : List TimelineEvent
  arch : List Str
  os : List Str
  functions : List (List Str)
  categories : List Category
  cvss : Option Cvss.Cvss
  informational : Option Informational

/-- `osv/advisory.rs:21-46`: `struct OsvAdvisory` (`schema_version` is absent). -/
structure OsvAdvisory where
  id : Id
  modified : Str
  published : Str
  withdrawn : Option Str
  aliases : List Id
  related : List Id
  summary : Str
  details : Str
  severity : List OsvSeverity
  affected : List OsvAffected
  references : List OsvReference
  license : Str

/-- `osv/advisory.rs:228-233`. -/
def packageUrl (package : Str) : Str := "https://crates.io/crates/".toList ++ package

/-- `osv/advisory.rs:234-239`. -/
def advisoryUrl (id : Id) : Str := "https://rustsec.org/advisories/".toList ++ id.display ++ ".html".toList

/-- `osv/advisory.rs:238-257`, `Option::map` with a function that may panic. -/
def withdrawnText : Option DateText → Outcome (Option Str)
  | none => .ok none
  | some d => do
    let s ← dateToRfc3339 d
    .ok (some s)

/-- `osv/advisory.rs:217-291`: `OsvAdvisory::from_rustsec`; `path` is the path of the file in the repository. -/
def fromRustsec (cal : Int → Int × Nat × Nat) (U : UrlLib) (a : AdvisoryFile) (m : ModTimes) (path : Str) :
    Outcome OsvAdvisory := do
  let package ← parseUrl U (packageUrl a.metadata.package)
  let page ← parseUrl U (advisoryUrl a.metadata.id)
  let urls := [package, page] ++ a.metadata.url.toList ++ a.metadata.references
  let time ← m.forPath path
  let modified ← rfc3339 cal time
  let published ← dateToRfc3339 a.metadata.date
  let events ← osvTimeline a.versions
  let withdrawn ← withdrawnText a.metadata.withdrawn
  let affected := a.affected.getD {}
  .ok {
    id := a.metadata.id, modified, published, withdrawn,
    aliases := a.metadata.aliases, related := a.metadata.related,
    summary := a.metadata.title, details := a.metadata.description,
    severity := (a.metadata.cvss.map OsvSeverity.ofCvss).toList,
    affected := [{
      ecosystem := "crates.io".toList, name := a.metadata.package,
      purl := "pkg:cargo/".toList ++ a.metadata.package, events,
      arch := affected.arch, os := affected.os,
      functions := sortDedup pathCmp (affected.functions.map Prod.fst),
      categories := a.metadata.categories, cvss := a.metadata.cvss,
      informational := a.metadata.informational }],
    references := urls.map OsvReference.ofUrl,
    license := a.metadata.license.spdx }

/-- What `sync` reads of a record (`Verif.Sync.OsvRecord`). -/
def OsvAdvisory.record (o : OsvAdvisory) : OsvRecord :=
  { id := o.id, aliases := o.aliases, withdrawn := o.withdrawn.isSome,
    affected := o.affected.map fun a => (a.ecosystem, a.name),
    references := o.references.map fun r => r.url.text, published := o.published }

/-! ### The whole database -/

/-- What the exporter works with: libraries, modification times, and which paths `HEAD` contains
(`gitpath.rs:19-38`, `repository.rs:252-265`). -/
structure ExportEnv where
  adv : AdvLib
  cal : Int → Int × Nat × Nat
  modTimes : ModTimes
  tracked : Str → Bool

/-- `osv_export.rs:28-38`: `OsvExporter::new` on an open repository with history `ids` and head `head`. -/
def ExportEnv.new (L : AdvLib) (cal : Int → Int × Nat × Nat) (db : Objects) (ids : List Nat) (head : GitCommit) :
    Outcome ExportEnv :=
  match ModTimes.new db ids with
  | .ok m => .ok { adv := L, cal, modTimes := m, tracked := fun p => (head.tree.lookup p).isSome }
  | .err => .err
  | .panic => .panic

/-- The path of a file relative to the repository (`osv_export.rs:77`). -/
def gitPath (p : Path) : Str := p.collection.asStr ++ '/' :: (p.dir ++ '/' :: p.file)

/-- `Path::set_extension("json")` on a file name: what follows the last `.` is replaced, unless that `.` is the
first character. -/
def setJson (name : Str) : Str :=
  let r := name.reverse
  let ext := r.takeWhile fun c => !decide (c = '.')
  let rest := r.drop ext.length
  (match rest with
    | '.' :: stem => if stem.isEmpty then name else stem.reverse
    | _ => name) ++ ".json".toList

/-- `osv_export.rs:60-71`: informational advisories of an unknown kind are skipped. -/
def exportable (a : AdvisoryFile) : Bool :=
  match a.metadata.informational with
  | some (.other _) => false
  | _ => true

/-- `osv_export.rs:55-87`: one file; `none` if it is skipped, else the output file and the record. -/
def exportFile (W : ExportEnv) (f : Path × Str) : Outcome (Option (Str × OsvAdvisory)) :=
  match AdvisoryFile.fromStr W.adv f.2 with
  | .err => .err
  | .panic => .panic
  | .ok a =>
    if exportable a then
      if W.tracked (gitPath f.1) then do
        let o ← fromRustsec W.cal W.adv.url a W.modTimes (gitPath f.1)
        .ok (some (setJson a.metadata.id.display, o))
      else .err
    else .ok none

/-- The files written so far, and the result. -/
structure ExportRun where
  writes : List (Str × OsvAdvisory)
  result : Outcome Unit

/-- `osv_export.rs:53-89`: the loop over the files. -/
def exportFiles (W : ExportEnv) : List (Path × Str) → ExportRun
  | [] => { writes := [], result := .ok () }
  | f :: fs =>
    match exportFile W f with
    | .err => { writes := [], result := .err }
    | .panic => { writes := [], result := .panic }
    | .ok none => exportFiles W fs
    | .ok (some w) =>
      let r := exportFiles W fs
      { r with writes := w :: r.writes }

/-- `osv_export.rs:41-101`: `export_all`; no files at all is an error. -/
def exportAll (W : ExportEnv) (d : Disk) : ExportRun :=
  if (d.collection .crates).isEmpty then { writes := [], result := .err }
  else exportFiles W (d.collection .crates)

/-- The content of an output file afterwards: a later write replaces an earlier one. -/
def ExportRun.file (r : ExportRun) (name : Str) : Option OsvAdvisory := r.writes.reverse.lookup name

/-- The repository that is exported: the files on disk, and the git history that they belong to. -/
structure ExportInput where
  disk : Disk
  objects : Objects
  history : List Nat
  head : GitCommit

/-- `admin/src/commands/osv.rs:22-40`: `rustsec-admin osv` on an open repository. -/
def osvCommand (L : AdvLib) (cal : Int → Int × Nat × Nat) (i : ExportInput) : ExportRun :=
  match ExportEnv.new L cal i.objects i.history i.head with
  | .ok W => exportAll W i.disk
  | .err => { writes := [], result := .err }
  | .panic => { writes := [], result := .panic }

end Verif.Export
