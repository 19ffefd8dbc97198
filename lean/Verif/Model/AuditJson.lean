import Verif.Model.Audit
import Verif.Model.ReportJson
import Verif.Model.SarifJson
import Verif.Model.AdminLint

/-!
# The report of `cargo audit` with all its fields

`Verif/Model/Audit.lean` works with the part of an advisory's metadata that decides what is found.  What is printed
with `--json` has all of it: the code clones the metadata into the findings (`rustsec/src/vulnerability.rs:28-35`,
`rustsec/src/report.rs:196-206`).  Here the files of the database are read with all their fields, and a finding gets the
metadata of the advisory with its ID (IDs are unique in a database, `C10_ids_unique`; that nothing else changes is
`C83_same_report`).
-/

namespace Verif.AuditJson

open Verif.Semver Verif.Lock Verif.Adv Verif.Db Verif.Rep Verif.RepJson Verif.Audit
open Verif.AdminLint (Checkout)

/-- `rustsec/src/database/entries.rs:104-118`: the collection is filled in. -/
def withCollection (c : Collection) (f : AdvisoryFile) : AdvisoryFile :=
  { f with metadata := { f.metadata with collection := some c } }

/-- `rustsec/src/database/entries.rs:39-137`: what one file adds to the database; drafts are left out. -/
def itemFile (L : AdvLib) (c : Collection) : AdminLint.Item → Option AdvisoryFile
  | .file _ (some text) =>
    match AdvisoryFile.fromStr L text with
    | .ok f => if f.metadata.id.isPlaceholder then none else some (withCollection c f)
    | .err => none
    | .panic => none
  | .file _ none => none
  | .other _ => none

/-- `rustsec/src/database.rs:50-74`: the files of one directory; dotfiles are skipped. -/
def entryFiles (L : AdvLib) (c : Collection) : AdminLint.Entry → List AdvisoryFile
  | .other _ => []
  | .dir _ items => (items.filter fun i => !startsWith i.name ".").filterMap (itemFile L c)

/-- `rustsec/src/database.rs:46-93`: the advisories of a database, with all fields, in the order in which they are
loaded. -/
def loadedFiles (L : AdvLib) (ch : Checkout) : List AdvisoryFile :=
  (ch.crates.getD []).flatMap (entryFiles L .crates) ++ (ch.rust.getD []).flatMap (entryFiles L .rust)

/-- The metadata of the advisory with an ID (`rustsec/src/vulnerability.rs:30`: `advisory.metadata.clone()`). -/
def fullMetadata (fs : List AdvisoryFile) (m : Metadata) : Outcome FileMetadata :=
  match fs.find? fun f => decide (f.metadata.id = m.id) with
  | some f => .ok f.metadata
  | none => .panic

/-- `rustsec/src/vulnerability.rs:28-35`: `Vulnerability::new`, with all metadata. -/
def fullVulnerability (fs : List AdvisoryFile) (v : Vulnerability) : Outcome FullVulnerability := do
  let m ← fullMetadata fs v.advisory
  .ok { advisory := m, versions := v.versions, affected := v.affected, package := v.package }

/-- `rustsec/src/report.rs:199-205`, `cargo-audit/src/auditor.rs:361-367`: a warning, with all metadata. -/
def fullWarning (fs : List AdvisoryFile) (w : Warning) : Outcome FullWarning :=
  match w.advisory with
  | none => .ok { kind := w.kind, package := w.package, advisory := none, affected := w.affected, versions := w.versions }
  | some m =>
    match fullMetadata fs m with
    | .ok m =>
      .ok { kind := w.kind, package := w.package, advisory := some m, affected := w.affected, versions := w.versions }
    | .err => .err
    | .panic => .panic

/-- One entry of the map of warnings. -/
def fullWarnings (fs : List AdvisoryFile) (e : WarningKind × List Warning) : Outcome (WarningKind × List FullWarning) := do
  let ws ← Outcome.mapList (fullWarning fs) e.2
  .ok (e.1, ws)

/-- `rustsec/src/report.rs:111-121`: `DatabaseInfo::new`; `commit` is `Database::latest_commit`
(`rustsec/src/database.rs:181-183`): present if the database was fetched with git. -/
def databaseInfo {T : Type} (fs : List AdvisoryFile) (commit : Option (Str × T)) : DatabaseInfo T :=
  { advisoryCount := fs.length, lastCommit := commit.map (·.1), lastUpdated := commit.map (·.2) }

/-- `rustsec/src/report.rs:38-56`: the report of `generate`, with all fields; `LockfileInfo::new` is 133-140.  The map of
warnings is written in the order of its keys. -/
def fullReport {T : Type} (fs : List AdvisoryFile) (commit : Option (Str × T)) (l : Lockfile) (r : Report) :
    Outcome (FullReport T) := do
  let vs ← Outcome.mapList (fullVulnerability fs) r.vulnerabilities.list
  let ws ← Outcome.mapList (fullWarnings fs) (inOrder r.warnings)
  .ok { database := databaseInfo fs commit, dependencyCount := l.packages.length, settings := r.settings,
        vulnerabilities := { found := r.vulnerabilities.found, count := r.vulnerabilities.count, list := vs },
        warnings := ws }

/-- `cargo-audit/src/presenter.rs:114-131`: what a run with `--json` writes to standard output. -/
def jsonOutput (L : ReportLib) (ch : Checkout) (commit : Option (Str × L.Time)) (l : Lockfile) (r : Report) :
    Outcome Str := do
  let full ← fullReport (loadedFiles L.adv ch) commit l r
  printJsonReport L full

/-- `cargo-audit/src/presenter.rs:114-141`: what a run with `--format sarif` writes to standard output.  `path` is the
binary that is audited (`cargo-audit/src/auditor.rs:289`); for a lockfile there is none (line 217). -/
def sarifOutput (L : ReportLib) (F : Cvss.Fp) (version : Str) (ch : Checkout) (commit : Option (Str × L.Time))
    (l : Lockfile) (r : Report) (path : Option Str) : Outcome Str := do
  let full ← fullReport (loadedFiles L.adv ch) commit l r
  SarifJson.printSarifReport L F version full path

end Verif.AuditJson
