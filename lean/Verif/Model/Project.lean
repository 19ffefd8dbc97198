import Verif.Model.ConfigFile
import Verif.Model.AdminLint
import Verif.Model.Audit
import Verif.Model.CvssScore
import Verif.Model.AuditJson
import Verif.Spec.SemverLib

/-!
# A run of `cargo audit`, from the texts of all the files

The files of a project, the configuration and the advisory database are texts here; the other files of the model give
them their meaning.  Model of `cargo-audit/src/commands.rs:80-87`, `commands/audit.rs:271-306`, `auditor.rs:50-120,381-390`
and `lockfile.rs:10-25` put together.
-/

namespace Verif.Audit

open Verif.Lock Verif.Adv Verif.Semver Verif.Spec Verif.Toml

mutual

/-- What the decoder of advisories (`rustsec/src/advisory.rs:63-71`) tells apart in a TOML value. -/
def plainToml : Value → Adv.Toml
  | .str s => .str s
  | .int _ => .other
  | .bool b => .bool b
  | .arr l => .arr (plainList l)
  | .table l => .table (plainEntries l)

/-- The same for the values of an array. -/
def plainList : List Value → List Adv.Toml
  | [] => []
  | v :: vs => plainToml v :: plainList vs

/-- The same for the entries of a table. -/
def plainEntries : List (Str × Value) → List (Str × Adv.Toml)
  | [] => []
  | (k, v) :: es => (k, plainToml v) :: plainEntries es

end

/-- What surrounds a run.  A checkout is the texts of the advisory files. -/
structure Project where
  /-- `home::cargo_home()`. -/
  cargoHome : Option Str
  /-- `Path::exists`. -/
  pathExists : Str → Bool
  /-- The text of a file, if it can be read. -/
  contents : Str → Option Str
  /-- The text on standard input. -/
  stdin : Option Str
  /-- What `cargo update --workspace` writes to `Cargo.lock`, if it succeeds (`lockfile.rs:28-55`). -/
  generated : Option Str
  /-- The advisory files at a path (`auditor.rs:113-120`). -/
  checkoutAt : Str → AdminLint.Checkout
  /-- `Repository::fetch` (`auditor.rs:71-104`): given URL, path and whether it must be fresh. -/
  fetched : Str → Str → Bool → Option AdminLint.Checkout
  /-- `Repository::default_path` (`auditor.rs:60-61`). -/
  defaultPath : Str
  /-- `CachedIndex::fetch_as` succeeds (`auditor.rs:137-163`). -/
  fetchIndex : Bool
  /-- `CachedIndex::open` succeeds (`auditor.rs:165-189`). -/
  openIndex : Bool
  /-- The crates.io index. -/
  registry : Yank.Registry
  /-- `crate::VERSION` and `rustsec::VERSION` (`auditor.rs:396-399`). -/
  toolVersion : Version
  libVersion : Version
  /-- `url` -/
  url : UrlLib
  /-- `jiff::civil::Date::from_str` -/
  civil : Str → Option (Int × Nat × Nat)
  /-- The floating-point arithmetic in which severities are computed. -/
  fp : Cvss.Fp

namespace Project

variable (P : Project)

/-- `Cvss::severity` (`cvss/src/cvss.rs:64-77`), as the query asks for it (`rustsec/src/database/query.rs:199-206`).  A v4 vector
without its mandatory metrics would panic there; one that was parsed has them. -/
def severityOf (v : Cvss.Cvss) : Severity :=
  match v.severity P.fp with
  | .ok s => s
  | _ => .none

/-- The parsers for advisories: TOML and `semver` are the ones specified (`rustsec/src/advisory.rs:63-71`). -/
def advLib : AdvLib :=
  { toml := fun s => (Toml.read s).map plainEntries, civil := P.civil, url := P.url, req := readReq }

/-- How a report is written (`rustsec/src/report.rs:17-55`), with the texts of `semver`; `Time` is `time::OffsetDateTime`. -/
def reportLib (Time : Type) (showTime : Time → Option Str) (parseTime : Str → Option Time) : RepJson.ReportLib :=
  { adv := P.advLib, showReq := VersionReq.text, showVersion := Version.text, parseVersion := readVersion, Time, showTime, parseTime }

/-- Where a configuration is looked for (`cargo-audit/src/commands.rs:63-78`). -/
def configWorld : ConfigWorld := { cargoHome := P.cargoHome, pathExists := P.pathExists, contents := P.contents }

/-- `lockfile.rs:17-21`: `Cargo.lock` is generated before it is read. -/
def generates (file : Option Str) : Bool :=
  file.isNone && !P.pathExists "Cargo.lock".toList && P.pathExists "Cargo.toml".toList

/-- `auditor.rs:381-390`: the text that `load_lockfile` parses. -/
def lockText (file : Option Str) (path : Str) : Option Str :=
  if path = "-".toList then P.stdin
  else if P.generates file = true ∧ path = "Cargo.lock".toList then P.generated
  else P.contents path

/-- `auditor.rs:381-390`: `load_lockfile`. -/
def loadLock (file : Option Str) (path : Str) : Option Lockfile :=
  (P.lockText file path).bind fun s =>
    match Lockfile.fromText (semverCodec P.url) Toml.read s with
    | .ok l => some l
    | _ => none

/-- The surroundings of a run as the model of the command takes them (`cargo-audit/src/auditor.rs:49-224`); binaries are left
out. -/
def env (file : Option Str) : Env :=
  { codec := semverCodec P.url
    lockExists := P.pathExists "Cargo.lock".toList
    manifestExists := P.pathExists "Cargo.toml".toList
    generates := P.generated.isSome
    loadLock := P.loadLock file
    fetchRepo := fun url path fresh => (P.fetched url path fresh).map (AdminLint.Checkout.tree P.advLib P.severityOf)
    filesAt := fun path => (P.checkoutAt path).tree P.advLib P.severityOf
    defaultPath := P.defaultPath
    fetchIndex := P.fetchIndex
    openIndex := P.openIndex
    registry := P.registry
    toolVersion := P.toolVersion
    libVersion := P.libVersion
    readBinary := fun _ => none
    loadDeps := fun _ _ => none
    symbolsOf := fun _ => none }

/-- `cargo audit`: a configuration that cannot be read ends the run with 1 (the framework's `fatal_error`, which is not in
/repo); otherwise `AuditCommand::run` (`commands/audit.rs:271-306`). -/
def run (cmd : AuditCommand) : Option Printed × Exit :=
  match effectiveConfig P.configWorld cmd with
  | .err => (none, .code 1)
  | .panic => (none, .panic)
  | .ok c => runAudit (P.env cmd.file) cmd c

end Project

end Verif.Audit
