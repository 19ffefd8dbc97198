import Verif.Model.CachedIndex
import Verif.Model.BinaryFilter
import Verif.Model.Symbols

/-!
# `cargo audit`

Model of `cargo-audit/src/{config,presenter,auditor,lockfile}.rs`, `commands/audit.rs` and
`commands/audit/binary_scanning.rs`: configuration, command line, exit status, terminal report.

The configuration file is in `Model.ConfigFile`, the texts in `Model.Terminal` and `Model.Transcript`.  Not modelled: the
`clap` parser, colours, git, the network.  What the outside world answers is the argument `Env`.
-/

namespace Verif.Audit

open Verif.Semver Verif.Lock Verif.Adv Verif.Rep Verif.Bin

/-! ### Configuration (`config.rs`) -/

/-- `config.rs:174-192`: `enum DenyOption`. -/
inductive DenyOption where
  | warnings | unmaintained | unsound | yanked
  deriving DecidableEq, Repr

/-- `config.rs:196-203`: `DenyOption::all`. -/
def DenyOption.all : List DenyOption := [.warnings, .unmaintained, .unsound, .yanked]

/-- `config.rs:205-216`: `DenyOption::get_warning_kind`. -/
def DenyOption.warningKinds : DenyOption → List WarningKind
  | .warnings => [.unmaintained, .unsound, .yanked]
  | .unmaintained => [.unmaintained]
  | .unsound => [.unsound]
  | .yanked => [.yanked]

/-- `config.rs:219-234`: `DenyOption::from_str`. -/
def DenyOption.fromStr (s : Str) : Option DenyOption :=
  if s = "warnings".toList then some .warnings
  else if s = "unmaintained".toList then some .unmaintained
  else if s = "unsound".toList then some .unsound
  else if s = "yanked".toList then some .yanked
  else none

/-- `config.rs:237-251`: `enum OutputFormat`. -/
inductive OutputFormat where
  | json | sarif | terminal
  deriving DecidableEq, Repr

/-- `config.rs:253-267`: `OutputFormat::from_str`. -/
def OutputFormat.fromStr (s : Str) : Option OutputFormat :=
  if s = "json".toList then some .json
  else if s = "sarif".toList then some .sarif
  else if s = "terminal".toList then some .terminal
  else none

/-- `config.rs:279-285`: `enum FilterList<String>`. -/
inductive FilterList where
  | single (s : Str)
  | many (l : List Str)
  deriving DecidableEq, Repr

/-- `config.rs:300-306`, `309-315`: `TargetConfig::arch` and `TargetConfig::os`. -/
def FilterList.values : Option FilterList → List Str
  | some (.single s) => [s]
  | some (.many l) => l
  | none => []

/-- `config.rs:93-108`: `struct AdvisoryConfig`, with its derived `Default`. -/
structure AdvisoryConfig where
  ignore : List Id := []
  informationalWarnings : Option (List Informational) := none
  severityThreshold : Option Severity := none
  deriving DecidableEq, Repr

/-- `config.rs:116-139`: `struct DatabaseConfig` and its `Default`. -/
structure DatabaseConfig where
  path : Option Str := none
  url : Option Str := none
  fetch : Bool := true
  stale : Bool := false
  deriving DecidableEq, Repr

/-- `config.rs:142-160`: `struct OutputConfig` with its *derived* `Default`: every Boolean is `false` and the
format is the variant marked `#[default]`. -/
structure OutputConfig where
  deny : List DenyOption := []
  format : OutputFormat := .terminal
  quiet : Bool := false
  showTree : Bool := false
  deriving DecidableEq, Repr

/-- `config.rs:162-167`: `OutputConfig::is_quiet`. -/
def OutputConfig.isQuiet (c : OutputConfig) : Bool :=
  c.quiet || decide (c.format = .json) || decide (c.format = .sarif)

/-- `config.rs:288-296`: `struct TargetConfig`. -/
structure TargetConfig where
  arch : Option FilterList := none
  os : Option FilterList := none
  deriving DecidableEq, Repr

/-- `config.rs:319-338`: `struct YankedConfig` and its `Default`. -/
structure YankedConfig where
  enabled : Bool := true
  updateIndex : Bool := true
  deriving DecidableEq, Repr

/-- `config.rs:12-34`: `struct AuditConfig`; `{}` is `AuditConfig::default()`, which is used when there is no
configuration file. -/
structure AuditConfig where
  advisories : AdvisoryConfig := {}
  database : DatabaseConfig := {}
  output : OutputConfig := {}
  target : TargetConfig := {}
  yanked : YankedConfig := {}
  deriving DecidableEq, Repr

/-- `config.rs:64-68`: `insert_if_not_present`. -/
def insertIfAbsent (l : List Informational) (i : Informational) : List Informational :=
  if l.contains i then l else l ++ [i]

/-- `config.rs:70-84`: the loop over the deny options. -/
def denyLoop (l : List Informational) : List DenyOption → List Informational
  | [] => l
  | .warnings :: _ => insertIfAbsent (insertIfAbsent (insertIfAbsent l .notice) .unmaintained) .unsound
  | .unmaintained :: ds => denyLoop (insertIfAbsent l .unmaintained) ds
  | .unsound :: ds => denyLoop (insertIfAbsent l .unsound) ds
  | .yanked :: ds => denyLoop l ds

/-- `config.rs:38-89`: `AuditConfig::report_settings`. -/
def AuditConfig.reportSettings (c : AuditConfig) : Settings :=
  let informational :=
    match c.advisories.informationalWarnings with
    | some l => l
    | none => [.unmaintained, .unsound, .notice]
  { ignore := c.advisories.ignore
    severity := c.advisories.severityThreshold
    targetArch := FilterList.values c.target.arch
    targetOs := FilterList.values c.target.os
    informationalWarnings := denyLoop informational c.output.deny }

/-! ### The command line (`commands/audit.rs`) -/

/-- `commands/audit.rs:71-172`: `struct AuditCommand` (without the subcommand and the colour). -/
structure AuditCommand where
  db : Option Str := none
  deny : List DenyOption := []
  file : Option Str := none
  ignore : List Str := []
  noYanked : Bool := false
  noFetch : Bool := false
  stale : Bool := false
  targetArch : List Str := []
  targetOs : List Str := []
  url : Option Str := none
  quiet : Bool := false
  outputFormat : Option OutputFormat := none
  outputJson : Bool := false
  deriving DecidableEq, Repr

/-- `commands/audit.rs:243-249`: the loop over `--deny`. -/
def overrideDeny (d : List DenyOption) (kind : DenyOption) : List DenyOption :=
  if kind = .warnings then DenyOption.all else d ++ [kind]

/-- `commands/audit.rs:213-268`: `override_config`; an error if an `--ignore` value is not an advisory ID. -/
def AuditCommand.overrideConfig (cmd : AuditCommand) (c : AuditConfig) : Outcome AuditConfig :=
  match Outcome.mapList Id.fromStr cmd.ignore with
  | .err => .err
  | .panic => .panic
  | .ok ids =>
    .ok
      { advisories := { c.advisories with ignore := c.advisories.ignore ++ ids }
        database :=
          { path := match cmd.db with | some p => some p | none => c.database.path
            url := match cmd.url with | some u => some u | none => c.database.url
            fetch := c.database.fetch && !cmd.noFetch
            stale := c.database.stale || cmd.stale }
        output :=
          { deny := cmd.deny.foldl overrideDeny c.output.deny
            format :=
              if cmd.outputJson then .json
              else match cmd.outputFormat with | some f => f | none => c.output.format
            quiet := c.output.quiet || cmd.quiet
            showTree := if cmd.quiet then false else c.output.showTree }
        target :=
          { arch := if cmd.targetArch.isEmpty then c.target.arch else some (.many cmd.targetArch)
            os := if cmd.targetOs.isEmpty then c.target.os else some (.many cmd.targetOs) }
        yanked := { c.yanked with enabled := if cmd.noYanked then false else c.yanked.enabled } }

/-! ### The presenter (`presenter.rs`) -/

/-- `presenter.rs:31-45`: `struct Presenter`.  The two `BTreeSet`s are lists.  Simplification: instead of the bytes of the
binary the symbols found in it (`SymbolSet::from_file`, `none` when there is no binary or it cannot be read). -/
structure Presenter where
  displayed : List Dependency := []
  denyKinds : List WarningKind
  config : OutputConfig
  symbols : Option (List (List Str)) := none
  deriving DecidableEq, Repr

/-- `presenter.rs:49-62`: `Presenter::new`. -/
def Presenter.new (c : OutputConfig) : Presenter :=
  { denyKinds := c.deny.flatMap DenyOption.warningKinds, config := c }

/-- `presenter.rs:328-340`: `count_warnings`: (denied, allowed). -/
def Presenter.countWarnings (p : Presenter) (r : Report) : Nat × Nat :=
  r.warnings.foldl
    (fun n e => if p.denyKinds.contains e.1 then (n.1 + e.2.length, n.2) else (n.1, n.2 + e.2.length)) (0, 0)

/-- `presenter.rs:305-314`: `should_exit_with_failure`. -/
def Presenter.shouldExitWithFailure (p : Presenter) (r : Report) : Bool :=
  if r.vulnerabilities.found then true
  else if (p.countWarnings r).1 ≠ 0 then true
  else false

/-- `presenter.rs:319-324`: `should_exit_with_failure_due_to_self`. -/
def Presenter.failureDueToSelf (p : Presenter) (selfAdvisories : List Advisory) : Bool :=
  !selfAdvisories.isEmpty && p.config.deny.contains .warnings

/-- `BTreeMap::iter` on the warnings: the kinds in their order (`warning.rs:65-84`). -/
def inOrder (w : WarningInfo) : List (WarningKind × List Warning) :=
  [.notice, .unmaintained, .unsound, .yanked].filterMap fun k => (w.lookup k).map fun ws => (k, ws)

/-- One finding as printed on the terminal: what it is, whether it is marked as an error (red) or as a warning
(yellow), the affected functions present in the binary, and the dependency tree if one is printed. -/
structure Item where
  finding : Vulnerability ⊕ Warning
  error : Bool
  affected : List (List Str)
  tree : Option Str
  deriving Repr

/-- `presenter.rs:453-478`: `print_tree`; the panic is the indexing of the nodes by a package that is not one (or
`Tree.render`'s).  `BTreeSet::insert` compares with the order of `Dependency`. -/
def Presenter.printTree (C : Codec) (p : Presenter) (pkg : Package) (t : Lock.Tree) : Outcome (Presenter × Option Str) :=
  if p.displayed.any fun d => decide ((Dependency.ofPackage pkg).cmp d = .eq) then .ok (p, none)
  else
    let p' := { p with displayed := p.displayed ++ [Dependency.ofPackage pkg] }
    if !p.config.showTree then .ok (p', none)
    else
      match t.nodes.get (Dependency.ofPackage pkg) with
      | none => .panic
      | some i =>
        match t.render C i .incoming false with
        | .ok s => .ok (p', some s)
        | .err => .panic
        | .panic => .panic

/-- The functions of a finding that are printed (`presenter.rs:183-187` for vulnerabilities, `198-217` for
warnings, where the advisory's functions are filtered the same way). -/
def Presenter.presentFunctions (p : Presenter) (affected : Option Affected) (v : Version) : List (List Str) :=
  match p.symbols with
  | none => []
  | some symbols =>
    filterFunctions symbols
      (match affected with
      | none => []
      | some af => af.functions.filterMap fun e => if e.2.any fun req => req.isMatch v then some e.1 else none)

/-- `presenter.rs:178-191`: the loop over the vulnerabilities. -/
def Presenter.printVulns (C : Codec) (t : Lock.Tree) : Presenter → List Vulnerability → Outcome (Presenter × List Item)
  | p, [] => .ok (p, [])
  | p, v :: vs =>
    match p.printTree C v.package t with
    | .ok (p', tree) =>
      match printVulns C t p' vs with
      | .ok (p'', items) =>
        .ok (p'', { finding := .inl v, error := true, affected := p.presentFunctions v.affected v.package.version,
                    tree := tree } :: items)
      | .err => .err
      | .panic => .panic
    | .err => .err
    | .panic => .panic

/-- `presenter.rs:194-225`: the loop over one kind of warnings (the loops over all kinds, flattened). -/
def Presenter.printWarnings (C : Codec) (t : Lock.Tree) : Presenter → List Warning → Outcome (Presenter × List Item)
  | p, [] => .ok (p, [])
  | p, w :: ws =>
    match p.printTree C w.package t with
    | .ok (p', tree) =>
      match printWarnings C t p' ws with
      | .ok (p'', items) =>
        .ok (p'', { finding := .inr w, error := p.denyKinds.contains w.kind,
                    affected := p.presentFunctions w.affected w.package.version, tree := tree } :: items)
      | .err => .err
      | .panic => .panic
    | .err => .err
    | .panic => .panic

/-- What `print_report` writes: the report as JSON or SARIF, or the findings followed by the totals: the number of
vulnerabilities if any were found, of denied and of allowed warnings. -/
inductive Printed where
  | json (r : Report)
  | sarif (r : Report)
  | terminal (items : List Item) (vulnerabilities : Option Nat) (denied allowed : Nat)
  deriving Repr

/-- `presenter.rs:114-276`: `print_report`; the first panic is `expect("invalid Cargo.lock dependency tree")`. -/
def Presenter.printReport (C : Codec) (p : Presenter) (r : Report) (l : Lockfile) : Outcome (Presenter × Printed) :=
  match p.config.format with
  | .json => .ok (p, .json r)
  | .sarif => .ok (p, .sarif r)
  | .terminal =>
    match Lock.Tree.new l with
    | .err => .panic
    | .panic => .panic
    | .ok t =>
      match p.printVulns C t r.vulnerabilities.list with
      | .err => .err
      | .panic => .panic
      | .ok (p1, items1) =>
        match p1.printWarnings C t ((inOrder r.warnings).flatMap (·.2)) with
        | .err => .err
        | .panic => .panic
        | .ok (p2, items2) =>
          let n := p2.countWarnings r
          .ok (p2, .terminal (items1 ++ items2)
            (if r.vulnerabilities.found then some r.vulnerabilities.count else none) n.1 n.2)

/-- `presenter.rs:487-504`: `permits_newer`, on unbounded numbers. -/
def permitsNewer (req : VersionReq) (current : Version) : Bool :=
  let candidates :=
    [⟨current.major, current.minor, current.patch + 1, [], []⟩, ⟨current.major, current.minor + 1, 0, [], []⟩,
      ⟨current.major + 1, 0, 0, [], []⟩] ++
    req.comparators.flatMap fun (c : Comparator) =>
      let minor := c.minor.getD 0
      let patch := c.patch.getD 0
      [⟨c.major, minor, patch, [], []⟩, ⟨c.major, minor, patch + 1, [], []⟩, ⟨c.major, minor + 1, 0, [], []⟩]
  candidates.any fun (v : Version) => decide (v.cmp current = .gt) && req.isMatch v

/-! ### The auditor (`auditor.rs`) -/

/-- What the outside world answers during one run. -/
structure Env where
  /-- Texts of versions and URLs. -/
  codec : Codec
  /-- `Path::new("Cargo.lock").exists()` (`lockfile.rs:19`). -/
  lockExists : Bool
  /-- `Path::new("Cargo.toml").exists()` (`lockfile.rs:19`). -/
  manifestExists : Bool
  /-- `cargo update --workspace` succeeds (`lockfile.rs:28-55`). -/
  generates : Bool
  /-- Reading and parsing the lockfile, `-` for standard input (`auditor.rs:381-390`). -/
  loadLock : Str → Option Lockfile
  /-- `Repository::fetch` and `latest_commit` (`auditor.rs:71-104`): the checkout, given URL, path and whether it must
  be fresh; the second attempt after a lock timeout is folded into the answer. -/
  fetchRepo : Str → Str → Bool → Option Db.Tree
  /-- The files at a path (`auditor.rs:113-120`). -/
  filesAt : Str → Db.Tree
  /-- `Repository::default_path` (`auditor.rs:60-61`). -/
  defaultPath : Str
  /-- `CachedIndex::fetch_as` succeeds (`auditor.rs:137-163`). -/
  fetchIndex : Bool
  /-- `CachedIndex::open` succeeds (`auditor.rs:165-189`). -/
  openIndex : Bool
  /-- The crates.io index. -/
  registry : Yank.Registry
  /-- `crate::VERSION` and `rustsec::VERSION` (`auditor.rs:396-399`). -/
  toolVersion : Version
  libVersion : Version
  /-- `File::open` and the bytes of a binary (`auditor.rs:301`); `none` if it cannot be opened or read. -/
  readBinary : Str → Option (List UInt8)
  /-- `load_deps_from_binary` (`auditor.rs:282-285`): bytes and limit give the format and the dependencies. -/
  loadDeps : List UInt8 → Option Nat → Option (BinaryFormat × Option Lockfile)
  /-- `SymbolSet::from_file` (`presenter.rs:150-172`). -/
  symbolsOf : List UInt8 → Option (List (List Str))

/-- `rustsec/src/repository/git.rs`: `DEFAULT_URL`. -/
def defaultUrl : Str := "https://github.com/RustSec/advisory-db.git".toList

/-- How a run ends: `std::process::exit` or a panic. -/
inductive Exit where
  | code (n : Nat)
  | panic
  deriving DecidableEq, Repr

/-- `auditor.rs:24-46`: `struct Auditor`. -/
structure Auditor where
  database : Db.Database
  index : Option Yank.CachedIndex
  presenter : Presenter
  settings : Settings
  binaryLimit : Option Nat
  auditDataLimit : Option Nat

/-- `auditor.rs:50-120`: the advisory files to load; `none` if fetching failed. -/
def Env.checkout (env : Env) (c : AuditConfig) : Option Db.Tree :=
  let path := c.database.path.getD env.defaultPath
  if c.database.fetch then env.fetchRepo (c.database.url.getD defaultUrl) path (!c.database.stale)
  else some (env.filesAt path)

/-- `auditor.rs:131-187`: the crates.io index. -/
def Env.openRegistry (env : Env) (c : AuditConfig) : Option Yank.CachedIndex :=
  if c.yanked.enabled then
    if c.yanked.updateIndex && c.database.fetch then
      if env.fetchIndex then some ⟨.sparseRemote, []⟩ else none
    else if env.openIndex then some ⟨.sparseCached, []⟩ else none
  else none

/-- `auditor.rs:21`: `DEFAULT_MAX_BINARY_SIZE`. -/
def defaultMaxBinarySize : Nat := 100 * 1024 * 1024

/-- `auditor.rs:49-199`: `Auditor::new`; `.err` is `exit(1)`. -/
def Auditor.new (env : Env) (c : AuditConfig) : Outcome Auditor :=
  match env.checkout c with
  | none => .err
  | some t =>
    match Db.Database.open t with
    | .err => .err
    | .panic => .panic
    | .ok db =>
      .ok { database := db, index := env.openRegistry c, presenter := Presenter.new c.output,
            settings := c.reportSettings, binaryLimit := some defaultMaxBinarySize, auditDataLimit := none }

/-- `auditor.rs:350-378`: `check_for_yanked_crates`; errors are printed and skipped. -/
def Auditor.checkYanked (env : Env) (a : Auditor) (l : Lockfile) : Auditor × List Warning :=
  match a.index with
  | none => (a, [])
  | some ci =>
    let pkgs := l.packages.filter fun p => match p.source with | some s => s.isDefaultRegistry | none => false
    let (ci', found) := ci.findYanked env.codec env.registry pkgs
    ({ a with index := some ci' },
      found.filterMap fun o => match o with
        | .ok p => some { kind := .yanked, package := p, advisory := none, affected := none, versions := none }
        | .err => none
        | .panic => none)

/-- `report.warnings.entry(Yanked).or_default().append(..)` (`auditor.rs:337-342`). -/
def appendYanked (ws : List Warning) : WarningInfo → WarningInfo
  | [] => [(.yanked, ws)]
  | (k, l) :: r => if k = .yanked then (k, l ++ ws) :: r else (k, l) :: appendYanked ws r

/-- `auditor.rs:329-331`: the report is filtered if a binary is audited. -/
def filterFor (format : Option BinaryFormat) (r : Report) : Option Report :=
  match format with
  | some f => filterReport f r
  | none => some r

/-- `auditor.rs:320-348`: `Auditor::audit`. -/
def Auditor.audit (env : Env) (a : Auditor) (l : Lockfile) (format : Option BinaryFormat) :
    Outcome (Auditor × Report × Printed) :=
  match Report.generate a.database l.packages a.settings with
  | none => .panic
  | some r =>
    match filterFor format r with
    | none => .panic
    | some r =>
      let (a, yanked) := a.checkYanked env l
      let r := if yanked.isEmpty then r else { r with warnings := appendYanked yanked r.warnings }
      match a.presenter.printReport env.codec r l with
      | .ok (p, out) => .ok ({ a with presenter := p }, r, out)
      | .err => .panic
      | .panic => .panic

/-- `auditor.rs:393-410`: `self_advisories`; `none` is a panic of the query. -/
def Auditor.selfAdvisories (env : Env) (a : Auditor) : Option (List Advisory) :=
  match a.database.query { Db.Query.crateScope with
      packageName := some "cargo-audit".toList, packageVersion := some env.toolVersion },
    a.database.query { Db.Query.crateScope with
      packageName := some "rustsec".toList, packageVersion := some env.libVersion } with
  | some l1, some l2 => some (l1 ++ l2)
  | _, _ => none

/-- `lockfile.rs:14-25`: `locate_or_generate`. -/
def Env.locate (env : Env) (file : Option Str) : Option Str :=
  match file with
  | some p => some p
  | none =>
    if !env.lockExists && env.manifestExists then
      if env.generates then some "Cargo.lock".toList else none
    else some "Cargo.lock".toList

/-- `commands/audit.rs:271-306`: `AuditCommand::run` without subcommand, with `audit_lockfile`
(`auditor.rs:203-224`) and `should_exit_with_failure` (`auditor.rs:416-421`); what is printed, and the exit. -/
def runAudit (env : Env) (cmd : AuditCommand) (c : AuditConfig) : Option Printed × Exit :=
  match env.locate cmd.file with
  | none => (none, .code 2)
  | some path =>
    match Auditor.new env c with
    | .err => (none, .code 1)
    | .panic => (none, .panic)
    | .ok a =>
      match env.loadLock path with
      | none => (none, .code 2)
      | some l =>
        match a.audit env l none with
        | .err => (none, .code 2)
        | .panic => (none, .panic)
        | .ok (a, r, out) =>
          match a.selfAdvisories env with
          | none => (some out, .panic)
          | some self =>
            (some out,
              if a.presenter.shouldExitWithFailure r || a.presenter.failureDueToSelf self then .code 1 else .code 0)

/-! ### `cargo audit bin` -/

/-- `u64::saturating_add(1)`. -/
def saturatingSucc (n : Nat) : Nat := min (n + 1) (2 ^ 64 - 1)

/-- `auditor.rs:300-317`: `read_binary_with_limit`, of a file with the given bytes; `none` is the size error. -/
def readWithLimit (limit : Nat) (content : List UInt8) : Option (List UInt8) :=
  let buffer := content.take (saturatingSucc limit)
  if buffer.length > limit then none else some buffer

/-- `auditor.rs:268-275`: `set_binary_scan_limits`. -/
def Auditor.setLimits (a : Auditor) (maxBinarySize auditDataSizeLimit : Option Nat) : Auditor :=
  { a with binaryLimit := some (maxBinarySize.getD defaultMaxBinarySize),
           auditDataLimit := some (auditDataSizeLimit.getD (8 * 1024 * 1024)) }

/-- `auditor.rs:279-297`: `audit_binary`; the presenter keeps the symbols. -/
def Auditor.auditBinary (env : Env) (a : Auditor) (path : Str) : Outcome (Auditor × Report × Printed) :=
  match env.readBinary path with
  | none => .err
  | some content =>
    match readWithLimit (a.binaryLimit.getD defaultMaxBinarySize) content with
    | none => .err
    | some bytes =>
      match env.loadDeps bytes a.auditDataLimit with
      | none => .err
      | some (format, deps) =>
        match deps with
        | none => .err
        | some l =>
          { a with presenter := { a.presenter with symbols := env.symbolsOf bytes } }.audit env l (some format)

/-- `auditor.rs:234-247`: the loop of `audit_binaries`: vulnerabilities found, errors encountered.  Simplification:
when there is an error the symbols of the previous binary stay in the presenter, as in the code up to the point where
they are replaced. -/
def Auditor.binariesLoop (env : Env) : Auditor → List Str → Outcome (Auditor × Bool × Bool × List (Option Printed))
  | a, [] => .ok (a, false, false, [])
  | a, path :: paths =>
    match a.auditBinary env path with
    | .panic => .panic
    | .err =>
      match binariesLoop env a paths with
      | .ok (a, v, _, out) => .ok (a, v, true, none :: out)
      | .err => .err
      | .panic => .panic
    | .ok (a, r, p) =>
      let fails := a.presenter.shouldExitWithFailure r
      match binariesLoop env a paths with
      | .ok (a, v, e, out) => .ok (a, fails || v, e, some p :: out)
      | .err => .err
      | .panic => .panic

/-- `commands/audit/binary_scanning.rs:38-51`: `BinCommand::run` with `audit_binaries` (`auditor.rs:228-259`). -/
def runBin (env : Env) (maxBinarySize auditDataSizeLimit : Option Nat) (paths : List Str) (c : AuditConfig) :
    List (Option Printed) × Exit :=
  match Auditor.new env c with
  | .err => ([], .code 1)
  | .panic => ([], .panic)
  | .ok a =>
    match (a.setLimits maxBinarySize auditDataSizeLimit).binariesLoop env paths with
    | .err => ([], .panic)
    | .panic => ([], .panic)
    | .ok (a, vulns, errors, out) =>
      match a.selfAdvisories env with
      | none => (out, .panic)
      | some self =>
        let errors := errors || a.presenter.failureDueToSelf self
        (out, if vulns then .code 1 else if errors then .code 2 else .code 0)

end Verif.Audit
