import Verif.Model.Audit

/-!
# `cargo audit fix`

Model of `cargo-audit/src/commands/audit/fix.rs` and `rustsec/src/fixer.rs`.  Not modelled: the texts printed, the path
of the `cargo` program, `Fixer::manifest_path` (always `None` here).
-/

namespace Verif.Audit

open Verif.Semver Verif.Lock Verif.Adv Verif.Rep

/-- `fixer.rs:76-81`: `pkgid`. -/
def pkgid (C : Codec) (p : Package) : Str :=
  match p.source with
  | some s => s.asUrl false ++ '#' :: p.name ++ '@' :: C.showVersion p.version
  | none => p.name ++ '@' :: C.showVersion p.version

/-- A call of `cargo update`: whether with `--dry-run`, the package specifications, and the directory it is run in if
that is set. -/
structure UpdateCommand where
  dryRun : Bool
  specs : List Str
  dir : Option Str
  deriving DecidableEq, Repr

/-- `fixer.rs:60-65`: the specifications of the packages of that name with a vulnerable version. -/
def fixSpecs (C : Codec) (v : Vulnerability) : List Package → Outcome (List Str)
  | [] => .ok []
  | p :: ps =>
    if p.name = v.package.name then
      match v.versions.isVulnerable p.version with
      | .ok b =>
        match fixSpecs C v ps with
        | .ok l => .ok (if b then pkgid C p :: l else l)
        | .err => .err
        | .panic => .panic
      | .err => .err
      | .panic => .panic
    else fixSpecs C v ps

/-- `fix.rs:16-24`: `FixCommand`. -/
structure FixCommand where
  file : Option Str := none
  dryRun : Bool := false
  deriving DecidableEq, Repr

/-- What the outside world answers. -/
structure FixWorld where
  /-- The first audit. -/
  before : Env
  /-- `Lockfile::load` (`fix.rs:61`). -/
  loadFile : Str → Option Lockfile
  /-- `path.canonicalize()` and `parent()` (`fix.rs:89-90`). -/
  parentDir : Str → Option Str
  /-- `command.status()` is not an error (`fix.rs:96`); the exit status of `cargo update` is not looked at. -/
  spawns : UpdateCommand → Bool
  /-- The second audit, after the given commands were run. -/
  after : List UpdateCommand → Env

/-- What a run does: the commands it runs, the advisories it calls unpatchable, those it warns about as unfixed
although patched, the numbers of fixed and remaining vulnerabilities; and how it ends. -/
structure FixRun where
  commands : List UpdateCommand := []
  unpatchable : List Id := []
  unfixed : Option (List Id) := none
  counts : Option (Nat × Nat) := none
  exit : Exit
  deriving DecidableEq, Repr

/-- `fix.rs:75-106`: the loop: commands run, unpatchable IDs, number of commands that could not be run. -/
def fixLoop (W : FixWorld) (C : Codec) (cmd : FixCommand) (l : Lockfile) :
    List Vulnerability → Outcome (List UpdateCommand × List Id × Nat)
  | [] => .ok ([], [], 0)
  | v :: vs =>
    if v.versions.patched.isEmpty then
      match fixLoop W C cmd l vs with
      | .ok (cs, us, n) => .ok (cs, v.advisory.id :: us, n)
      | .err => .err
      | .panic => .panic
    else
      match fixSpecs C v l.packages with
      | .ok specs =>
        match cmd.file.map W.parentDir with
        | some none => .panic
        | d =>
          let c : UpdateCommand := ⟨cmd.dryRun, specs, d.join⟩
          match fixLoop W C cmd l vs with
          | .ok (cs, us, n) => .ok (c :: cs, us, if W.spawns c then n else n + 1)
          | .err => .err
          | .panic => .panic
      | .err => .panic
      | .panic => .panic

/-- `auditor.rs:203-224`: `audit_lockfile`, on a fresh auditor: `Auditor::new` may exit with 1 (the outer `Except`). -/
def auditLockfile (env : Env) (c : AuditConfig) (path : Str) : Except Exit (Option Report) :=
  match Auditor.new env c with
  | .err => .error (.code 1)
  | .panic => .error .panic
  | .ok a =>
    match env.loadLock path with
    | none => .ok none
    | some l =>
      match a.audit env l none with
      | .err => .ok none
      | .panic => .error .panic
      | .ok (a, r, _) =>
        match a.selfAdvisories env with
        | none => .error .panic
        | some _ => .ok (some r)

/-- `fix.rs:126-163`: what is done with the second audit. -/
def afterFix (cs : List UpdateCommand) (us : List Id) (r : Report) : Except Exit (Option Report) → FixRun
  | .error e => { commands := cs, unpatchable := us, exit := e }
  | .ok none => { commands := cs, unpatchable := us, exit := .panic }
  | .ok (some r') =>
    { commands := cs, unpatchable := us
      unfixed := some ((r'.vulnerabilities.list.map (·.advisory.id)).filter fun i => !us.contains i)
      counts := some (r.vulnerabilities.list.length - r'.vulnerabilities.list.length, r'.vulnerabilities.list.length)
      exit := .code 0 }

/-- `fix.rs:38-166`: `FixCommand::run`; commands run before a panic in the loop are not recorded.  The second audit
sets `output.quiet`. -/
def runFix (W : FixWorld) (cmd : FixCommand) (c : AuditConfig) : FixRun :=
  match W.before.locate cmd.file with
  | none => { exit := .code 2 }
  | some path =>
    match auditLockfile W.before c path with
    | .error e => { exit := e }
    | .ok none => { exit := .code 2 }
    | .ok (some r) =>
      if r.vulnerabilities.list.isEmpty then { exit := .code 0 }
      else
        match W.loadFile path with
        | none => { exit := .panic }
        | some l =>
          match fixLoop W W.before.codec cmd l r.vulnerabilities.list with
          | .err => { exit := .panic }
          | .panic => { exit := .panic }
          | .ok (cs, us, n) =>
            if n ≠ 0 then { commands := cs, unpatchable := us, exit := .code 2 }
            else if cmd.dryRun then
              { commands := cs, unpatchable := us, exit := if us.isEmpty then .code 0 else .code 1 }
            else
              afterFix cs us r (auditLockfile (W.after cs) { c with output := { c.output with quiet := true } } path)

end Verif.Audit
