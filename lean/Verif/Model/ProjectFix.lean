import Verif.Model.Project
import Verif.Model.Fix

/-!
# `cargo audit fix` on the texts of a project

`cargo-audit/src/commands/audit/fix.rs` in the surroundings of `Verif.Model.Project`.  What `cargo update` does to the files is
an argument.
-/

namespace Verif.Audit

open Verif.Semver Verif.Lock Verif.Adv Verif.Rep Verif.Toml Verif.Spec

/-- What `fix` finds besides the project: the directory of a file (`fix.rs:89-90`), whether `cargo` can be started (`fix.rs:96`), and
the project after the commands were run. -/
structure FixSurroundings where
  parentDir : Str → Option Str
  spawns : UpdateCommand → Bool
  after : List UpdateCommand → Project

namespace Project

variable (P : Project) (S : FixSurroundings)

/-- `fix.rs:61`: `Lockfile::load`; `-` is a file here. -/
def reload (file : Option Str) (path : Str) : Option Lockfile :=
  if path = "-".toList then
    (P.contents path).bind fun s =>
      match Lockfile.fromText (semverCodec P.url) Toml.read s with
      | .ok l => some l
      | _ => none
  else P.loadLock file path

/-- The surroundings as the model of the command takes them (`fix.rs:38-166`). -/
def fixWorld (file : Option Str) : FixWorld where
  before := P.env file
  loadFile := P.reload file
  parentDir := S.parentDir
  spawns := S.spawns
  after := fun cs => (S.after cs).env file

/-- `cargo audit fix`: a configuration that cannot be read ends the run with 1 (as in `Project.run`); otherwise `FixCommand::run`
(`fix.rs:38-166`). -/
def runFix (cmd : AuditCommand) (fix : FixCommand) : FixRun :=
  match effectiveConfig P.configWorld cmd with
  | .err => { exit := .code 1 }
  | .panic => { exit := .panic }
  | .ok c => Audit.runFix (P.fixWorld S fix.file) fix c

end Project

end Verif.Audit
