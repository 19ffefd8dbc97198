import Verif.Model.Project
import Verif.Model.ConfigFile
import Verif.Model.Transcript

/-!
# What `cargo audit` shows, from the texts of the files

Model of `cargo-audit/src/commands/audit.rs:271-306` with `auditor.rs:49-224` and `presenter.rs` put together.
-/

namespace Verif.Audit

namespace Project

/-- The transcript of `cargo audit` (`commands/audit.rs:271-306`): a configuration that cannot be read ends the run with 1,
with a message of the framework (`fatal_error`, which is not in /repo and not modelled). -/
def shown (P : Project) (T : TermLib) (w : Circumstances) (cmd : AuditCommand) : List Shown × Exit :=
  match effectiveConfig P.configWorld cmd with
  | .err => ([], .code 1)
  | .panic => ([], .panic)
  | .ok c => runTranscript T w (P.env cmd.file) cmd c

end Project

end Verif.Audit
