import Verif.Model.ProjectBin
import Verif.Model.Transcript

/-!
# What `cargo audit bin` shows, from the bytes of the binaries

Model of `cargo-audit/src/commands/audit/binary_scanning.rs:37-58` with `auditor.rs:228-317` and `presenter.rs` put together.
-/

namespace Verif.Audit

open Verif.Lock Verif.Adv Verif.Semver Verif.Spec Verif.Bin

namespace Project

/-- The transcript of `cargo audit bin` (`commands/audit/binary_scanning.rs:37-51`): a configuration that cannot be read ends
the run with 1, with a message of the framework (`fatal_error`, which is not in /repo and not modelled). -/
def binShown (P : Project) (B : Binaries) (T : TermLib) (w : Circumstances) (cmd : AuditCommand)
    (maxBinarySize auditDataSizeLimit : Option Nat) (paths : List Str) : List Shown × Exit :=
  match effectiveConfig P.configWorld cmd with
  | .err => ([], .code 1)
  | .panic => ([], .panic)
  | .ok c => binTranscript T w (P.binEnv B) maxBinarySize auditDataSizeLimit paths c

end Project

end Verif.Audit
