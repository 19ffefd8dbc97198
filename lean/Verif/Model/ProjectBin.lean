import Verif.Model.Project
import Verif.Model.BinaryDeps

/-!
# A run of `cargo audit bin`, from the bytes of the binaries

Model of `cargo-audit/src/commands/audit/binary_scanning.rs:37-58` with `auditor.rs:228-317` and
`rustsec/src/binary_scanning/binary_deps.rs` put together.
-/

namespace Verif.Audit

open Verif.Lock Verif.Adv Verif.Semver Verif.Spec Verif.Bin

/-- The binaries, and the external crates that read them (`auditor.rs:279-317`). -/
structure Binaries where
  /-- The bytes of a file, if it can be opened and read (`auditor.rs:300-305`). -/
  bytesOf : Str → Option (List UInt8)
  /-- `auditable_info::audit_info_from_slice` with its limit (`binary_deps.rs:36-40`). -/
  auditInfo : List UInt8 → Nat → AuditInfo
  /-- `binfarce::detect_format` (`binary_deps.rs:74-86`). -/
  format : List UInt8 → BinaryFormat
  /-- `SymbolSet::from_file` (`presenter.rs:150-172`). -/
  symbolsOf : List UInt8 → Option (List (List Str))

namespace Project

variable (P : Project) (B : Binaries)

/-- The libraries with which binaries are read (`binary_deps.rs:1-14`); versions are read as specified. -/
def binLib : BinLib := { parseVersion := readVersion, url := P.url, auditInfo := B.auditInfo, format := B.format }

/-- `auditor.rs:282-296`: the format of a binary and, if there are any, its dependencies. -/
def depsOf (data : List UInt8) (limit : Option Nat) : Option (BinaryFormat × Option Lockfile) :=
  match loadDepsFromBinary (P.binLib B) data limit with
  | .ok (f, .complete l) => some (f, some l)
  | .ok (f, .incomplete l) => some (f, some l)
  | .ok (f, .nothing) => some (f, none)
  | _ => none

/-- The surroundings of `cargo audit bin` (`cargo-audit/src/auditor.rs:49-224`). -/
def binEnv : Env :=
  { P.env none with readBinary := B.bytesOf, loadDeps := P.depsOf B, symbolsOf := B.symbolsOf }

/-- `cargo audit bin`: a configuration that cannot be read ends the run with 1 (the framework's `fatal_error`, which is not
in /repo); otherwise `BinCommand::run` (`commands/audit/binary_scanning.rs:37-51`). -/
def runBin (cmd : AuditCommand) (maxBinarySize auditDataSizeLimit : Option Nat) (paths : List Str) :
    List (Option Printed) × Exit :=
  match effectiveConfig P.configWorld cmd with
  | .err => ([], .code 1)
  | .panic => ([], .panic)
  | .ok c => Audit.runBin (P.binEnv B) maxBinarySize auditDataSizeLimit paths c

end Project

end Verif.Audit
