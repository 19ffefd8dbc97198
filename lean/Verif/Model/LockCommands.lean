import Verif.Model.LockCli
import Verif.Model.LockText
import Verif.Spec.SemverLib

/-!
# The `cargo lock` command on texts

`cargo-lock/src/main.rs` with the `semver` crate and the TOML reader as modelled before: files are texts, and what is
printed is a text.
-/

namespace Verif.LockCli

open Verif.Lock Verif.Spec

/-- What the command finds, as texts: the files, which files can be written, and the third-party code. -/
structure LockTexts where
  url : UrlLib
  out : TomlOut
  file : Str → Option Str
  writable : Str → Bool

/-- `cargo-lock/src/lockfile.rs:46-61`: `Lockfile::load`, up to the fields of the document. -/
def docOfText (text : Str) : Option LockDoc :=
  match Toml.read text with
  | none => none
  | some t =>
    match LockDoc.ofTable t with
    | .ok d => some d
    | _ => none

/-- The files as documents. -/
def LockTexts.env (F : LockTexts) : CliEnv :=
  { codec := semverCodec F.url, file := fun p => (F.file p).bind docOfText, writable := F.writable }

/-- `main.rs:66-77, 113, 215-222`: `println!` ends with a newline; the trees are written as they are. -/
def Out.shown (T : TomlOut) : Out → Str
  | .line t => t ++ ['\n']
  | .doc d => d.text T ++ ['\n']
  | .text t => t

/-- The standard output. -/
def CliRun.printed (F : LockTexts) (r : CliRun) : Str := r.stdout.flatMap (Out.shown F.out)

/-- `main.rs:115-119`: the file that was written. -/
def CliRun.saved (F : LockTexts) (r : CliRun) : Option (Str × Str) := r.written.map fun e => (e.1, e.2.text F.out)

end Verif.LockCli
