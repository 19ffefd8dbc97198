import Verif.Model.AdminLint
import Verif.Model.Project

/-!
# `rustsec-admin lint` from texts
-/

namespace Verif.Audit

open Verif.AdminLint

/-- What `rustsec-admin lint` works with (`admin/src/linter.rs:34-50`), with the parsers that are specified; the index and cargo's
lock are given. -/
def Project.lintEnv (P : Project) (index : Option (Str → Lookup)) (lockFree : Bool) : LintEnv :=
  { adv := P.advLib, sev := P.severityOf, index, lockFree }

/-- `admin/src/commands/lint.rs:28-70`: `rustsec-admin lint` with these paths. -/
def Project.runLint (P : Project) (index : Option (Str → Lookup)) (lockFree : Bool) (paths : List Str) : Outcome Unit :=
  lintCommand (P.lintEnv index lockFree) P.checkoutAt paths

end Verif.Audit
