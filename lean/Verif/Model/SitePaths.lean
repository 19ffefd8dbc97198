import Verif.Model.Web

/-!
# Where the web command writes

Model of `admin/src/commands/web.rs` and of the paths of `admin/src/web.rs`.  The static assets (`web.rs:552-563`), whose
names are constants of the program, and the creation of folders are not modelled.
-/

namespace Verif.Web

open Verif.Adv

/-- `PathBuf::join` on Unix: an absolute path replaces the base; a `/` is added where there is none. -/
def pathJoin (base p : Str) : Str :=
  if p.head? = some '/' then p
  else if base = [] ∨ base.getLast? = some '/' then base ++ p
  else base ++ '/' :: p

/-- `web.rs:93, 124, 127, 131, 153, 157, 176, 216, 223, 228, 296, 300, 343, 350, 361, 371`: the path of a file of the site. -/
def outputPath (out : Str) (p : SitePath) : Str :=
  if p.1 = [] then pathJoin out p.2 else pathJoin (pathJoin out p.1) p.2

/-- `commands/web.rs:20-29`: the command with these paths, on the advisories of the database: the paths of the files written,
and how it ends. -/
def webCommand (E : WebEnv) (as : List AdvisoryFile) (paths : List Str) : List Str × Outcome Unit :=
  match paths with
  | [] => ((renderAdvisories E as).writes.map fun w => outputPath "_site/".toList w.1, (renderAdvisories E as).result)
  | [out] => ((renderAdvisories E as).writes.map fun w => outputPath out w.1, (renderAdvisories E as).result)
  | _ :: _ :: _ => ([], .panic)

end Verif.Web
