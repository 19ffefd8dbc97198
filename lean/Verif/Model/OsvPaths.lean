import Verif.Model.OsvExport
import Verif.Model.SitePaths

/-!
# Where the osv command writes

Model of the paths of `admin/src/osv_export.rs` and of `admin/src/commands/osv.rs`.
-/

namespace Verif.Export

open Verif.Adv Verif.Web Verif.Assign

/-- The reversed text of a path without the slashes and the `/.` at its end, which `Path::components` skips. -/
def trimPath : Str → Str
  | '/' :: r => trimPath r
  | '.' :: '/' :: r => trimPath r
  | r => r

/-- `Path::set_extension("json")`: the last component is renamed (`setJson`), what follows it is dropped; without a last
component, or if it is `.` or `..`, nothing changes. -/
def withJson (p : Str) : Str :=
  let r := trimPath p.reverse
  let name := (r.takeWhile fun c => !decide (c = '/')).reverse
  if name = [] ∨ name = ".".toList ∨ name = "..".toList then p
  else (r.dropWhile fun c => !decide (c = '/')).reverse ++ setJson name

/-- `osv_export.rs:84-85`: the path for an ID. -/
def osvPath (out id : Str) : Str := withJson (pathJoin out id)

/-- `osv_export.rs:53-89`: the paths that are written by the loop; which files are exported is `exportFile`. -/
def osvPathsFrom (W : ExportEnv) (out : Str) : List (Path × Str) → List Str
  | [] => []
  | f :: fs =>
    match exportFile W f with
    | .err => []
    | .panic => []
    | .ok none => osvPathsFrom W out fs
    | .ok (some _) =>
      match AdvisoryFile.fromStr W.adv f.2 with
      | .ok a => osvPath out a.metadata.id.display :: osvPathsFrom W out fs
      | _ => []

/-- `commands/osv.rs:25-44`: the paths that the command writes on the files `d`. -/
def osvWritten (W : ExportEnv) (d : Disk) (path : Option Str) : List Str :=
  osvPathsFrom W (path.getD ".".toList) (d.collection .crates)

end Verif.Export
