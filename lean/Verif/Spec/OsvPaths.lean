import Verif.Model.OsvPaths
import Verif.Spec.SitePaths

/-!
# Where the osv command writes (C112)
-/

namespace Verif.Spec

open Verif.Adv

/-- A name of a file: not empty, without slashes, not `.` and not `..`. -/
def FileName (s : Str) : Prop := s ≠ [] ∧ '/' ∉ s ∧ s ≠ ".".toList ∧ s ≠ "..".toList

end Verif.Spec
