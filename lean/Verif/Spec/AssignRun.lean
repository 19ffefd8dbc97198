import Verif.Model.AssignRun
import Verif.Spec.Assigner

/-!
# Specification of `assign-id` as a command (C107)
-/

namespace Verif.Spec

open Verif.Adv Verif.Db Verif.Assign

/-- The changes of the disk among the events. -/
def changes (es : List Event) : List Effect :=
  es.filterMap fun
    | .disk e => some e
    | .line _ => none

/-- The lines among the events. -/
def printed (es : List Event) : List AssignLine :=
  es.filterMap fun
    | .disk _ => none
    | .line l => some l

/-- The path a command works at: the one given, else the current directory. -/
def pathOr (paths : List Str) : Str := paths.headD ".".toList

/-- The assignment of `id` in the directory `dir` is complete on the disk `d'`: a draft of `d` in such a directory is gone, and
its text, with the placeholder replaced, is in the file named by the ID next to it. -/
def Carried (d d' : Disk) (id dir : Str) : Prop :=
  ∃ f ∈ drafts d, f.1.dir = dir ∧ d'.read f.1 = none ∧
    ∃ t', d'.read ⟨f.1.collection, dir, id ++ ".md".toList⟩ = some t' ∧ Renamed id f.2 t'

end Verif.Spec
