import Verif.Model.ListVersions
import Verif.Spec.Versions
import Mathlib.Data.List.Forall2

/-!
# Specification of `rustsec-admin list-affected-versions` (C72)
-/

namespace Verif.Spec

open Verif.Adv Verif.Db Verif.AdminLint Verif.Semver Verif.Osv Verif.ListVersions

/-- No requirement of the advisory, patched or unaffected, is met by the version. -/
def Hit (a : Advisory) (v : Version) : Prop := ∀ r ∈ a.versions.patched ++ a.versions.unaffected, ¬ Covers r v

/-- What is to be said of a version. -/
def VerdictOn (E : ListEnv) (a : Advisory) (text : Str) (s : Said) : Prop :=
  ∃ v, E.version text = some v ∧
    (Hit a v ∧ s = .line (text ++ " vulnerable".toList) ∨ ¬ Hit a v ∧ s = .line (text ++ " OK".toList))

/-- What is to be said of an advisory: every version the registry has of its package, in the order of the registry. -/
def SaidOf (E : ListEnv) (index : Str → Answer) (a : Advisory) (block : List Said) : Prop :=
  ∃ versions below, index a.metadata.package = .found versions ∧
    block = .loaded a.metadata.id a.metadata.package :: below ∧ List.Forall₂ (VerdictOn E a) versions below

/-- The advisories on crates. -/
def onCrates (db : Database) : List Advisory := db.iter.filter fun a => decide (a.metadata.collection = some .crates)

/-- The one path, or the current directory. -/
def OnePath (paths : List Str) (path : Str) : Prop := paths = [] ∧ path = ".".toList ∨ paths = [path]

end Verif.Spec
