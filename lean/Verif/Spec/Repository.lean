import Verif.Model.Repository
import Verif.Spec.Database

/-!
# Specification: fetching the advisory database (C66)
-/

namespace Verif.Spec

open Verif.Repo Verif.Adv Verif.Db

/-- What is fetched comes from the URL. -/
def ComesFrom (W : GitWorld) (url : Str) (c : Repo.Commit) : Prop := W.remote url = some c

/-- The files that were in the work tree: none if it is made by the fetch, else those of the repository that was there (or
around it). -/
inductive Before (W : GitWorld) (path : Str) : Files → Prop
  | cloned : W.openAt path = none → Before W path []
  | found (r : Repository) : (W.openAt path = some r ∨ W.discover path = some r) → Before W path r.files

/-- Every file is as in the commit, or, if the commit has none at that place, as it was before. -/
def Overlaid (c : Repo.Commit) (before after : Files) : Prop :=
  ∀ pl, after.lookup pl = (c.files.lookup pl).or (before.lookup pl)

/-- Reading directories shows the files that are there. -/
def ReadsFiles (W : GitWorld) : Prop :=
  ∀ (fs : Files) (col : Collection) (dir : Str) (f : File), ¬ ['.'] <+: f.name →
    (Located (W.read fs) col dir f ↔ fs.lookup ⟨col, dir, f.name⟩ = some f.content)

end Verif.Spec
