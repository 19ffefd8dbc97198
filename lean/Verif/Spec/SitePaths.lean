import Verif.Model.SitePaths
import Verif.Spec.Web

/-!
# Where the web command writes (C111)
-/

namespace Verif.Spec

open Verif.Adv Verif.Web

/-- A folder, with a slash at the end. -/
def slashed (out : Str) : Str := if out = [] ∨ out.getLast? = some '/' then out else out ++ ['/']

/-- No part of the path is `..`. -/
def NoParent (p : Str) : Prop := "..".toList ∉ splitC '/' p

/-- The path leads to something in the folder: the folder, and a relative path that never goes up. -/
def Inside (out p : Str) : Prop := ∃ rest, p = slashed out ++ rest ∧ rest.head? ≠ some '/' ∧ NoParent rest

/-- The folder that the user asks for. -/
def folderOf (paths : List Str) : Str := paths.head?.getD "_site/".toList

/-- What the paths depend on: packages are names of directories, no IDs start with a slash, categories are without slashes;
Git has no paths with `..`. -/
structure PlainNames (E : WebEnv) (as : List AdvisoryFile) : Prop where
  package : ∀ a ∈ as, '/' ∉ a.metadata.package
  id : ∀ a ∈ as, a.metadata.id.string.head? ≠ some '/'
  category : ∀ a ∈ as, ∀ c ∈ a.metadata.categories, '/' ∉ c.name
  git : ∀ p, E.exp.tracked p = true → NoParent p

end Verif.Spec
