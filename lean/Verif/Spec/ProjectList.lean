import Verif.Spec.Project
import Verif.Spec.ListVersions

/-!
# Specification: `rustsec-admin list-affected-versions` on the texts of a database (C104)
-/

namespace Verif.Spec

open Verif Verif.Adv Verif.Semver Verif.Osv Verif.ListVersions
open Verif.AdminLint (Checkout)

/-- The checkout has a file with this advisory in this collection, and it is not a draft. -/
def Published (L : AdvLib) (ch : Checkout) (col : Collection) (f : AdvisoryFile) : Prop :=
  ∃ text, HasFile ch col text ∧ AdvisoryOf L text f ∧ f.metadata.id.string ≠ "RUSTSEC-0000-0000".toList

/-- What is said about a version's text: it is that of a version, and "vulnerable" follows it exactly if no requirement of
the advisory's text, patched or unaffected, covers that version; else "OK". -/
def LineOn (f : AdvisoryFile) (text : Str) (s : Said) : Prop :=
  ∃ v : Version, v.Valid ∧ text = v.text ∧
    ((∀ r ∈ f.versions.patched ++ f.versions.unaffected, ¬ Covers r v) ∧ s = .line (text ++ " vulnerable".toList) ∨
     (∃ r ∈ f.versions.patched ++ f.versions.unaffected, Covers r v) ∧ s = .line (text ++ " OK".toList))

/-- What is said about an advisory: its ID and package, and then a line for each version that the registry has, in its order. -/
def BlockOn (index : Str → Answer) (f : AdvisoryFile) (block : List Said) : Prop :=
  ∃ versions below, index f.metadata.package = .found versions ∧
    block = .loaded f.metadata.id f.metadata.package :: below ∧ List.Forall₂ (LineOn f) versions below

end Verif.Spec
