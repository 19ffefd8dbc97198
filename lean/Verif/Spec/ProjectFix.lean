import Verif.Model.ProjectFix
import Verif.Spec.Project

/-!
# Specification: `cargo audit fix` on the texts of a project (C105)
-/

namespace Verif.Spec

open Verif Verif.Semver Verif.Osv Verif.Lock Verif.Adv Verif.Audit
open Verif.AdminLint (Checkout)

/-- How `cargo update` is told of a package: `name@version`, after the source and `#` if there is a source. -/
inductive SpecOf (name : Str) (version : Version) : Option SourceId → Str → Prop
  | path : SpecOf name version none (name ++ "@".toList ++ version.text)
  | source (s : SourceId) : SpecOf name version (some s) (s.asUrl false ++ "#".toList ++ name ++ "@".toList ++ version.text)

/-- The same for a package from crates.io. -/
inductive CratesIoSpec (name : Str) (version : Version) : Str → Prop
  | git : CratesIoSpec name version ("registry+https://github.com/rust-lang/crates.io-index#".toList ++ name ++ "@".toList ++ version.text)
  | sparse : CratesIoSpec name version ("sparse+https://index.crates.io/#".toList ++ name ++ "@".toList ++ version.text)

/-- The texts tell of a vulnerability with a patched version, or without. -/
def Fixable (P : Project) (c : AuditConfig) (ch : Checkout) (lock : Str) (f : AdvisoryFile) : Prop :=
  Finding P c ch lock f ∧ f.metadata.informational = none ∧ f.versions.patched ≠ []
def Unpatched (P : Project) (c : AuditConfig) (ch : Checkout) (lock : Str) (f : AdvisoryFile) : Prop :=
  Finding P c ch lock f ∧ f.metadata.informational = none ∧ f.versions.patched = []

/-- `cargo update` is run to fix an advisory: dry if asked for, in the directory of the lockfile that was named, if one was, and told
of the packages of that name in the lockfile, of any source, whose versions no requirement of the advisory covers. -/
structure Fixes (P : Project) (fix : FixCommand) (dir : Option Str) (lock : Str) (f : AdvisoryFile) (u : UpdateCommand) : Prop where
  dry : u.dryRun = fix.dryRun
  dir : u.dir = dir
  specs : ∀ s, s ∈ u.specs ↔ ∃ version source, Locks P.url lock f.metadata.package version source ∧
    (∀ r ∈ f.versions.patched ++ f.versions.unaffected, ¬ Covers r version) ∧ SpecOf f.metadata.package version source s

end Verif.Spec
