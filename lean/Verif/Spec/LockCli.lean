import Verif.Model.LockCli
import Verif.Spec.Tree
import Verif.Spec.Lockfile
import Mathlib.Data.List.Forall2

/-!
# Specification of the `cargo lock` command (C71)
-/

namespace Verif.Spec

open Verif.Lock Verif.LockCli

/-- The text stands for this version of the package: its version, or, if the text is not a version, its checksum or the
revision of its source. -/
def IsVersionOf (C : Codec) (p : Package) (text : Str) : Prop :=
  C.parseVersion text = some p.version ∨
  C.parseVersion text = none ∧
    ((∃ c, p.checksum = some c ∧ c.show = text) ∨ ∃ s, p.source = some s ∧ s.precise = some text)

/-- The package is meant by `name@version`, by a name, or by a version. -/
def MeantBy (C : Codec) (p : Package) (spec : Str) : Prop :=
  (∃ name ver, '@' ∉ name ∧ spec = name ++ '@' :: ver ∧ p.name = name ∧ IsVersionOf C p ver) ∨
  ('@' ∉ spec ∧ (p.name = spec ∨ IsVersionOf C p spec))

/-- The first package of the lockfile that is meant. -/
def FirstMeant (C : Codec) (ps : List Package) (spec : Str) (i : Nat) : Prop :=
  ∃ p, ps[i]? = some p ∧ MeantBy C p spec ∧ ∀ j q, j < i → ps[j]? = some q → ¬ MeantBy C q spec

/-- No two packages have the same name, version and source. -/
def NoTwins (ps : List Package) : Prop :=
  ∀ (i j : Nat) p q, ps[i]? = some p → ps[j]? = some q → NamesPkg (Dependency.ofPackage p) q → i = j

/-- The `i`-th package has a dependency on the `j`-th. -/
def Needs (ps : List Package) (i j : Nat) : Prop :=
  ∃ p q d, ps[i]? = some p ∧ ps[j]? = some q ∧ d ∈ p.dependencies ∧ NamesPkg d q

/-- How a package or dependency is listed. -/
def ItemText (C : Codec) (sources : Bool) (d : Dependency) (text : Str) : Prop :=
  (sources = false → text = d.name ++ " ".toList ++ C.showVersion d.version) ∧
  (sources = true → d.source = none → text = d.name ++ " ".toList ++ C.showVersion d.version) ∧
  (sources = true → ∀ s, d.source = some s →
    text = d.name ++ " ".toList ++ C.showVersion d.version ++ " (".toList ++ s.asUrl false ++ ")".toList)

/-- How a package is listed: its line, and below it the lines of its dependencies if they are wanted. -/
def ListedAs (C : Codec) (args : ListArgs) (p : Package) (lines : List Str) : Prop :=
  ∃ text below, lines = ("- ".toList ++ text) :: below ∧ ItemText C args.sources (Dependency.ofPackage p) text ∧
    (args.dependencies = false → below = []) ∧
    (args.dependencies = true →
      List.Forall₂ (fun d line => ∃ t, line = "  - ".toList ++ t ∧ ItemText C args.sources d t) p.dependencies below)

/-- The lockfile in another format: without the package of the old `[root]` table, and without the checksums of its
packages in the metadata. -/
def translated (C : Codec) (l : Lockfile) (v : ResolveVersion) : Lockfile :=
  { l with
    version := v, root := none,
    metadata := l.metadata.filter fun e =>
      !(l.packages.any fun p => decide (e.1 = checksumKey C (Dependency.ofPackage p))) }

end Verif.Spec
