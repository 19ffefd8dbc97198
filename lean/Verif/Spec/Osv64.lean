import Verif.Spec.Versions
import Verif.Model.Osv64

/-!
# Specification: numbers of 64 bits (C98)
-/

namespace Verif.Spec

open Verif Verif.Semver Verif.Osv Verif.Osv64

/-- One can be added to every number of the requirement without leaving 64 bits. -/
def SmallReq (r : VersionReq) : Prop :=
  ∀ c ∈ r.comparators, c.major < 2 ^ 64 - 1 ∧ (∀ n, c.minor = some n → n < 2 ^ 64 - 1) ∧ ∀ n, c.patch = some n → n < 2 ^ 64 - 1

/-- The two kinds of builds. -/
def IsBuild (B : Build) : Prop := B = debug ∨ B = release

end Verif.Spec
