import Verif.Model.ProjectLint
import Verif.Spec.AdminLint
import Verif.Spec.Project

/-!
# Specification of `rustsec-admin lint` from texts (C94)
-/

namespace Verif.Spec

open Verif.Adv Verif.Db Verif.Audit Verif.AdminLint

/-- The texts of the checkout pass: the database can be read and has an advisory that is not a draft; both collections are
listed and tidy; every file is clean; and, if cargo's lock is free, the crates that advisories name have these names on
crates.io, unless they are expected to be deleted. -/
structure LintTexts (L : AdvLib) (lockFree : Bool) (lookup : Str → Lookup) (ch : Checkout) : Prop where
  reads : DatabaseReads L ch
  published : ∃ col text f, HasFile ch col text ∧ AdvisoryOf L text f ∧
    f.metadata.id.string ≠ "RUSTSEC-0000-0000".toList
  tidy : ∀ col, ∃ entries, ch.listing col = some entries ∧ Tidy entries
  clean : ∀ col entries, ch.listing col = some entries → ∀ e ∈ entries, ∀ name text, FileIn e name (some text) →
    ∃ a, CleanFile L name text a
  names : lockFree = true → ∀ entries, ch.crates = some entries → ∀ e ∈ entries, ∀ name text a,
    FileIn e name (some text) → AdvisoryOf L text a → a.metadata.expectDeleted = false →
    lookup a.metadata.package = .found a.metadata.package

end Verif.Spec
