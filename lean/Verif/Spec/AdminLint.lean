import Verif.Model.AdminLint
import Verif.Spec.AdvisoryDecode
import Verif.Spec.Assigner
import Verif.Spec.Database

/-!
# Specification of `rustsec-admin lint` (C69)
-/

namespace Verif.Spec

open Verif.Adv Verif.Db Verif.Assign Verif.Lint Verif.AdminLint

/-- What is assumed of the TOML parser: if a text parses both as it is and under the line `[advisory]`, the text values
of `[advisory]` in the second document are values of top-level keys in the first. -/
def HeaderLaw (toml : Str → Option TomlTable) : Prop :=
  ∀ fm t t' m, ¬ "[advisory]".toList <+: fm → toml fm = some t → toml ("[advisory]\n".toList ++ fm) = some t' →
    t'.lookup "advisory".toList = some (.table m) → ∀ (k : String) s, m.lookup k.toList = some (.str s) → HasKey t k

/-- The file is named `*.md`. -/
def MdName (name : Str) : Prop := ∃ stem, stem ≠ [] ∧ name = stem ++ ".md".toList

/-- The file is named as a draft. -/
def DraftName (name : Str) : Prop := "RUSTSEC-0000-0000.".toList <+: name

instance (name : Str) : Decidable (DraftName name) := by unfold DraftName; infer_instance

/-- The file holds the advisory `a`, and there is nothing to complain about: it is a Markdown file, its front matter
starts with `[advisory]`, none of the problems of C24 is present, and its date has a year. -/
structure CleanFile (L : AdvLib) (name text : Str) (a : AdvisoryFile) : Prop where
  md : MdName name
  parsed : AdvisoryOf L text a
  clean : ∃ parts t, WellFormedFile text parts ∧ "[advisory]".toList <+: parts.frontMatter ∧
    L.toml parts.frontMatter = some t ∧ ∀ f, ¬ Problem a t parts.markdown (some (decide (DraftName name))) f
  date : a.metadata.date.year ≠ .panic

/-- The file is in the package directory of this entry. -/
def FileIn (e : Entry) (name : Str) (text : Option Str) : Prop := ∃ dir items, e = .dir dir items ∧ .file name text ∈ items

/-- The directory holds package directories only, and they hold regular files that can be read, only. -/
def Tidy (entries : List Entry) : Prop :=
  ∀ e ∈ entries, ∃ dir items, e = .dir dir items ∧ ∀ i ∈ items, ∃ name text, i = .file name (some text)

/-- The checkout passes: the database opens and has an advisory; both collections are tidy; every file is clean;
and, if cargo's lock is free, every crate advisory names a crate of crates.io by its exact name, unless the crate is
expected to be deleted. -/
structure LintPasses (E : LintEnv) (lookup : Str → Lookup) (c : Checkout) : Prop where
  opens : ∃ db, Database.open (c.tree E.adv E.sev) = .ok db ∧ db.iter ≠ []
  tidy : ∀ col, ∃ entries, c.listing col = some entries ∧ Tidy entries
  clean : ∀ col entries, c.listing col = some entries → ∀ e ∈ entries, ∀ name text, FileIn e name (some text) →
    ∃ a, CleanFile E.adv name text a
  names : E.lockFree = true → ∀ entries, c.crates = some entries → ∀ e ∈ entries, ∀ name text a,
    FileIn e name (some text) → AdvisoryOf E.adv text a → a.metadata.expectDeleted = false →
    lookup a.metadata.package = .found a.metadata.package

end Verif.Spec
