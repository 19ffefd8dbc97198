import Verif.Model.Database
import Verif.Spec.Versions

/-!
# Specification: advisory database and queries
-/

namespace Verif.Spec

open Verif.Semver Verif.Osv Verif.Lock Verif.Adv Verif.Db

/-- The file `f` sits at `<collection c>/<dir>/<f.name>` in the checkout and is not a dotfile. -/
def Located (t : Tree) (c : Collection) (dir : Str) (f : File) : Prop :=
  ∃ listing files, (match c with | .crates => t.crates | .rust => t.rust) = some listing ∧
    DirEntry.dir dir files ∈ listing ∧ f ∈ files ∧ ¬ ['.'] <+: f.name

/-- `f`, found in `<c>/<dir>`, parses to `a` and is where it belongs. -/
def WellPlaced (c : Collection) (dir : Str) (f : File) (a : Advisory) : Prop :=
  f.content = .ok a ∧
  dir = a.metadata.package ∧
  (a.metadata.collection = none ∨ a.metadata.collection = some c) ∧
  (f.name = a.metadata.id.string ++ ".md".toList ∨
    ("RUSTSEC-0000-0000.".toList <+: f.name ∧ ".md".toList <:+ f.name))

/-- The advisory as stored: its collection is filled in from the directory. -/
def stored (c : Collection) (a : Advisory) : Advisory :=
  { a with metadata := { a.metadata with collection := some c } }

/-- Every filter that is set holds of the advisory. -/
structure QueryHolds (q : Query) (a : Advisory) : Prop where
  collection : ∀ c, q.collection = some c → a.metadata.collection = some c
  name : ∀ n, q.packageName = some n → a.metadata.package = n
  version : ∀ v, q.packageVersion = some v → a.versions.isVulnerable v = .ok true
  source : ∀ s, q.packageSource = some s →
    (a.metadata.source.getD SourceId.default).kind = s.kind ∧
    (a.metadata.source.getD SourceId.default).url.text = s.url.text
  severity : ∀ th sev, q.severity = some th → a.metadata.severity = some sev → th.rank ≤ sev.rank
  arch : ∀ af, a.affected = some af → af.arch = [] ∨ q.targetArch = [] ∨ ∃ x ∈ q.targetArch, x ∈ af.arch
  os : ∀ af, a.affected = some af → af.os = [] ∨ q.targetOs = [] ∨ ∃ x ∈ q.targetOs, x ∈ af.os
  year : ∀ y y', q.year = some y → a.metadata.id.year = some y' → y = y'
  withdrawn : ∀ b, q.withdrawn = some b → (b = true ↔ a.metadata.withdrawn ≠ none)
  informational : ∀ b, q.informational = some b → (b = true ↔ a.metadata.informational ≠ none)

/-- The advisory's `[versions]` table was accepted when the advisory was parsed, with requirements of a
shape the `semver` parser produces. -/
def Validated (a : Advisory) : Prop :=
  (∀ r ∈ a.versions.patched ++ a.versions.unaffected, ReqWF r) ∧
  Versions.new a.versions.patched a.versions.unaffected = .ok a.versions

/-- The package is locked from crates.io: through the git index or the sparse index. -/
def FromCratesIo (p : Package) : Prop :=
  ∃ s, p.source = some s ∧
    ((s.kind = .registry ∧ s.url.text = "https://github.com/rust-lang/crates.io-index".toList) ∨
     (s.kind = .sparseRegistry ∧ s.url.text = "https://index.crates.io/".toList))

/-- The advisory speaks about the registry the package comes from (an advisory without `source` speaks about
the crates.io git index). -/
def SameRegistry (a : Advisory) (p : Package) : Prop :=
  ∃ s, p.source = some s ∧
    (a.metadata.source.getD SourceId.default).kind = s.kind ∧
    (a.metadata.source.getD SourceId.default).url.text = s.url.text

/-- No patched or unaffected requirement covers the version. -/
def Exposed (a : Advisory) (v : Version) : Prop :=
  ∀ r ∈ a.versions.patched ++ a.versions.unaffected, ¬ Covers r v

end Verif.Spec
