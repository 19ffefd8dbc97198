import Verif.Model.LockCommands
import Verif.Spec.LockCli
import Verif.Spec.LockMeaning

/-!
# Specification: lockfiles that every format can hold (C100)
-/

namespace Verif.Spec

open Verif Verif.Lock Verif.LockCli Verif.Semver

/-- The sources in a lockfile: of packages, of what they depend on or are replaced with, of unused patches. -/
def SourceIn (l : Lockfile) (s : SourceId) : Prop :=
  (∃ p ∈ l.packages, p.source = some s ∨ (∃ d ∈ p.dependencies, d.source = some s) ∨
    ∃ r, p.replace = some r ∧ r.source = some s) ∨
  ∃ d ∈ l.patch, d.source = some s

/-- A lockfile as Cargo makes them: no source is a path or has white space in its URL; what a package depends on is in the
lockfile; a package that is not from anywhere is not confused with one of the same name and version from elsewhere; a package
that is replaced has no dependencies; the metadata has no checksums of other packages. -/
structure CargoMade (C : Codec) (l : Lockfile) : Prop where
  sources : ∀ s, SourceIn l s → s.kind ≠ .path ∧ ∀ c ∈ s.url.text, ¬ White c
  complete : ∀ p ∈ l.packages, ∀ d ∈ p.dependencies, ∃ q ∈ l.packages, Dependency.ofPackage q = d
  unmixed : ∀ p ∈ l.packages, ∀ d ∈ p.dependencies, d.source = none →
    ∀ q ∈ l.packages, q.name = d.name → q.version = d.version → q.source = none
  replaced : ∀ p ∈ l.packages, p.replace ≠ none → p.dependencies = []
  checksums : ∀ e ∈ l.metadata, "checksum ".toList <+: e.1 → ∃ p ∈ l.packages,
    e.1 = "checksum ".toList ++ p.name ++ " ".toList ++ C.showVersion p.version ++
      (match p.source with | some s => " (".toList ++ s.asUrl false ++ ")".toList | none => [])

/-- The name of a branch, tag or revision that the formats before version 4 can hold: no white space, control characters or
characters with a meaning in a query. -/
def PlainName (s : SourceId) : Prop :=
  ∀ name, s.kind = .git (.branch name) ∨ s.kind = .git (.tag name) ∨ s.kind = .git (.rev name) →
    ∀ c ∈ name, ' ' < c ∧ ¬ White c ∧ c ∉ ['#', '&', '+', '%']

/-- The format can hold the names of the branches: version 4 those of packages, any format only plain ones otherwise. -/
def CanHold (v : ResolveVersion) (l : Lockfile) : Prop :=
  (v = .v4 ∧ ∀ d ∈ l.patch, ∀ s, d.source = some s → PlainName s) ∨
  ((v = .v2 ∨ v = .v3) ∧ ∀ s, SourceIn l s → PlainName s)

/-- `cargo lock translate` on the text of a lockfile: what it prints, or writes to a file. -/
inductive Translates (F : LockTexts) (path : Option Str) (v : ResolveVersion) : Str → Str → Prop
  | printed {t : Str} (o : Option Str) (ho : o = none ∨ o = some "-".toList) (hf : F.file (path.getD "Cargo.lock".toList) = some t)
      (hr : (translate F.env { file := path, output := o, version := some v }).result = .ok ()) :
      Translates F path v t ((translate F.env { file := path, output := o, version := some v }).printed F)
  | saved {t out t' : Str} (hf : F.file (path.getD "Cargo.lock".toList) = some t)
      (hw : (translate F.env { file := path, output := some out, version := some v }).saved F = some (out, t')) :
      Translates F path v t t'

/-- Translations one after the other, each of what the one before gave, with whatever other files there are. -/
inductive Chain (U : UrlLib) (T : TomlOut) : Str → Str → Prop
  | none {t : Str} : Chain U T t t
  | step {t t' t'' : Str} (h : Chain U T t t') (F : LockTexts) (path : Option Str) (v : ResolveVersion) (hu : F.url = U)
      (hT : F.out = T) (hv : v ≠ .v1) (ht : Translates F path v t' t'') : Chain U T t t''

end Verif.Spec
