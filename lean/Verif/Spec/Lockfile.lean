import Verif.Model.Lockfile

/-!
# What a well-formed lockfile is

Used by the statements of C28, C29 and C30.
-/

namespace Verif.Spec

open Verif Verif.Lock Verif.Semver

/-- A non-empty text without whitespace. -/
def IsWord (s : Str) : Prop := s ≠ [] ∧ ∀ c ∈ s, isWs c = false

/-- The version's text is one word and reads back as the version. -/
def VersionOk (C : Codec) (v : Version) : Prop :=
  C.parseVersion (C.showVersion v) = some v ∧ IsWord (C.showVersion v)

/-- The source is not a path, and its text (percent-encoded if `enc`) is free of whitespace and reads back as
the source: property C26. -/
def SourceOk (C : Codec) (enc : Bool) (s : SourceId) : Prop :=
  s.kind ≠ .path ∧ SourceId.fromUrl C.url (s.asUrl enc) = .ok s ∧ ∀ c ∈ s.asUrl enc, isWs c = false

/-- Name, version and source of a dependency can be written. -/
def DependencyOk (C : Codec) (enc : Bool) (d : Dependency) : Prop :=
  IsWord d.name ∧ VersionOk C d.version ∧ ∀ s, d.source = some s → SourceOk C enc s

/-- A package without its dependency list can be written.  A `replace` directive is only written for packages
without dependencies. -/
def PackageOk (C : Codec) (enc : Bool) (p : Package) : Prop :=
  VersionOk C p.version ∧ (∀ s, p.source = some s → SourceOk C enc s) ∧
  (∀ c, p.checksum = some c → c.length = 32) ∧
  (∀ d ∈ p.dependencies, DependencyOk C enc d) ∧
  (∀ r, p.replace = some r → p.dependencies = [] ∧ DependencyOk C enc r)

/-- `d` is the name, version and source of some package of the list. -/
def Names (ps : List Package) (d : Dependency) : Prop :=
  ∃ q ∈ ps, q.name = d.name ∧ q.version = d.version ∧ q.source = d.source

/-- The reference `d` is not shadowed: it has a source, or the first package with its name and version has none
either. -/
def NotShadowed (ps : List Package) (d : Dependency) : Prop :=
  d.source ≠ none ∨
  ∀ q, ps.find? (fun q => decide (q.name = d.name ∧ q.version = d.version)) = some q → q.source = none

/-- A lockfile of format V2, V3 or V4 that can be written without loss. -/
structure WellFormed (C : Codec) (l : Lockfile) : Prop where
  version : l.version ≠ .v1
  root : l.root = none
  packages : ∀ p ∈ l.packages, PackageOk C l.version.encoded p
  deps : ∀ p ∈ l.packages, ∀ d ∈ p.dependencies, Names l.packages d ∧ NotShadowed l.packages d
  patch : ∀ d ∈ l.patch, VersionOk C d.version ∧ ∀ s, d.source = some s → SourceOk C false s
  metadata : ∀ p ∈ l.packages, ∀ e ∈ l.metadata, e.1 ≠ checksumKey C (Dependency.ofPackage p)
  metadata_v2 : l.version = .v2 → ∀ e ∈ l.metadata, ¬ "checksum ".toList <+: e.1

/-- A lockfile of format V1 that can be written without loss: no two packages share name and version, some
package has a checksum, and checksum entries already in the metadata agree with the packages. -/
structure WellFormedV1 (C : Codec) (l : Lockfile) : Prop where
  version : l.version = .v1
  root : l.root = none
  names : ∀ p ∈ l.packages, IsWord p.name
  packages : ∀ p ∈ l.packages, PackageOk C false p
  distinct : ∀ p ∈ l.packages, ∀ q ∈ l.packages, p.name = q.name → p.version = q.version → p = q
  patch : ∀ d ∈ l.patch, VersionOk C d.version ∧ ∀ s, d.source = some s → SourceOk C false s
  some_checksum : ∃ p ∈ l.packages, p.checksum ≠ none
  metadata : ∀ e ∈ l.metadata, ∀ d, keyDependency C e.1 = .ok d → ∀ p ∈ l.packages,
    d.name = p.name → d.version = p.version → ∃ c, Checksum.fromStr e.2 = .ok c ∧ p.checksum = some c

end Verif.Spec
