import Verif.Model.BinaryDeps
import Verif.Spec.Database
import Verif.Spec.Tree
import Mathlib.Data.List.Forall2

/-!
# Specification of the dependencies recovered from binaries (C57, C58)
-/

namespace Verif.Spec

open Verif.Bin Verif.Lock Verif.Semver

/-- The byte is an ASCII digit. -/
def DigitByte (b : UInt8) : Prop := '0'.toNat ≤ b.toNat ∧ b.toNat ≤ '9'.toNat

/-- The byte is an ASCII letter. -/
def LetterByte (b : UInt8) : Prop :=
  ('A'.toNat ≤ b.toNat ∧ b.toNat ≤ 'Z'.toNat) ∨ ('a'.toNat ≤ b.toNat ∧ b.toNat ≤ 'z'.toNat)

/-- The byte may be part of the name of a crate. -/
def CrateByte (b : UInt8) : Prop := DigitByte b ∨ LetterByte b ∨ b.toNat = '_'.toNat ∨ b.toNat = '-'.toNat

/-- The byte may be part of a version after its numbers. -/
def SuffixByte (b : UInt8) : Prop :=
  DigitByte b ∨ LetterByte b ∨ b.toNat = '+'.toNat ∨ b.toNat = '.'.toNat ∨ b.toNat = '-'.toNat

/-- A number: one or more digits. -/
def NumberBytes (s : List UInt8) : Prop := s ≠ [] ∧ ∀ b ∈ s, DigitByte b

/-- The bytes of a version: three numbers separated by dots, and more. -/
def VersionBytes (s : List UInt8) : Prop :=
  ∃ major minor patch more, s = major ++ bytes "." ++ minor ++ bytes "." ++ patch ++ more ∧
    NumberBytes major ∧ NumberBytes minor ∧ NumberBytes patch ∧ ∀ b ∈ more, SuffixByte b

/-- `cargo/registry/src/<dir>/<crate>-<version>/`, with this separator. -/
def registryPath (sep : UInt8) (dir crate version : List UInt8) : List UInt8 :=
  bytes "cargo" ++ [sep] ++ bytes "registry" ++ [sep] ++ bytes "src" ++ [sep] ++ dir ++ [sep] ++
    (crate ++ bytes "-" ++ version) ++ [sep]

/-- The text at this position of the data is the path of a crate in the cache of a registry: the directory of the
registry is one component, then comes the directory of the crate. -/
structure PathAt (sep : UInt8) (data : List UInt8) (pos : Nat) (dir crate version : List UInt8) : Prop where
  dir_ok : dir ≠ [] ∧ sep ∉ dir
  crate_ok : crate ≠ [] ∧ ∀ b ∈ crate, CrateByte b
  version_ok : VersionBytes version
  text : registryPath sep dir crate version <+: data.drop pos

/-- `/` and the backslash. -/
def slash : UInt8 := 47
def backslash : UInt8 := 92

/-- `Url::parse` accepts the URL of the index of crates.io, and gives it back. -/
def KnowsIndex (L : BinLib) : Prop :=
  Url.parse L.url "https://github.com/rust-lang/crates.io-index".toList =
    some { base := "https://github.com/rust-lang/crates.io-index".toList }

/-- The source of a recovered package: the git index of crates.io if the entry is from crates.io, else none. -/
def SourceFor (s : AuditSource) : Option SourceId → Prop
  | some id => s = .cratesIo ∧ id.kind = .registry ∧
      id.url.text = "https://github.com/rust-lang/crates.io-index".toList
  | none => s ≠ .cratesIo

/-- The package recovered from one entry of the list: the same name and version; its dependencies are, in order, the
entries that the indices stand for. -/
structure EntryPackage (input : List AuditPackage) (e : AuditPackage) (p : Package) : Prop where
  name : p.name = e.name
  version : p.version = e.version
  source : SourceFor e.source p.source
  checksum : p.checksum = none
  replace : p.replace = none
  dependencies : List.Forall₂ (fun i (d : Dependency) => ∃ e', input[i]? = some e' ∧ d.name = e'.name ∧
    d.version = e'.version ∧ SourceFor e'.source d.source) e.dependencies p.dependencies

/-- The lockfile recovered from a list: one package for each entry, in order; the root package is the package of the
root entry, if there is one. -/
structure Recovered (input : List AuditPackage) (l : Lockfile) : Prop where
  packages : List.Forall₂ (EntryPackage input) input l.packages
  root : (l.root = none ∧ ∀ e ∈ input, e.root = false) ∨
    ∃ (i : Nat) (e : AuditPackage) (p : Package), input[i]? = some e ∧ e.root = true ∧ l.packages[i]? = some p ∧
      l.root = some p
  version : l.version = .v2
  metadata : l.metadata = []
  patch : l.patch = []

/-- Every index of a dependency is the index of an entry. -/
def IndicesInRange (input : List AuditPackage) : Prop :=
  ∀ e ∈ input, ∀ i ∈ e.dependencies, i < input.length

/-- At most one entry is marked as the root. -/
def AtMostOneRoot (input : List AuditPackage) : Prop :=
  ∀ (i j : Nat) (e e' : AuditPackage), input[i]? = some e → input[j]? = some e' → e.root = true → e'.root = true →
    i = j

end Verif.Spec
