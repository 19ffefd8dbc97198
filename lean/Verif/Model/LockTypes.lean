import Verif.Model.Semver
import Verif.Model.Str

/-!
# Types of `cargo-lock` shared by the database and lockfile models
-/

namespace Verif.Lock

open Verif.Semver

/-- `url::Url` (external crate): the serialisation cut into the part before `?`/`#`, the query and the
fragment.  Simplification: no further structure; `Url::parse` is a parameter of the models that need it. -/
structure Url where
  base : Str
  query : Option Str := none
  fragment : Option Str := none
  deriving DecidableEq, Repr

/-- `Url::as_str` / `Display for Url`.  `Url` values are compared by this text. -/
def Url.text (u : Url) : Str :=
  u.base ++ (match u.query with | some q => '?' :: q | none => []) ++
    (match u.fragment with | some f => '#' :: f | none => [])

/-- `cargo-lock/src/package/source.rs:406-419`: `enum GitReference`. -/
inductive GitReference where
  | defaultBranch
  | tag (s : Str)
  | branch (s : Str)
  | rev (s : Str)
  deriving DecidableEq, Repr

/-- `source.rs:327-348`: `enum SourceKind`. -/
inductive SourceKind where
  | git (r : GitReference)
  | path
  | registry
  | sparseRegistry
  | localRegistry
  | directory
  deriving DecidableEq, Repr

/-- `source.rs:29-42`: `struct SourceId`. -/
structure SourceId where
  url : Url
  kind : SourceKind
  precise : Option Str := none
  name : Option Str := none
  deriving DecidableEq, Repr

/-- `source.rs:24`: `CRATES_IO_INDEX`. -/
def cratesIoIndex : Str := "https://github.com/rust-lang/crates.io-index".toList

/-- `source.rs:26`: `CRATES_IO_SPARSE_INDEX`. -/
def cratesIoSparseIndex : Str := "sparse+https://index.crates.io/".toList

/-- `source.rs:216-220`: `SourceId::is_default_registry`. -/
def SourceId.isDefaultRegistry (s : SourceId) : Bool :=
  decide (s.kind = .registry ∧ s.url.text = cratesIoIndex) ||
  decide (s.kind = .sparseRegistry ∧ s.url.text = cratesIoSparseIndex.drop 7)

/-- `source.rs:320-324`: `Default for SourceId`. -/
def SourceId.default : SourceId := { url := { base := cratesIoIndex }, kind := .registry }

/-- `cargo-lock/src/dependency.rs:17-28`: `struct Dependency`. -/
structure Dependency where
  name : Str
  version : Version
  source : Option SourceId := none
  deriving DecidableEq, Repr

/-- `cargo-lock/src/package/checksum.rs:9-12`: a SHA-256 digest, as its 32 bytes (the length is part of the
well-formedness of the value). -/
abbrev Checksum := List (Fin 256)

/-- `cargo-lock/src/package.rs:18-39`: `struct Package`. -/
structure Package where
  name : Str
  version : Version
  source : Option SourceId := none
  checksum : Option Checksum := none
  dependencies : List Dependency := []
  replace : Option Dependency := none
  deriving DecidableEq, Repr

end Verif.Lock
