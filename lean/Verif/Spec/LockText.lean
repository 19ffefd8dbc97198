import Verif.Model.LockText

/-!
# What the text of `Cargo.lock` means as a TOML document

The names and the order of the fields of the document, and what is assumed of the `toml` crate.
-/

namespace Verif.Spec

open Verif.Toml (Value Table)
open Verif.Lock

/-- A text field. -/
def textField (k : String) (v : Str) : Table := [(k.toList, .str v)]

/-- A text field that may be missing. -/
def optField (k : String) : Option Str → Table
  | none => []
  | some v => textField k v

/-- A field with a list; an empty list is left out. -/
def listField (k : String) (l : List Value) : Table := if l.isEmpty then [] else [(k.toList, .arr l)]

/-- The table of a package. -/
def packageTable (p : PkgDoc) : Table :=
  textField "name" p.name ++ textField "version" p.version ++ optField "source" p.source ++
    optField "checksum" p.checksum ++ listField "dependencies" (p.dependencies.map .str) ++
    (if p.dependencies.isEmpty then optField "replace" p.replace else [])

/-- The table of an unused patch. -/
def patchTable (p : PatchDoc) : Table :=
  textField "name" p.name ++ textField "version" p.version ++ optField "source" p.source

/-- The version of the format. -/
def versionField : Option Nat → Table
  | none => []
  | some n => [("version".toList, .int n)]

/-- The document of a lockfile: version, packages, patches, metadata. -/
def lockTable (d : LockDoc) : Table :=
  versionField d.version ++ listField "package" (d.packages.map fun p => .table (packageTable p)) ++
    (if d.patch.isEmpty then [] else
      [("patch".toList, .table (listField "unused" (d.patch.map fun p => .table (patchTable p))))]) ++
    (if d.metadata.isEmpty then [] else [("metadata".toList, .table (d.metadata.map fun e => (e.1, .str e.2)))])

/-- A `BTreeMap`: every key is before the next. -/
def OrderedKeys (m : LockMetadata) : Prop := m.Pairwise fun a b => strCmp a.1 b.1 = .lt

/-- The first lines of every lockfile. -/
def lockMarker : Str :=
  "# This file is automatically @generated by Cargo.\n# It is not intended for manual editing.\n".toList

/-- What is assumed of the `toml` crate: the strings and keys it writes are TOML strings and keys for the texts they were
written for, and end with their delimiter, not with a newline. -/
structure WritesToml (T : TomlOut) : Prop where
  quote : ∀ s rest, rest.head? ≠ some '"' → rest.head? ≠ some '\'' → Toml.string (T.quote s ++ rest) = some (s, rest)
  quote_last : ∀ s, (T.quote s).getLast? ≠ some '\n'
  value : ∀ s rest, rest.head? ≠ some '"' → rest.head? ≠ some '\'' → Toml.string (T.prettyValue s ++ rest) = some (s, rest)
  value_last : ∀ s, (T.prettyValue s).getLast? ≠ some '\n'
  key : ∀ s rest, rest.head? = some ' ' → Toml.simpleKey (T.prettyKey s ++ rest) = some (s, rest)

end Verif.Spec
