import Verif.Model.Lockfile
import Verif.Spec.Toml

/-!
# The text of `Cargo.lock`

`Verif/Model/Lockfile.lean` models the content of a lockfile; this is how it is written as text and found in a parsed TOML
document.  TOML strings are quoted by the `toml` crate.
-/

namespace Verif.Lock

open Verif.Toml (Value Table)

/-- What the `toml` crate writes: a string value (`impl Display for toml::Value`), and a key and a string value of
`toml::to_string_pretty`. -/
structure TomlOut where
  quote : Str → Str
  prettyKey : Str → Str
  prettyValue : Str → Str

/-- `writeln!(out, "key = {}", value)` (cargo-lock/src/lockfile/encoding.rs:223-224). -/
def quoteLine (T : TomlOut) (k : String) (v : Str) : Str := k.toList ++ (" = ".toList ++ (T.quote v ++ ['\n']))

/-- The same if the key is there (cargo-lock/src/lockfile/encoding.rs:226-231). -/
def optLine (T : TomlOut) (k : String) : Option Str → Str
  | none => []
  | some v => quoteLine T k v

/-- The dependencies (cargo-lock/src/lockfile/encoding.rs:233-243), or else the `replace` directive
(cargo-lock/src/lockfile/encoding.rs:244-246). -/
def depsText (T : TomlOut) (replace : Option Str) : List Str → Str
  | [] => optLine T "replace" replace
  | ds => "dependencies = [\n".toList ++ (ds.flatMap (fun d => ' ' :: (T.quote d ++ [',', '\n'])) ++ [']', '\n'])

/-- `emit_package` (cargo-lock/src/lockfile/encoding.rs:222-250). -/
def PkgDoc.text (T : TomlOut) (p : PkgDoc) : Str :=
  quoteLine T "name" p.name ++ (quoteLine T "version" p.version ++ (optLine T "source" p.source ++
    (optLine T "checksum" p.checksum ++ (depsText T p.replace p.dependencies ++ ['\n']))))

/-- `emit_package` of an unused patch, and the newline after it (cargo-lock/src/lockfile/encoding.rs:198-200). -/
def PatchDoc.text (T : TomlOut) (p : PatchDoc) : Str :=
  quoteLine T "name" p.name ++ (quoteLine T "version" p.version ++ (optLine T "source" p.source ++ ['\n', '\n']))

/-- The version (cargo-lock/src/lockfile/encoding.rs:177-183). -/
def versionText : Option Nat → Str
  | none => []
  | some n => "version = ".toList ++ (showNat n ++ ['\n'])

/-- The metadata (cargo-lock/src/lockfile/encoding.rs:204-207). -/
def metadataText (T : TomlOut) : LockMetadata → Str
  | [] => []
  | m => "[metadata]\n".toList ++ m.flatMap fun e => T.prettyKey e.1 ++ (" = ".toList ++ (T.prettyValue e.2 ++ ['\n']))

/-- On the reversed text: all but one of the newlines at the end go (cargo-lock/src/lockfile/encoding.rs:210-212). -/
def trimRev : Str → Str
  | c :: d :: r => if c = '\n' ∧ d = '\n' then trimRev (d :: r) else c :: d :: r
  | r => r

/-- `EncodableLockfile::to_string` (cargo-lock/src/lockfile/encoding.rs:164-215). -/
def LockDoc.text (T : TomlOut) (d : LockDoc) : Str :=
  let out := "# This file is automatically @generated by Cargo.\n".toList ++
    ("# It is not intended for manual editing.\n".toList ++
    (versionText d.version ++ ('\n' ::
    (d.packages.flatMap (fun p => "[[package]]\n".toList ++ p.text T) ++
    (d.patch.flatMap (fun p => "[[patch.unused]]\n".toList ++ p.text T) ++ metadataText T d.metadata)))))
  (trimRev out.reverse).reverse

/-- `Lockfile::to_string` (cargo-lock/src/lockfile.rs:63-68). -/
def Lockfile.text (C : Codec) (T : TomlOut) (l : Lockfile) : Str := (l.print C).text T

/-! ### From a TOML document -/

/-- The value of a key. -/
def tableGet (t : Table) (k : String) : Option Value := t.lookup k.toList

/-- A string. -/
def asStr : Value → Outcome Str
  | .str s => .ok s
  | _ => .err

/-- An array. -/
def asArr {α : Type} (f : Value → Outcome α) : Value → Outcome (List α)
  | .arr l => Outcome.mapList f l
  | _ => .err

/-- A field that must be there. -/
def needed {α : Type} (t : Table) (k : String) (f : Value → Outcome α) : Outcome α :=
  match tableGet t k with
  | some v => f v
  | none => .err

/-- An `Option`. -/
def optionally {α : Type} (t : Table) (k : String) (f : Value → Outcome α) : Outcome (Option α) :=
  match tableGet t k with
  | some v => do
    let a ← f v
    pure (some a)
  | none => .ok none

/-- `#[serde(default)]`. -/
def orDefault {α : Type} (t : Table) (k : String) (d : α) (f : Value → Outcome α) : Outcome α :=
  match tableGet t k with
  | some v => f v
  | none => .ok d

/-- A `u32`. -/
def asU32 : Value → Outcome Nat
  | .int n => if 0 ≤ n ∧ n < 4294967296 then .ok n.toNat else .err
  | _ => .err

/-- Derived `Deserialize for EncodablePackage`, to the texts of its fields (cargo-lock/src/lockfile/encoding.rs:253-273). -/
def PkgDoc.ofValue : Value → Outcome PkgDoc
  | .table t => do
    let name ← needed t "name" asStr
    let version ← needed t "version" asStr
    let source ← optionally t "source" asStr
    let checksum ← optionally t "checksum" asStr
    let dependencies ← orDefault t "dependencies" [] (asArr asStr)
    let replace ← optionally t "replace" asStr
    pure { name, version, source, checksum, dependencies, replace }
  | _ => .err

/-- Derived `Deserialize for Dependency` (cargo-lock/src/dependency.rs:17-28). -/
def PatchDoc.ofValue : Value → Outcome PatchDoc
  | .table t => do
    let name ← needed t "name" asStr
    let version ← needed t "version" asStr
    let source ← optionally t "source" asStr
    pure { name, version, source }
  | _ => .err

/-- Derived `Deserialize for Patch` (cargo-lock/src/patch.rs:7-11). -/
def patchOfValue : Value → Outcome (List PatchDoc)
  | .table t => needed t "unused" (asArr PatchDoc.ofValue)
  | _ => .err

/-- One entry of the metadata. -/
def metaEntry (e : Str × Value) : Outcome (Str × Str) := do
  let v ← asStr e.2
  pure (e.1, v)

/-- `Metadata`, a `BTreeMap` (cargo-lock/src/metadata.rs:14-15). -/
def metadataOfValue : Value → Outcome LockMetadata
  | .table t => do
    let l ← Outcome.mapList metaEntry t
    pure (l.foldl (fun m e => metaInsert e.1 e.2 m) [])
  | _ => .err

/-- Derived `Deserialize for EncodableLockfile` (cargo-lock/src/lockfile/encoding.rs:37-55). -/
def LockDoc.ofTable (t : Table) : Outcome LockDoc := do
  let version ← optionally t "version" asU32
  let packages ← orDefault t "package" [] (asArr PkgDoc.ofValue)
  let root ← optionally t "root" PkgDoc.ofValue
  let metadata ← orDefault t "metadata" [] metadataOfValue
  let patch ← orDefault t "patch" [] patchOfValue
  pure { version, packages, root, metadata, patch }

/-- `impl FromStr for Lockfile` (cargo-lock/src/lockfile.rs:55-61); `toml` parses the text. -/
def Lockfile.fromText (C : Codec) (toml : Str → Option Table) (s : Str) : Outcome Lockfile :=
  match toml s with
  | none => .err
  | some t => do
    let d ← LockDoc.ofTable t
    Lockfile.parse C d

end Verif.Lock
