import Verif.Model.Source

/-!
# Reading and writing `Cargo.lock`

Models `cargo-lock/src/lockfile/encoding.rs`, `lockfile/version.rs`, `lockfile.rs`, `metadata.rs`,
`patch.rs`, `dependency.rs`.

The TOML syntax itself is not modelled: `LockDoc` is the content of the TOML document (tables of strings), and
`toml` is trusted to print and parse it (quoting of strings included).
-/

namespace Verif.Lock

open Verif.Semver

/-! ### Text of versions and whitespace -/

/-- The text forms supplied by other crates: `url` (through `UrlLib`) and `semver::Version`'s `Display` and
`FromStr`. -/
structure Codec where
  url : UrlLib
  showVersion : Version → Str
  parseVersion : Str → Option Version

/-- `char::is_whitespace` (Unicode `White_Space`). -/
def isWs (c : Char) : Bool :=
  let n := c.toNat
  decide (9 ≤ n ∧ n ≤ 13) || decide (n ∈ [0x20, 0x85, 0xA0, 0x1680, 0x2028, 0x2029, 0x202F, 0x205F, 0x3000]) ||
    decide (0x2000 ≤ n ∧ n ≤ 0x200A)

/-- `str::split_whitespace`: the maximal runs of characters that are not whitespace. -/
def splitWs : Str → List Str
  | [] => []
  | c :: s =>
    if isWs c then splitWs s
    else
      match s with
      | [] => [[c]]
      | d :: _ =>
        if isWs d then [c] :: splitWs s
        else
          match splitWs s with
          | [] => [[c]]
          | w :: ws => (c :: w) :: ws

/-! ### Data -/

/-- `version.rs:11-39`: `enum ResolveVersion`. -/
inductive ResolveVersion where
  | v1 | v2 | v3 | v4
  deriving DecidableEq, Repr

/-- `version.rs:75-79`: `From<ResolveVersion> for u32`. -/
def ResolveVersion.toNat : ResolveVersion → Nat
  | .v1 => 1
  | .v2 => 2
  | .v3 => 3
  | .v4 => 4

/-- `version.rs:91-105`: `TryFrom<u32> for ResolveVersion`. -/
def ResolveVersion.fromU32 (n : Nat) : Outcome ResolveVersion :=
  if n = 1 then .ok .v1
  else if n = 2 then .ok .v2
  else if n = 3 then .ok .v3
  else if n = 4 then .ok .v4
  else .err

/-- `version.rs:63-65`: `is_explicit`. -/
def ResolveVersion.isExplicit (v : ResolveVersion) : Bool := decide (v.toNat ≥ 3)

/-- `encoding.rs:328-338`: are source URLs percent-encoded when written (`version >= V4`)? -/
def ResolveVersion.encoded (v : ResolveVersion) : Bool := decide (v.toNat ≥ 4)

/-- `metadata.rs:15`: `Metadata`, a `BTreeMap` from key text to value text: its entries in key order. -/
abbrev LockMetadata := List (Str × Str)

/-- `lockfile.rs:22-37`: `struct Lockfile`; `patch` is `Patch::unused` (`patch.rs:8-11`). -/
structure Lockfile where
  version : ResolveVersion
  packages : List Package
  root : Option Package := none
  metadata : LockMetadata := []
  patch : List Dependency := []
  deriving DecidableEq, Repr

/-- `encoding.rs:350-360`: `struct EncodableDependency`.  (Simplification: the `encoded` flag of its source,
`encoding.rs:525-531`, only matters for printing and is passed to the printing function instead.) -/
structure EncDependency where
  name : Str
  version : Option Version
  source : Option SourceId
  deriving DecidableEq, Repr

/-- `encoding.rs:253-273`: `struct EncodablePackage`. -/
structure EncPackage where
  name : Str
  version : Version
  source : Option SourceId
  checksum : Option Checksum
  dependencies : List EncDependency
  replace : Option EncDependency
  deriving DecidableEq, Repr

/-- `encoding.rs:37-55`: `struct EncodableLockfile`. -/
structure EncLockfile where
  version : Option Nat
  package : List EncPackage
  root : Option EncPackage
  metadata : LockMetadata
  patch : List Dependency
  deriving DecidableEq, Repr

/-- One `[[package]]` table of the document. -/
structure PkgDoc where
  name : Str
  version : Str
  source : Option Str := none
  checksum : Option Str := none
  dependencies : List Str := []
  replace : Option Str := none
  deriving DecidableEq, Repr

/-- One `[[patch.unused]]` table. -/
structure PatchDoc where
  name : Str
  version : Str
  source : Option Str := none
  deriving DecidableEq, Repr

/-- A `Cargo.lock` document. -/
structure LockDoc where
  version : Option Nat := none
  packages : List PkgDoc := []
  root : Option PkgDoc := none
  metadata : LockMetadata := []
  patch : List PatchDoc := []
  deriving DecidableEq, Repr

/-! ### Dependencies as text -/

/-- `dependency.rs:46-57`: `From<&Package> for Dependency`. -/
def Dependency.ofPackage (p : Package) : Dependency := { name := p.name, version := p.version, source := p.source }

/-- A text in parentheses after a space, if there is one. -/
def parenPart : Option Str → Str
  | some t => ' ' :: '(' :: (t ++ [')'])
  | none => []

/-- `dependency.rs:34-44`: `Display for Dependency`. -/
def Dependency.show (C : Codec) (d : Dependency) : Str :=
  d.name ++ ' ' :: C.showVersion d.version ++ parenPart (d.source.map (SourceId.asUrl false))

/-- `encoding.rs:477-491`: `Display for EncodableDependency`. -/
def EncDependency.show (C : Codec) (enc : Bool) (d : EncDependency) : Str :=
  d.name ++ (match d.version with | some v => ' ' :: C.showVersion v | none => []) ++
    parenPart (d.source.map (SourceId.asUrl enc))

/-- `encoding.rs:451-460`: the source of a dependency text, `(url)`. -/
def parseParen (C : Codec) (s : Str) : Outcome SourceId :=
  match s with
  | '(' :: t =>
    if t.getLast? = some ')' then SourceId.fromUrl C.url t.dropLast else .err
  | _ => .err

/-- `encoding.rs:449`: a version text. -/
def parseVersionO (C : Codec) (s : Str) : Outcome Version :=
  match C.parseVersion s with
  | some v => .ok v
  | none => .err

/-- `encoding.rs:441-475`: `FromStr for EncodableDependency`: one to three words. -/
def EncDependency.fromStr (C : Codec) (s : Str) : Outcome EncDependency :=
  match splitWs s with
  | [n] => .ok { name := n, version := none, source := none }
  | [n, v] =>
    match parseVersionO C v with
    | .ok v => .ok { name := n, version := some v, source := none }
    | .err => .err
    | .panic => .panic
  | [n, v, src] =>
    match parseVersionO C v with
    | .ok v =>
      match parseParen C src with
      | .ok src => .ok { name := n, version := some v, source := some src }
      | .err => .err
      | .panic => .panic
    | .err => .err
    | .panic => .panic
  | _ => .err

/-- `encoding.rs:366-376`: the condition under which a package answers a dependency. -/
def EncDependency.answeredBy (d : EncDependency) (p : EncPackage) : Bool :=
  decide (p.name = d.name) && (d.version.isNone || decide (d.version = some p.version)) && d.source.isNone

/-- `encoding.rs:365-389`: `EncodableDependency::resolve`. -/
def EncDependency.resolve (d : EncDependency) (ps : List EncPackage) : Outcome Dependency :=
  match ps.find? d.answeredBy with
  | some p => .ok { name := p.name, version := p.version, source := p.source }
  | none =>
    match d.version with
    | some v => .ok { name := d.name, version := v, source := d.source }
    | none => .err

/-- `encoding.rs:392-423`: `EncodableDependency::v2`. -/
def EncDependency.v2 (d : EncDependency) (ps : List Package) : EncDependency :=
  let m := ps.filter fun p => decide (p.name = d.name)
  if m.length = 1 then { d with version := none, source := none }
  else
    match d.version with
    | none => d
    | some v =>
      if (m.filter fun p => decide (p.version = v)).length = 1 then { d with source := none } else d

/-- `encoding.rs:328-338`: path sources are not written. -/
def encSource (s : Option SourceId) : Option SourceId :=
  match s with
  | some s => if s.kind = .path then none else some s
  | none => none

/-- `encoding.rs:425-434`: `from_dependency`. -/
def EncDependency.ofDependency (d : Dependency) : EncDependency :=
  { name := d.name, version := some d.version, source := encSource d.source }

/-! ### Metadata -/

/-- `metadata.rs:12`. -/
def checksumPrefix : Str := "checksum ".toList

/-- `metadata.rs:23-25`: `MetadataKey::for_checksum`. -/
def checksumKey (C : Codec) (d : Dependency) : Str := checksumPrefix ++ d.show C

/-- `metadata.rs:28-30`: `is_checksum`. -/
def isChecksumKey (k : Str) : Bool := checksumPrefix.isPrefixOf k

/-- `metadata.rs:58-71`: `checksum_dependency`. -/
def keyDependency (C : Codec) (k : Str) : Outcome Dependency :=
  if isChecksumKey k then
    match EncDependency.fromStr C (k.drop checksumPrefix.length) with
    | .ok d => d.resolve []
    | .err => .err
    | .panic => .panic
  else .err

/-- `BTreeMap::insert`. -/
def metaInsert (k v : Str) : LockMetadata → LockMetadata
  | [] => [(k, v)]
  | (k', v') :: m =>
    match strCmp k k' with
    | .lt => (k, v) :: (k', v') :: m
    | .eq => (k, v) :: m
    | .gt => (k', v') :: metaInsert k v m

/-- `BTreeMap::remove`. -/
def metaRemove (k : Str) (m : LockMetadata) : LockMetadata := m.filter fun e => !decide (e.1 = k)

/-- `encoding.rs:59-69`: `find_checksum`: the first checksum entry for the package's name and version. -/
def findChecksum (C : Codec) (p : Package) : LockMetadata → Outcome (Option Checksum)
  | [] => .ok none
  | (k, v) :: m =>
    match keyDependency C k with
    | .ok d =>
      if d.name = p.name ∧ d.version = p.version then
        match Checksum.fromStr v with
        | .ok c => .ok (some c)
        | .err => .ok none
        | .panic => .panic
      else findChecksum C p m
    | .err => findChecksum C p m
    | .panic => .panic

/-! ### Writing -/

/-- `encoding.rs:306-325`: `from_package`. -/
def EncPackage.ofPackage (p : Package) : EncPackage :=
  { name := p.name, version := p.version, source := encSource p.source, checksum := p.checksum,
    dependencies := p.dependencies.map EncDependency.ofDependency,
    replace := p.replace.map EncDependency.ofDependency }

/-- `encoding.rs:116-139`: what one package becomes. -/
def encodePackage (l : Lockfile) (p : Package) : EncPackage :=
  let raw := EncPackage.ofPackage p
  if l.version = .v1 then { raw with checksum := none }
  else { raw with dependencies := raw.dependencies.map fun d => d.v2 l.packages }

/-- `encoding.rs:116-139`: what one package does to the metadata. -/
def metaStep (C : Codec) (v : ResolveVersion) (m : LockMetadata) (p : Package) : LockMetadata :=
  let key := checksumKey C (Dependency.ofPackage p)
  if v = .v1 then
    match p.checksum with
    | some c => metaInsert key c.show m
    | none => m
  else metaRemove key m

/-- `encoding.rs:111-158`: `From<&Lockfile> for EncodableLockfile`. -/
def Lockfile.encode (C : Codec) (l : Lockfile) : EncLockfile :=
  { version := if l.version.isExplicit then some l.version.toNat else none,
    package := l.packages.map (encodePackage l),
    root := l.root.map EncPackage.ofPackage,
    metadata := l.packages.foldl (metaStep C l.version) l.metadata,
    patch := l.patch }

/-- `encoding.rs:222-250`: `emit_package`; `replace` is only written when there are no dependencies. -/
def EncPackage.emit (C : Codec) (enc : Bool) (p : EncPackage) : PkgDoc :=
  { name := p.name, version := C.showVersion p.version, source := p.source.map (SourceId.asUrl enc),
    checksum := p.checksum.map Checksum.show,
    dependencies := p.dependencies.map (EncDependency.show C enc),
    replace := if p.dependencies.isEmpty then p.replace.map (EncDependency.show C enc) else none }

/-- `encoding.rs:195-202`, `dependency.rs:17`, `source.rs:289-297`: one unused patch. -/
def emitPatch (C : Codec) (d : Dependency) : PatchDoc :=
  { name := d.name, version := C.showVersion d.version,
    source := (encSource d.source).map (SourceId.asUrl false) }

/-- `encoding.rs:177-183`: the version number is written from 3 on. -/
def emitVersion : Option Nat → Option Nat
  | some n => if n ≥ 3 then some n else none
  | none => none

/-- `encoding.rs:164-215`: `EncodableLockfile::to_string`; the `root` package is not written. -/
def EncLockfile.emit (C : Codec) (enc : Bool) (l : EncLockfile) : LockDoc :=
  { version := emitVersion l.version,
    packages := l.package.map (EncPackage.emit C enc), root := none, metadata := l.metadata,
    patch := l.patch.map (emitPatch C) }

/-- `lockfile.rs:63-68`: `Lockfile::to_string`. -/
def Lockfile.print (C : Codec) (l : Lockfile) : LockDoc := (l.encode C).emit C l.version.encoded

/-! ### Reading -/

/-- An optional field: absent, or parsed. -/
def readOpt {α : Type} (f : Str → Outcome α) : Option Str → Outcome (Option α)
  | none => .ok none
  | some s =>
    match f s with
    | .ok a => .ok (some a)
    | .err => .err
    | .panic => .panic

/-- `encoding.rs:253-273`: derived `Deserialize for EncodablePackage`. -/
def PkgDoc.read (C : Codec) (d : PkgDoc) : Outcome EncPackage := do
  let version ← parseVersionO C d.version
  let source ← readOpt (SourceId.fromUrl C.url) d.source
  let checksum ← readOpt Checksum.fromStr d.checksum
  let dependencies ← Outcome.mapList (EncDependency.fromStr C) d.dependencies
  let replace ← readOpt (EncDependency.fromStr C) d.replace
  pure { name := d.name, version, source, checksum, dependencies, replace }

/-- `dependency.rs:17`: derived `Deserialize for Dependency` (unused patches). -/
def PatchDoc.read (C : Codec) (d : PatchDoc) : Outcome Dependency := do
  let version ← parseVersionO C d.version
  let source ← readOpt (SourceId.fromUrl C.url) d.source
  pure { name := d.name, version, source }

/-- An optional table. -/
def readOptPkg (C : Codec) : Option PkgDoc → Outcome (Option EncPackage)
  | none => .ok none
  | some d =>
    match d.read C with
    | .ok a => .ok (some a)
    | .err => .err
    | .panic => .panic

/-- `encoding.rs:37-55`: derived `Deserialize for EncodableLockfile`.  (Simplification: which of several bad
fields is reported first.) -/
def LockDoc.read (C : Codec) (d : LockDoc) : Outcome EncLockfile := do
  let package ← Outcome.mapList (PkgDoc.read C) d.packages
  let root ← readOptPkg C d.root
  let patch ← Outcome.mapList (PatchDoc.read C) d.patch
  pure { version := d.version, package, root, metadata := d.metadata, patch }

/-- `encoding.rs:291-295`: an optional `replace` directive. -/
def resolveReplace : Option EncDependency → Outcome (Option Dependency)
  | none => .ok none
  | some r =>
    match r.resolve [] with
    | .ok d => .ok (some d)
    | .err => .err
    | .panic => .panic

/-- `encoding.rs:278-297`: `EncodablePackage::resolve`. -/
def EncPackage.resolve (p : EncPackage) (ps : List EncPackage) : Outcome Package := do
  let dependencies ← Outcome.mapList (fun d => EncDependency.resolve d ps) p.dependencies
  let replace ← resolveReplace p.replace
  pure { name := p.name, version := p.version, source := p.source, checksum := p.checksum,
         dependencies, replace }

/-- `version.rs:43-60`: `ResolveVersion::detect`. -/
def ResolveVersion.detect (ps : List EncPackage) (m : LockMetadata) : Outcome ResolveVersion :=
  let isV1 := m.any fun e => isChecksumKey e.1
  let isV2 := ps.any fun p => p.checksum.isSome
  if isV1 && isV2 then .err
  else if isV1 then .ok .v1
  else .ok .v2

/-- `encoding.rs:76-79`: the format version of a document. -/
def EncLockfile.resolveVersion (l : EncLockfile) : Outcome ResolveVersion :=
  match l.version with
  | some n => ResolveVersion.fromU32 n
  | none => ResolveVersion.detect l.package l.metadata

/-- `encoding.rs:83-95`: one package of a document. -/
def decodePackage (C : Codec) (l : EncLockfile) (v : ResolveVersion) (p : EncPackage) : Outcome Package :=
  if v = .v1 then do
    let pkg ← p.resolve []
    let c ← findChecksum C pkg l.metadata
    pure { pkg with checksum := c }
  else p.resolve l.package

/-- `encoding.rs:100-104`: the legacy root package. -/
def decodeRoot : Option EncPackage → Outcome (Option Package)
  | none => .ok none
  | some p =>
    match p.resolve [] with
    | .ok p => .ok (some p)
    | .err => .err
    | .panic => .panic

/-- `encoding.rs:75-108`: `TryFrom<EncodableLockfile> for Lockfile`. -/
def EncLockfile.decode (C : Codec) (l : EncLockfile) : Outcome Lockfile := do
  let version ← l.resolveVersion
  let packages ← Outcome.mapList (decodePackage C l version) l.package
  let root ← decodeRoot l.root
  pure { version, packages, root, metadata := l.metadata, patch := l.patch }

/-- `lockfile.rs:55-61`: `FromStr for Lockfile`, from the parsed TOML document. -/
def Lockfile.parse (C : Codec) (d : LockDoc) : Outcome Lockfile := do
  let raw ← d.read C
  raw.decode C

end Verif.Lock
