import Verif.Model.Source

/-!
# Source identifiers: constructors and questions

Models the rest of `cargo-lock/src/package/source.rs`.  `Url::from_file_path` is third-party code and a parameter.
-/

namespace Verif.Lock

open Verif.Semver

/-- `source.rs:46-53`: `SourceId::new`. -/
def SourceId.new (kind : SourceKind) (url : Url) : Outcome SourceId :=
  .ok { kind := kind, url := url, precise := none, name := none }

/-- `source.rs:115-117`: `SourceId::for_git`. -/
def SourceId.forGit (url : Url) (reference : GitReference) : Outcome SourceId := SourceId.new (.git reference) url

/-- `source.rs:120-122`: `SourceId::for_registry`. -/
def SourceId.forRegistry (url : Url) : Outcome SourceId := SourceId.new .registry url

/-- `source.rs:481-487`: `IntoUrl for &Path`; `fromFile` is `Url::from_file_path`. -/
def pathUrl (fromFile : Str → Option Url) (path : Str) : Outcome Url :=
  match fromFile path with
  | some u => .ok u
  | none => .err

/-- `source.rs:111-113`: `SourceId::for_path`. -/
def SourceId.forPath (fromFile : Str → Option Url) (path : Str) : Outcome SourceId := do
  let u ← pathUrl fromFile path
  SourceId.new .path u

/-- `source.rs:127-129`: `SourceId::for_local_registry`. -/
def SourceId.forLocalRegistry (fromFile : Str → Option Url) (path : Str) : Outcome SourceId := do
  let u ← pathUrl fromFile path
  SourceId.new .localRegistry u

/-- `source.rs:133-135`: `SourceId::for_directory`. -/
def SourceId.forDirectory (fromFile : Str → Option Url) (path : Str) : Outcome SourceId := do
  let u ← pathUrl fromFile path
  SourceId.new .directory u

/-- `source.rs:148-154`: `SourceId::display_index`. -/
def SourceId.displayIndex (s : SourceId) : Str :=
  if s.isDefaultRegistry then "crates.io index".toList
  else '`' :: (s.url.text ++ "` index".toList)

/-- `source.rs:157-165`: `SourceId::display_registry_name`. -/
def SourceId.displayRegistryName (s : SourceId) : Str :=
  if s.isDefaultRegistry then "crates.io".toList
  else
    match s.name with
    | some n => n
    | none => s.url.text

/-- `source.rs:168-170`: `SourceId::is_path`. -/
def SourceId.isPath (s : SourceId) : Bool := decide (s.kind = .path)

/-- `source.rs:173-178`: `SourceId::is_registry`. -/
def SourceId.isRegistry (s : SourceId) : Bool :=
  match s.kind with
  | .registry | .sparseRegistry | .localRegistry => true
  | _ => false

/-- `source.rs:184-186`: `SourceId::is_remote_registry`. -/
def SourceId.isRemoteRegistry (s : SourceId) : Bool :=
  match s.kind with
  | .registry | .sparseRegistry => true
  | _ => false

/-- `source.rs:189-191`: `SourceId::is_git`. -/
def SourceId.isGit (s : SourceId) : Bool :=
  match s.kind with
  | .git _ => true
  | _ => false

/-- `source.rs:199-205`: `SourceId::git_reference`. -/
def SourceId.gitReference (s : SourceId) : Option GitReference :=
  match s.kind with
  | .git r => some r
  | _ => none

/-- `source.rs:208-213`: `SourceId::with_precise`. -/
def SourceId.withPrecise (s : SourceId) (v : Option Str) : SourceId := { s with precise := v }

/-- `source.rs:288-296`: `Serialize for SourceId`; `none` is the null value. -/
def SourceId.serialized (s : SourceId) : Option Str := if s.isPath then none else some (s.asUrl false)

end Verif.Lock
