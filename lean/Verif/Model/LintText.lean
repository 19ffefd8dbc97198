import Verif.Model.LintTranscript

/-!
# The texts of the lint errors

Model of the `Error`s that `rustsec/src/advisory/linter.rs` pushes and of how they are shown.  Which errors there are is the
model of `Verif.Model.Linter`; this one has what they say.
-/

namespace Verif.Lint

open Verif.Adv

/-- How values are written: `{:?}` of a text, and `Display` of a TOML value (crate `toml`). -/
structure Words where
  debug : Str → Str
  toml : Toml → Str

/-- `linter.rs:415-435`: `enum ErrorKind`. -/
inductive ErrorKind where
  | malformed
  | invalidKey (name : Str)
  | invalidValue (name value : Str)
  deriving DecidableEq, Repr

/-- `linter.rs:454-463`: `Display for ErrorKind`. -/
def ErrorKind.display : ErrorKind → Str
  | .malformed => "malformed content".toList
  | .invalidKey name => "invalid key `".toList ++ (name ++ "`".toList)
  | .invalidValue name value => "invalid value `".toList ++ (value ++ ("` for key `".toList ++ (name ++ "`".toList)))

/-- `linter.rs:364-375`: `struct Error`. -/
structure LintError where
  kind : ErrorKind
  sect : Option Str := none
  message : Option Str := none
  deriving DecidableEq, Repr

/-- `linter.rs:394-410`: `Display for Error`. -/
def LintError.display (e : LintError) : Str :=
  e.kind.display ++
    ((match e.sect with
      | some s => " in [".toList ++ (s ++ "]".toList)
      | none => " in toplevel".toList) ++
    (match e.message with
      | some m => ": ".toList ++ m
      | none => []))

/-- `linter.rs:99-109`: the error about a mention. -/
def mentionError (m : Str × Nat) : LintError where
  kind := .malformed
  sect := some "markdown".toList
  message := some ("bare @".toList ++ (m.1 ++ (" in advisory on line ".toList ++
    (showNat m.2 ++ " (use explicit link to avoid spam)".toList))))

/-- `linter.rs:134-138, 277-281, 299-303, 353-357`: the error about an unknown key. -/
def keyError (sect : Option Str) (key : Str) : LintError where
  kind := .invalidKey key
  sect := sect

/-- The errors pushed for a key and its value: `linter.rs:154-160, 163-167, 173-179, 190-194, 198-204, 214-220, 227-231,
239-243, 251-258, 267-271, 277-281`.  The arms of the other tables follow. -/
def metaError (W : Words) (key : Str) (value : Toml) : Finding → LintError
  | .draftMismatch =>
    ⟨.invalidValue "id".toList (W.toml value), some "advisory".toList,
      some "advisory ID draft status does not match file name".toList⟩
  | .otherId => ⟨.invalidValue "id".toList (W.toml value), some "advisory".toList, some "unknown advisory ID type".toList⟩
  | .yearMismatch =>
    ⟨.invalidValue key (W.toml value), some "advisory".toList, some "year in advisory ID does not match date".toList⟩
  | .unknownCategory s =>
    ⟨.invalidValue "category".toList s, some "advisory".toList, some ("unknown category ".toList ++ W.debug s)⟩
  | .explicitCollection =>
    ⟨.malformed, some "advisory".toList, some "collection shouldn't be explicit; inferred by location".toList⟩
  | .unknownInformational s =>
    ⟨.invalidValue "informational".toList s, some "advisory".toList,
      some ("unknown informational advisory type ".toList ++ W.debug s)⟩
  | .insecureUrl _ =>
    ⟨.invalidValue "url".toList (W.toml value), some "advisory".toList, some "URL must start with https://".toList⟩
  | .yankedDeprecated =>
    ⟨.malformed, some "metadata".toList, some "field `yanked` is deprecated, use `withdrawn` field instead".toList⟩
  | .unknownLicense l =>
    ⟨.invalidValue "license".toList l, some "advisory".toList, some ("unknown license ".toList ++ W.debug l)⟩
  | .unknownKey sect k => keyError sect k
  -- pushed elsewhere
  | .mention _ | .notTable | .foreignFunction _ | .unknownArch _ | .emptyOs => ⟨.malformed, none, none⟩

/-- `linter.rs:148-283`: the errors of the keys of `[advisory]`. -/
def metaErrors (W : Words) (a : AdvisoryFile) (draft : Option Bool) : Option Nat → TomlTable → Outcome (List LintError)
  | _, [] => .ok []
  | year, (k, v) :: t =>
    match lintMetaKey a draft year k v with
    | .ok (year', fs) =>
      match metaErrors W a draft year' t with
      | .ok es => .ok (fs.map (metaError W k v) ++ es)
      | .err => .err
      | .panic => .panic
    | .err => .err
    | .panic => .panic

/-- The text of a path: `Display for FunctionPath` (no parsed path is empty). -/
def pathText (p : List Str) : Str :=
  match FunctionPath.display p with
  | .ok s => s
  | _ => []

/-- The errors pushed for `[affected]`: `linter.rs:321-327, 334-338, 345-349, 353-357`. -/
def affectedError (W : Words) : Finding → LintError
  | .foreignFunction p =>
    ⟨.invalidValue "functions".toList (pathText p), some "affected".toList,
      some "function path must start with crate name".toList⟩
  | .unknownArch s =>
    ⟨.invalidValue "arch".toList s, some "affected".toList, some ("unknown architecture ".toList ++ W.debug s)⟩
  | .emptyOs => ⟨.invalidValue "os".toList [], some "affected".toList, some "unknown OS".toList⟩
  | .unknownKey sect k => keyError sect k
  -- pushed elsewhere
  | _ => ⟨.malformed, none, none⟩

/-- `linter.rs:293-307`: the errors of `[versions]`. -/
def versionError : Finding → LintError
  | .unknownKey sect k => keyError sect k
  -- pushed elsewhere
  | _ => ⟨.malformed, none, none⟩

/-- `linter.rs:129-139, 285-289`: the errors of one top-level key. -/
def topErrors (W : Words) (a : AdvisoryFile) (draft : Option Bool) (kv : Str × Toml) : Outcome (List LintError) :=
  if kv.1 = "advisory".toList then
    match kv.2 with
    | .table t => metaErrors W a draft none t
    | _ => .ok [⟨.malformed, some "advisory".toList, some "expected table".toList⟩]
  else if kv.1 = "versions".toList then .ok ((lintVersions kv.2).map versionError)
  else if kv.1 = "affected".toList then
    match lintAffected a kv.2 with
    | .ok fs => .ok (fs.map (affectedError W))
    | .err => .err
    | .panic => .panic
  else .ok [keyError none kv.1]

/-- `linter.rs:128-141`: the errors of an advisory, key by key. -/
def advisoryErrors (W : Words) (a : AdvisoryFile) (draft : Option Bool) : TomlTable → Outcome (List LintError)
  | [] => .ok []
  | kv :: t =>
    match topErrors W a draft kv with
    | .ok es =>
      match advisoryErrors W a draft t with
      | .ok es' => .ok (es ++ es')
      | .err => .err
      | .panic => .panic
    | .err => .err
    | .panic => .panic

/-- `linter.rs:53-115`: `Linter::lint_string`: the errors. -/
def lintErrors (L : AdvLib) (W : Words) (s : Str) (draft : Option Bool) : Outcome (List LintError) := do
  let a ← AdvisoryFile.fromStr L s
  let parts ← Parts.parse s
  let table ← ofOption (L.toml parts.frontMatter)
  let es ← advisoryErrors W a draft table
  .ok ((AdminLint.mentionMessages parts).map mentionError ++ es)

/-- `admin/src/linter.rs:117-119`: the lines printed for the errors of a file. -/
def errorLines (es : List LintError) : List Str := es.map fun e => "  - ".toList ++ e.display

end Verif.Lint
