import Verif.Model.Advisory
import Verif.Model.Source
import Verif.Model.CvssText

/-!
# Advisory files

Model of `rustsec/src/advisory/parts.rs`, `date.rs`, `affected.rs` (function paths), `category.rs`,
`license.rs`, `keyword.rs`, `metadata.rs` and of `FromStr for Advisory` (`advisory.rs`), including the
deserialisation that serde derives for these types.  The TOML parser, `jiff`, `url` and `semver` are
arguments (`AdvLib`).
-/

namespace Verif.Adv

open Verif.Semver Verif.Osv Verif.Lock

/-! ### Whitespace and searching -/

/-- `char::is_whitespace`: the Unicode property `White_Space`. -/
def isWhite (c : Char) : Bool :=
  let n := c.toNat
  (decide (9 ≤ n) && decide (n ≤ 13)) || n == 0x20 || n == 0x85 || n == 0xA0 || n == 0x1680 ||
    (decide (0x2000 ≤ n) && decide (n ≤ 0x200A)) || n == 0x2028 || n == 0x2029 || n == 0x202F ||
    n == 0x205F || n == 0x3000

/-- `str::trim_start`. -/
def trimStart (s : Str) : Str := s.dropWhile isWhite

/-- `str::trim_end`. -/
def trimEnd (s : Str) : Str := (s.reverse.dropWhile isWhite).reverse

/-- `str::find(pat)`, returning the text before the first occurrence and the text after it. -/
def findStr (pat : Str) : Str → Option (Str × Str)
  | [] => if pat.isEmpty then some ([], []) else none
  | c :: t =>
    if pat.isPrefixOf (c :: t) then some ([], (c :: t).drop pat.length)
    else (findStr pat t).map fun p => (c :: p.1, p.2)

/-- Is byte offset `n` of the UTF-8 text of `s` between two characters (`str::is_char_boundary`)? -/
def isCharBoundary : Str → Nat → Bool
  | _, 0 => true
  | [], _ + 1 => false
  | c :: t, n + 1 => if c.utf8Size ≤ n + 1 then isCharBoundary t (n + 1 - c.utf8Size) else false

/-- `str::len`: number of UTF-8 bytes. -/
def byteLen (s : Str) : Nat := (s.map Char.utf8Size).sum

/-! ### Splitting the file (`parts.rs`) -/

/-- `parts.rs:7-20`: `struct Parts`. -/
structure Parts where
  frontMatter : Str
  markdown : Str
  title : Str
  description : Str
  deriving DecidableEq, Repr

/-- The opening fence of the front matter. -/
def tomlFence : Str := "```toml".toList

/-- The closing fence of the front matter, with the line break before it. -/
def closeFence : Str := "\n```".toList

/-- `parts.rs:24-71`: `Parts::parse`.  The slice `[..20]` in the error path panics if byte 20 is inside a
character.  `[7..toml_end]` cannot panic (the fence contains no line break): the model drops seven
characters from the text before the closing fence. -/
def Parts.parse (s : Str) : Outcome Parts :=
  if !tomlFence.isPrefixOf s then
    if 20 < byteLen s then
      if isCharBoundary s 20 then .err else .panic
    else .err
  else
    match findStr closeFence s with
    | none => .err
    | some (before, after) =>
      let frontMatter := trimEnd (trimStart (before.drop 7))
      let markdown := trimStart after
      if !"# ".toList.isPrefixOf markdown then .err
      else
        match findStr ['\n'] markdown with
        | none => .err
        | some (head, rest) =>
          .ok { frontMatter, markdown, title := trimEnd (head.drop 2),
                description := trimEnd (trimStart rest) }

/-! ### Dates (`date.rs`) -/

/-- `date.rs:62-83`: `FromStr for Date`.  `civil` is `jiff::civil::Date::from_str` (year, month, day).
`date.year() as u32` turns a negative year into a number above 2100; the model compares as integers. -/
def DateText.fromStr (civil : Str → Option (Int × Nat × Nat)) (s : Str) : Outcome DateText :=
  match civil s with
  | none => .err
  | some (y, _, _) => if (yearMin : Int) ≤ y ∧ y ≤ (yearMax : Int) then .ok ⟨s⟩ else .err

/-- `date.rs:43-48`: `Date::component`, with the `expect`s of its callers: panics if there is no such
component or it is not a `u32`. -/
def DateText.component (d : DateText) (i : Nat) : Outcome Nat :=
  match (splitC '-' d.text)[i]? with
  | none => .panic
  | some c =>
    match parseU32 c with
    | some n => .ok n
    | none => .panic

/-- `date.rs:24-26`: `Date::year`. -/
def DateText.year (d : DateText) : Outcome Nat := d.component 0
/-- `date.rs:29-31`: `Date::month`. -/
def DateText.month (d : DateText) : Outcome Nat := d.component 1
/-- `date.rs:34-36`: `Date::day`. -/
def DateText.day (d : DateText) : Outcome Nat := d.component 2

/-! ### Function paths (`affected.rs`) -/

/-- `str::split("::")`. -/
def splitPath : Str → List Str
  | [] => [[]]
  | [c] => [[c]]
  | c :: d :: t =>
    if c = ':' ∧ d = ':' then [] :: splitPath t
    else
      match splitPath (d :: t) with
      | [] => [[c]]
      | h :: r => (c :: h) :: r

/-- `affected.rs:153-160`: characters an identifier may start with. -/
def identStart (c : Char) : Bool :=
  (decide ('A' ≤ c) && decide (c ≤ 'Z')) || (decide ('a' ≤ c) && decide (c ≤ 'z')) || c == '_' || c == '<'

/-- `affected.rs:167-168`: characters allowed after the first. -/
def identRest (c : Char) : Bool :=
  (decide ('A' ≤ c) && decide (c ≤ 'Z')) || (decide ('a' ≤ c) && decide (c ≤ 'z')) ||
    (decide ('0' ≤ c) && decide (c ≤ '9')) || c == '_' || c == '<' || c == '>' || c == ','

/-- `affected.rs:149-182`: `validate_identifier` (as used by `FromStr for Identifier`, 138-147). -/
def validIdent : Str → Bool
  | [] => false
  | c :: t => identStart c && t.all identRest

/-- `affected.rs:85-107`: `FromStr for FunctionPath`; a path is its list of segments. -/
def FunctionPath.fromStr (s : Str) : Outcome (List Str) :=
  let segments := splitPath s
  if !segments.all validIdent then .err
  else if 2 ≤ segments.length then .ok segments
  else .err

/-- `affected.rs:69-83`: `Display for FunctionPath` (panics on the empty list, which no parse returns). -/
def FunctionPath.display : List Str → Outcome Str
  | [] => .panic
  | c :: rest => .ok (c ++ (rest.map fun s => "::".toList ++ s).flatten)

/-! ### Enumerations -/

/-- `category.rs:16-61`: `enum Category`. -/
inductive Category where
  | codeExecution | cryptoFailure | denialOfService | fileDisclosure | formatInjection | malicious
  | memoryCorruption | memoryExposure | privilegeEscalation | threadSafety
  | other (s : Str)
  deriving DecidableEq, Repr

/-- `category.rs:65-79`: `Category::name` (and `Display`, 82-86). -/
def Category.name : Category → Str
  | .codeExecution => "code-execution".toList
  | .cryptoFailure => "crypto-failure".toList
  | .denialOfService => "denial-of-service".toList
  | .fileDisclosure => "file-disclosure".toList
  | .formatInjection => "format-injection".toList
  | .malicious => "malicious".toList
  | .memoryCorruption => "memory-corruption".toList
  | .memoryExposure => "memory-exposure".toList
  | .privilegeEscalation => "privilege-escalation".toList
  | .threadSafety => "thread-safety".toList
  | .other s => s

/-- `category.rs:91-105`: `FromStr for Category` (never fails). -/
def Category.fromStr (s : Str) : Category :=
  if s = "code-execution".toList then .codeExecution
  else if s = "crypto-failure".toList then .cryptoFailure
  else if s = "denial-of-service".toList then .denialOfService
  else if s = "file-disclosure".toList then .fileDisclosure
  else if s = "format-injection".toList then .formatInjection
  else if s = "malicious".toList then .malicious
  else if s = "memory-corruption".toList then .memoryCorruption
  else if s = "memory-exposure".toList then .memoryExposure
  else if s = "privilege-escalation".toList then .privilegeEscalation
  else if s = "thread-safety".toList then .threadSafety
  else .other s

/-- `informational.rs:34-41`: `Informational::as_str` (and `Display`). -/
def Informational.asStr : Informational → Str
  | .notice => "notice".toList
  | .unmaintained => "unmaintained".toList
  | .unsound => "unsound".toList
  | .other s => s

/-- `informational.rs:83-90`: `FromStr for Informational` (never fails). -/
def Informational.fromStr (s : Str) : Informational :=
  if s = "notice".toList then .notice
  else if s = "unmaintained".toList then .unmaintained
  else if s = "unsound".toList then .unsound
  else .other s

/-- `license.rs:57-63`: `License::spdx` (and `Display`, `Serialize`). -/
def License.spdx : License → Str
  | .ccBy40 => "CC-BY-4.0".toList
  | .ccZero10 => "CC0-1.0".toList
  | .other s => s

/-- `license.rs:70-76`: `FromStr for License` (never fails). -/
def License.fromStr (s : Str) : License :=
  if s = "CC0-1.0".toList then .ccZero10
  else if s = "CC-BY-4.0".toList then .ccBy40
  else .other s

/-- `license.rs:30-38`: `From<String> for License`, the conversion used when deserialising. -/
def License.ofString (s : Str) : License :=
  if s = "CC0-1.0".toList then .ccZero10
  else if s = "CC-BY-4.0".toList then .ccBy40
  else .other s

/-- `collection.rs:27-32`: `Collection::as_str`. -/
def Collection.asStr : Collection → Str
  | .crates => "crates".toList
  | .rust => "rust".toList

/-- `collection.rs:44-50`: `FromStr for Collection`. -/
def Collection.fromStr (s : Str) : Option Collection :=
  if s = "crates".toList then some .crates
  else if s = "rust".toList then some .rust
  else none

/-- `warning.rs:89-96`: `WarningKind::as_str`. -/
def WarningKind.asStr : WarningKind → Str
  | .notice => "notice".toList
  | .unmaintained => "unmaintained".toList
  | .unsound => "unsound".toList
  | .yanked => "yanked".toList

/-- `warning.rs:102-110`: `FromStr for WarningKind`. -/
def WarningKind.fromStr (s : Str) : Option WarningKind :=
  if s = "notice".toList then some .notice
  else if s = "unmaintained".toList then some .unmaintained
  else if s = "unsound".toList then some .unsound
  else if s = "yanked".toList then some .yanked
  else none

/-- `cvss/src/severity.rs:45-53`: `Severity::as_str`. -/
def Severity.asStr : Severity → Str
  | .none => "none".toList
  | .low => "low".toList
  | .medium => "medium".toList
  | .high => "high".toList
  | .critical => "critical".toList

/-- `str::to_ascii_lowercase`. -/
def asciiLower (s : Str) : Str := s.map Char.toLower

/-- `cvss/src/severity.rs:59-69`: `FromStr for Severity`. -/
def Severity.fromStr (s : Str) : Option Severity :=
  let l := asciiLower s
  if l = "none".toList then some .none
  else if l = "low".toList then some .low
  else if l = "medium".toList then some .medium
  else if l = "high".toList then some .high
  else if l = "critical".toList then some .critical
  else Option.none

/-! ### TOML documents and deserialisation -/

/-- A TOML value.  Integers, floats and date-times are not told apart: no field of an advisory accepts
them.  A table is its entries (keys are distinct when the parser produced it). -/
inductive Toml where
  | str (s : Str)
  | bool (b : Bool)
  | arr (l : List Toml)
  | table (l : List (Str × Toml))
  | other

/-- The entries of a TOML table. -/
abbrev TomlTable := List (Str × Toml)

/-- The libraries that advisory parsing calls. -/
structure AdvLib where
  /-- `toml::from_str::<Table>` -/
  toml : Str → Option TomlTable
  /-- `jiff::civil::Date::from_str` -/
  civil : Str → Option (Int × Nat × Nat)
  /-- `url` -/
  url : UrlLib
  /-- `semver::VersionReq::from_str` -/
  req : Str → Option VersionReq

/-- The value of a key (keys are distinct). -/
def TomlTable.get (t : TomlTable) (k : String) : Option Toml := t.lookup k.toList

/-- A value that must be a string, converted with a `FromStr`. -/
def asString {α : Type} (f : Str → Outcome α) : Toml → Outcome α
  | .str s => f s
  | _ => .err

/-- A value that must be an array of strings, converted one by one. -/
def asStrings {α : Type} (f : Str → Outcome α) : Toml → Outcome (List α)
  | .arr l => Outcome.mapList (asString f) l
  | _ => .err

/-- A required field. -/
def required {α : Type} (t : TomlTable) (k : String) (f : Toml → Outcome α) : Outcome α :=
  match t.get k with
  | some v => f v
  | none => .err

/-- A field with a default value (`#[serde(default)]`, or an `Option`). -/
def defaulted {α : Type} (t : TomlTable) (k : String) (d : α) (f : Toml → Outcome α) : Outcome α :=
  match t.get k with
  | some v => f v
  | none => .ok d

/-- `Option` from a parser as a `Result`. -/
def ofOption {α : Type} : Option α → Outcome α
  | some a => .ok a
  | none => .err

/-- `metadata.rs:14-98`: `struct Metadata`, all fields. -/
structure FileMetadata where
  id : Id
  package : Str
  title : Str
  description : Str
  date : DateText
  aliases : List Id
  related : List Id
  collection : Option Collection
  categories : List Category
  keywords : List Str
  cvss : Option Cvss.Cvss
  informational : Option Informational
  references : List Url
  source : Option SourceId
  url : Option Url
  withdrawn : Option DateText
  license : License
  expectDeleted : Bool

/-- `advisory.rs:37-49`: `struct Advisory`, with all metadata. -/
structure AdvisoryFile where
  metadata : FileMetadata
  affected : Option Affected
  versions : Versions

/-- A boolean value. -/
def asBool : Toml → Outcome Bool
  | .bool b => .ok b
  | _ => .err

/-- `metadata.rs:13-98`: the derived `Deserialize` of `Metadata` (unknown keys are ignored), for the fields
with their own `Deserialize`: `id.rs:159-166`, `date.rs:85-92`, `collection.rs:53-59`, `category.rs:108-114`,
`keyword.rs:25-30`, `cvss/src/cvss.rs:98-106`, `informational.rs:93-99`, `license.rs:7,30-38`,
`cargo-lock/src/package/source.rs`. -/
def FileMetadata.decode (L : AdvLib) (t : TomlTable) : Outcome FileMetadata := do
  let id ← required t "id" (asString Id.fromStr)
  let package ← required t "package" (asString .ok)
  let title ← defaulted t "title" [] (asString .ok)
  let description ← defaulted t "description" [] (asString .ok)
  let date ← required t "date" (asString (DateText.fromStr L.civil))
  let aliases ← defaulted t "aliases" [] (asStrings Id.fromStr)
  let related ← defaulted t "related" [] (asStrings Id.fromStr)
  let collection ← defaulted t "collection" none
    (asString fun s => Cvss.Outcome.map some (ofOption (Collection.fromStr s)))
  let categories ← defaulted t "categories" [] (asStrings fun s => .ok (Category.fromStr s))
  let keywords ← defaulted t "keywords" [] (asStrings .ok)
  let cvss ← defaulted t "cvss" none (asString fun s => Cvss.Outcome.map some (Cvss.Cvss.fromStr s))
  let informational ← defaulted t "informational" none
    (asString fun s => .ok (some (Informational.fromStr s)))
  let references ← defaulted t "references" [] (asStrings fun s => ofOption (Url.parse L.url s))
  let source ← defaulted t "source" none
    (asString fun s => Cvss.Outcome.map some (SourceId.fromUrl L.url s))
  let url ← defaulted t "url" none (asString fun s => Cvss.Outcome.map some (ofOption (Url.parse L.url s)))
  let withdrawn ← defaulted t "withdrawn" none
    (asString fun s => Cvss.Outcome.map some (DateText.fromStr L.civil s))
  let license ← defaulted t "license" .ccZero10 (asString fun s => .ok (License.ofString s))
  let expectDeleted ← defaulted t "expect-deleted" false asBool
  .ok { id, package, title, description, date, aliases, related, collection, categories, keywords, cvss,
        informational, references, source, url, withdrawn, license, expectDeleted }

/-- One entry of the `functions` table. -/
def decodeFunction (L : AdvLib) (kv : Str × Toml) : Outcome (List Str × List VersionReq) :=
  match FunctionPath.fromStr kv.1 with
  | .ok p =>
    match asStrings (fun s => ofOption (L.req s)) kv.2 with
    | .ok rs => .ok (p, rs)
    | .err => .err
    | .panic => .panic
  | .err => .err
  | .panic => .panic

/-- `affected.rs:35`: the `functions` field, entries in document order (the code sorts them by path). -/
def decodeFunctions (L : AdvLib) : Toml → Outcome (List (List Str × List VersionReq))
  | .table l => Outcome.mapList (decodeFunction L) l
  | _ => .err

/-- `affected.rs:19-36`: the derived `Deserialize` of `Affected`. -/
def decodeAffected (L : AdvLib) : Toml → Outcome Affected
  | .table t => do
    let arch ← defaulted t "arch" [] (asStrings .ok)
    let os ← defaulted t "os" [] (asStrings .ok)
    let functions ← defaulted t "functions" [] (decodeFunctions L)
    .ok { arch, os, functions }
  | _ => .err

/-- `versions.rs:9-18,52-71`: `Deserialize` of `Versions` through `RawVersions`. -/
def decodeVersions (L : AdvLib) : Toml → Outcome Versions
  | .table t => do
    let patched ← required t "patched" (asStrings fun s => ofOption (L.req s))
    let unaffected ← defaulted t "unaffected" [] (asStrings fun s => ofOption (L.req s))
    Versions.new patched unaffected
  | _ => .err

/-- The `[advisory]` value must be a table. -/
def decodeMetadata (L : AdvLib) : Toml → Outcome FileMetadata
  | .table t => FileMetadata.decode L t
  | _ => .err

/-- `advisory.rs:37-49`: the derived `Deserialize` of `Advisory`. -/
def AdvisoryFile.decode (L : AdvLib) (t : TomlTable) : Outcome AdvisoryFile := do
  let metadata ← required t "advisory" (decodeMetadata L)
  let affected ← defaulted t "affected" none (fun v => Cvss.Outcome.map some (decodeAffected L v))
  let versions ← required t "versions" (decodeVersions L)
  .ok { metadata, affected, versions }

/-- The header that format V3 front matter starts with. -/
def advisoryHeader : Str := "[advisory]".toList

/-- `advisory.rs:118-123`: V4 front matter gets the header. -/
def withHeader (frontMatter : Str) : Str :=
  if advisoryHeader.isPrefixOf frontMatter then frontMatter
  else "[advisory]\n".toList ++ frontMatter

/-- `advisory.rs:112-149`: `FromStr for Advisory`. -/
def AdvisoryFile.fromStr (L : AdvLib) (s : Str) : Outcome AdvisoryFile := do
  let parts ← Parts.parse s
  let t ← ofOption (L.toml (withHeader parts.frontMatter))
  let a ← AdvisoryFile.decode L t
  if !a.metadata.title.isEmpty then .err
  else if !a.metadata.description.isEmpty then .err
  else .ok { a with metadata := { a.metadata with title := parts.title, description := parts.description } }

/-- `advisory.rs:104-109`: `Advisory::is_draft`, on the file name. -/
def isDraft (fileName : Str) : Bool := startsWith fileName "RUSTSEC-0000-0000."

end Verif.Adv
