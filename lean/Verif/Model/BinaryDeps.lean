import Verif.Model.Sync
import Verif.Model.BinaryFilter
import Verif.Model.Lockfile

/-!
# Dependencies recovered from a binary

Model of `quitters/src/lib.rs` and `rustsec/src/binary_scanning/binary_deps.rs`.

Libraries that are arguments: `Version::parse`, `Url::parse`, `auditable_info`, `binfarce`.  The `regex` crate is
modelled for the fragment in use: a sequence of bytes from classes, each once, one or more times, or any number of
times, greedy and with backtracking; the leftmost match is taken, and the search goes on where it ends.
-/

namespace Verif.Bin

open Verif.Lock Verif.Semver Verif.Sync Verif.Rep

/-! ### Regular expressions -/

/-- How often a class is repeated (greedy). -/
inductive Quant where
  | one
  | plus
  | star
  deriving DecidableEq, Repr

/-- The named groups of the regular expression. -/
inductive Group where
  | no
  | crate
  | version
  deriving DecidableEq, Repr

/-- A class of bytes with a quantifier, and the group it is in. -/
structure Item where
  cls : UInt8 → Bool
  quant : Quant := .one
  group : Group := .no

/-- The ways to match any number of bytes of the class at the start of the text, longest first, with the rest. -/
def takeStar (f : UInt8 → Bool) : List UInt8 → List (List UInt8 × List UInt8)
  | [] => [([], [])]
  | b :: s =>
    if f b then (takeStar f s).map (fun r => (b :: r.1, r.2)) ++ [([], b :: s)] else [([], b :: s)]

/-- The ways to match an item, in the order in which backtracking tries them. -/
def Item.takes (i : Item) (s : List UInt8) : List (List UInt8 × List UInt8) :=
  match i.quant, s with
  | .star, s => takeStar i.cls s
  | .plus, b :: s => if i.cls b then (takeStar i.cls s).map (fun r => (b :: r.1, r.2)) else []
  | .plus, [] => []
  | .one, b :: s => if i.cls b then [([b], s)] else []
  | .one, [] => []

/-- The ways to match a regular expression at the start of the text: the bytes of each item, and the rest. -/
def matchAll : List Item → List UInt8 → List (List (List UInt8) × List UInt8)
  | [], s => [([], s)]
  | i :: re, s => (i.takes s).flatMap fun r => (matchAll re r.2).map fun m => (r.1 :: m.1, m.2)

/-- `Regex::captures_iter`: the matches from left to right, without overlaps.  The number bounds the steps; the
length of the text plus one is enough as long as no match is empty. -/
def capturesIter (re : List Item) : Nat → List UInt8 → List (List (List UInt8))
  | 0, _ => []
  | n + 1, s =>
    match matchAll re s with
    | m :: _ => m.1 :: capturesIter re n m.2
    | [] =>
      match s with
      | [] => []
      | _ :: t => capturesIter re n t

/-- `Captures::name`: the bytes matched inside a group (its items stand next to each other). -/
def captured (re : List Item) (m : List (List UInt8)) (g : Group) : List UInt8 :=
  ((re.zip m).filter fun p => decide (p.1.group = g)).flatMap Prod.snd

/-! ### `quitters` -/

/-- The bytes of an ASCII text. -/
def bytes (s : String) : List UInt8 := s.toList.map fun c => c.toNat.toUInt8

/-- The text of ASCII bytes (`from_utf8`, which cannot fail on what the two groups match). -/
def ascii (b : List UInt8) : Str := b.map fun c => Char.ofNat c.toNat

/-- `[0-9]` -/
def isDigitB (b : UInt8) : Bool := 48 ≤ b && b ≤ 57

/-- `[A-Za-z]` -/
def isLetterB (b : UInt8) : Bool := (65 ≤ b && b ≤ 90) || (97 ≤ b && b ≤ 122)

/-- `[0-9A-Za-z_-]` -/
def isCrateB (b : UInt8) : Bool := isDigitB b || isLetterB b || b == 95 || b == 45

/-- `[0-9A-Za-z+.-]` -/
def isSuffixB (b : UInt8) : Bool := isDigitB b || isLetterB b || b == 43 || b == 46 || b == 45

/-- A literal text. -/
def lit (s : List UInt8) : List Item := s.map fun b => { cls := fun c => c == b }

/-- `lib.rs:28`: `REGEX_STRING`; `sep` is `/`, or the backslash of `REGEX_STRING.replace('/', "\\\\")` (`lib.rs:83`).  -/
def pathRegex (sep : UInt8) : List Item :=
  lit (bytes "cargo" ++ [sep] ++ bytes "registry" ++ [sep] ++ bytes "src" ++ [sep]) ++
  ({ cls := fun b => b != sep, quant := .plus } :: lit [sep] ++
  ({ cls := isCrateB, quant := .plus, group := .crate } :: lit (bytes "-") ++
  ([{ cls := isDigitB, quant := .plus, group := .version }, { cls := fun b => b == 46, group := .version },
    { cls := isDigitB, quant := .plus, group := .version }, { cls := fun b => b == 46, group := .version },
    { cls := isDigitB, quant := .plus, group := .version },
    { cls := isSuffixB, quant := .star, group := .version }] ++ lit [sep])))

/-- `lib.rs:101-106`: `parse_capture`. -/
def parseCapture (parse : Str → Option Version) (sep : UInt8) (m : List (List UInt8)) : Option (Str × Version) :=
  match parse (ascii (captured (pathRegex sep) m .version)) with
  | some v => some (ascii (captured (pathRegex sep) m .crate), v)
  | none => none

/-- The order of `BTreeSet<(&str, Version)>`. -/
def foundCmp (a b : Str × Version) : Ordering := (strCmp a.1 b.1).then (Version.cmp a.2 b.2)

/-- `lib.rs:90-98`: `versions_for_regex`; the set as its elements in order. -/
def versionsFor (parse : Str → Option Version) (sep : UInt8) (data : List UInt8) : List (Str × Version) :=
  sortDedup foundCmp ((capturesIter (pathRegex sep) (data.length + 1) data).filterMap (parseCapture parse sep))

/-- `lib.rs:57-88`: `versions`. -/
def versions (parse : Str → Option Version) (data : List UInt8) : List (Str × Version) :=
  if versionsFor parse 47 data ≠ [] then versionsFor parse 47 data else versionsFor parse 92 data

/-! ### `binary_deps.rs` -/

/-- `auditable_serde::Source` (external crate). -/
inductive AuditSource where
  | cratesIo
  | git
  | localPath
  | registry
  | other (s : Str)
  deriving DecidableEq, Repr

/-- `auditable_serde::Package` (external crate). -/
structure AuditPackage where
  name : Str
  version : Version
  source : AuditSource
  dependencies : List Nat := []
  root : Bool := false
  deriving DecidableEq, Repr

/-- The result of `auditable_info::audit_info_from_slice` (external crate): the packages of `VersionInfo`, no data,
or any other error. -/
inductive AuditInfo where
  | found (packages : List AuditPackage)
  | noAuditData
  | failed
  deriving DecidableEq, Repr

/-- The libraries. -/
structure BinLib where
  /-- `Version::parse` -/
  parseVersion : Str → Option Version
  /-- `Url::parse` -/
  url : UrlLib
  /-- `audit_info_from_slice` with the size limit -/
  auditInfo : List UInt8 → Nat → AuditInfo
  /-- `binfarce::detect_format` -/
  format : List UInt8 → BinaryFormat

/-- `binary_deps.rs:104-106`: `CRATES_IO_INDEX`. -/
def registryUrl : Str := "registry+https://github.com/rust-lang/crates.io-index".toList

/-- `SourceId::from_url(..).unwrap()`. -/
def registrySource (L : BinLib) : Outcome SourceId :=
  match SourceId.fromUrl L.url registryUrl with
  | .ok s => .ok s
  | .err => .panic
  | .panic => .panic

/-- `binary_deps.rs:173-183`: `source_from_json`. -/
def sourceFromJson (L : BinLib) : AuditSource → Outcome (Option SourceId)
  | .cratesIo => do
    let s ← registrySource L
    .ok (some s)
  | _ => .ok none

/-- `binary_deps.rs:135-147`: a dependency, by its index. -/
def dependencyAt (L : BinLib) (input : List AuditPackage) (i : Nat) : Outcome Dependency :=
  match input[i]? with
  | none => .err
  | some e => do
    let s ← sourceFromJson L e.source
    .ok { name := e.name, version := e.version, source := s }

/-- `binary_deps.rs:127-153`: the package of one entry (`Name::from_str` cannot fail). -/
def packageFromJson (L : BinLib) (input : List AuditPackage) (e : AuditPackage) : Outcome Package := do
  let deps ← Outcome.mapList (dependencyAt L input) e.dependencies
  let s ← sourceFromJson L e.source
  .ok { name := e.name, version := e.version, source := s, dependencies := deps }

/-- `binary_deps.rs:126-162`: the loop over the entries, with the packages so far and the root package. -/
def packagesFromJson (L : BinLib) (input : List AuditPackage) :
    List Package → Option Package → List AuditPackage → Outcome (List Package × Option Package)
  | ps, root, [] => .ok (ps, root)
  | ps, root, e :: es =>
    match packageFromJson L input e with
    | .err => .err
    | .panic => .panic
    | .ok p =>
      if e.root then
        if root.isSome then .err else packagesFromJson L input (ps ++ [p]) (some p) es
      else packagesFromJson L input (ps ++ [p]) root es

/-- `binary_deps.rs:122-171`: `lockfile_from_version_info_json`. -/
def lockfileFromJson (L : BinLib) (input : List AuditPackage) : Outcome Lockfile := do
  let r ← packagesFromJson L input [] none input
  .ok { version := .v2, packages := r.1, root := r.2 }

/-- `binary_deps.rs:108-120`: `to_package`. -/
def toPackage (L : BinLib) (q : Str × Version) : Outcome Package := do
  let s ← registrySource L
  .ok { name := q.1, version := q.2, source := some s }

/-- `binary_deps.rs:88-102`: `deps_from_panic_messages`. -/
def depsFromPanics (L : BinLib) (data : List UInt8) : Outcome (Option Lockfile) :=
  match versions L.parseVersion data with
  | [] => .ok none
  | q :: qs => do
    let ps ← Outcome.mapList (toPackage L) (q :: qs)
    .ok (some { version := .v2, packages := ps })

/-- `binary_deps.rs:15-22`: `enum BinaryReport`. -/
inductive BinaryReport where
  | complete (l : Lockfile)
  | incomplete (l : Lockfile)
  | nothing
  deriving DecidableEq, Repr

/-- `binary_deps.rs:74-86`: `detect_format`. -/
def detectFormat (L : BinLib) (data : List UInt8) : BinaryFormat :=
  match L.format data with
  | .unknown => if (([0, 97, 115, 109] : List UInt8).isPrefixOf data) then .wasm else .unknown
  | f => f

/-- `binary_deps.rs:12`: `DEFAULT_FILE_SIZE_LIMIT`. -/
def defaultAuditLimit : Nat := 8 * 1024 * 1024

/-- `binary_deps.rs:30-72`: `load_deps_from_binary`. -/
def loadDepsFromBinary (L : BinLib) (data : List UInt8) (limit : Option Nat) :
    Outcome (BinaryFormat × BinaryReport) :=
  match L.auditInfo data (limit.getD defaultAuditLimit) with
  | .found input => do
    let l ← lockfileFromJson L input
    .ok (detectFormat L data, .complete l)
  | .noAuditData => do
    let d ← depsFromPanics L data
    match d with
    | some l => .ok (detectFormat L data, .incomplete l)
    | none => .ok (detectFormat L data, .nothing)
  | .failed => .err

end Verif.Bin
