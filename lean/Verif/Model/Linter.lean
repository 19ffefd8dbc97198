import Verif.Model.AdvisoryFile
import Verif.Model.PlatformTable

/-!
# The advisory linter

Model of `rustsec/src/advisory/linter.rs`.  Every `Error` pushed by the linter is one `Finding`; the texts of
the messages are not modelled.
-/

namespace Verif.Lint

open Verif.Adv

/-- The kinds of `linter::Error` the linter pushes, with the data they name. -/
inductive Finding where
  /-- linter.rs:99-109, with the line of the Markdown (counted from 0). -/
  | mention (line : Nat)
  /-- linter.rs:134-138 (no section), 277-281, 299-303, 353-357. -/
  | unknownKey (sect : Option Str) (key : Str)
  /-- linter.rs:154-160. -/
  | draftMismatch
  /-- linter.rs:163-167. -/
  | otherId
  /-- linter.rs:173-179, 239-243. -/
  | yearMismatch
  /-- linter.rs:190-194. -/
  | unknownCategory (s : Str)
  /-- linter.rs:198-204. -/
  | explicitCollection
  /-- linter.rs:214-220. -/
  | unknownInformational (s : Str)
  /-- linter.rs:227-231. -/
  | insecureUrl (s : Str)
  /-- linter.rs:251-258. -/
  | yankedDeprecated
  /-- linter.rs:267-271. -/
  | unknownLicense (s : Str)
  /-- linter.rs:285-289. -/
  | notTable
  /-- linter.rs:321-327. -/
  | foreignFunction (path : List Str)
  /-- linter.rs:334-338. -/
  | unknownArch (s : Str)
  /-- linter.rs:345-349. -/
  | emptyOs
  deriving DecidableEq, Repr

/-! ### User mentions -/

/-- `str::lines`: the last piece is dropped if empty; a `\r` before the line break is dropped. -/
def stripCr (l : Str) : Str := if l.getLast? = some '\r' then l.dropLast else l

/-- `str::lines` on the pieces between line breaks. -/
def linesOf : List Str → List Str
  | [] => []
  | [last] => if last.isEmpty then [] else [last]
  | l :: rest => stripCr l :: linesOf rest

/-- `str::lines`. -/
def lines (s : Str) : List Str := linesOf (splitC '\n' s)

/-- `str::split_inclusive(c)`. -/
def splitInclusive (c : Char) : Str → List Str
  | [] => []
  | x :: xs =>
    if x = c then [c] :: splitInclusive c xs
    else
      match splitInclusive c xs with
      | [] => [[x]]
      | h :: t => (x :: h) :: t

/-- `char::is_ascii_alphanumeric`. -/
def asciiAlnum (c : Char) : Bool :=
  (decide ('A' ≤ c) && decide (c ≤ 'Z')) || (decide ('a' ≤ c) && decide (c ≤ 'z')) ||
    (decide ('0' ≤ c) && decide (c ≤ '9'))

/-- `str::split_whitespace().next()`. -/
def firstWord (s : Str) : Option Str :=
  let w := (s.dropWhile isWhite).takeWhile fun c => !isWhite c
  if w.isEmpty then none else some w

/-- linter.rs:79-92: is this part a mention? -/
def partMention (part : Str) : Bool :=
  match part with
  | [] => false
  | c :: _ =>
    if !asciiAlnum c then false
    else
      match firstWord part with
      | none => false
      | some username => !username.any fun c => c == '.' || c == '@' || c == '`'

/-- linter.rs:73-97: does the line contain a mention? -/
def lineMention (line : Str) : Bool := ((splitInclusive '@' line).drop 1).any partMention

/-- linter.rs:72-110: the findings of a list of lines, numbered from `i`. -/
def mentionsFrom (i : Nat) : List Str → List Finding
  | [] => []
  | l :: ls => if lineMention l then .mention i :: mentionsFrom (i + 1) ls else mentionsFrom (i + 1) ls

/-- linter.rs:69-111. -/
def lintMentions (markdown : Str) : List Finding :=
  if markdown.contains '@' then mentionsFrom 0 (lines markdown) else []

/-! ### Metadata -/

/-- `id.rs`: `Id::is_other`, `Id::is_cve` as used by the linter. -/
def isOther (i : Id) : Bool := i.kind == .other
/-- `id.rs`: `Id::is_cve`. -/
def isCve (i : Id) : Bool := i.kind == .cve

/-- The state of the loop: the year seen so far and the findings. -/
abbrev St := Option Nat × List Finding

/-- linter.rs:151-161: the draft status. -/
def lintDraft (a : AdvisoryFile) : Option Bool → List Finding
  | some d => if a.metadata.id.isPlaceholder != d then [.draftMismatch] else []
  | none => []

/-- linter.rs:150-186: the `id` key. -/
def lintId (a : AdvisoryFile) (draft : Option Bool) (year : Option Nat) : St :=
  let f1 := lintDraft a draft
  if isOther a.metadata.id then (year, f1 ++ [.otherId])
  else
    match a.metadata.id.year with
    | none => (year, f1)
    | some y1 =>
      if isCve a.metadata.id then (year, f1)
      else
        match year with
        | some y2 => if y1 ≠ y2 then (year, f1 ++ [.yearMismatch]) else (year, f1)
        | none => (some y1, f1)

/-- linter.rs:234-248: the `date` key. -/
def lintDate (a : AdvisoryFile) (year : Option Nat) : Outcome St :=
  match a.metadata.date.year with
  | .ok y1 =>
    match year with
    | some y2 => .ok (if y1 ≠ y2 then (year, [.yearMismatch]) else (year, []))
    | none => .ok (some y1, [])
  | .err => .err
  | .panic => .panic

/-- linter.rs:187-197. -/
def otherCategories : List Category → List Finding
  | [] => []
  | .other s :: cs => .unknownCategory s :: otherCategories cs
  | _ :: cs => otherCategories cs

/-- linter.rs:275-276: keys of `[advisory]` that need no check. -/
def plainKeys : List Str :=
  ["aliases".toList, "cvss".toList, "keywords".toList, "package".toList, "references".toList,
   "related".toList, "title".toList, "withdrawn".toList, "description".toList, "expect-deleted".toList]

/-- linter.rs:149-282: one key of `[advisory]`. -/
def lintMetaKey (a : AdvisoryFile) (draft : Option Bool) (year : Option Nat) (key : Str) (value : Toml) :
    Outcome St :=
  if key = "id".toList then .ok (lintId a draft year)
  else if key = "categories".toList then .ok (year, otherCategories a.metadata.categories)
  else if key = "collection".toList then .ok (year, [.explicitCollection])
  else if key = "informational".toList then
    match a.metadata.informational with
    | none => .panic
    | some (.other s) => .ok (year, [.unknownInformational s])
    | some _ => .ok (year, [])
  else if key = "url".toList then
    match value with
    | .str u => .ok (year, if !startsWith u "https://" then [.insecureUrl u] else [])
    | _ => .ok (year, [])
  else if key = "date".toList then lintDate a year
  else if key = "yanked".toList then
    .ok (year, if a.metadata.withdrawn.isNone then [.yankedDeprecated] else [])
  else if key = "license".toList then
    match value with
    | .str l =>
      match License.fromStr l with
      | .other _ => .ok (year, [.unknownLicense l])
      | _ => .ok (year, [])
    | _ => .ok (year, [])
  else if key ∈ plainKeys then .ok (year, [])
  else .ok (year, [.unknownKey (some "advisory".toList) key])

/-- linter.rs:148-283: the loop over the keys of `[advisory]`. -/
def lintMetaKeys (a : AdvisoryFile) (draft : Option Bool) : Option Nat → TomlTable → Outcome (List Finding)
  | _, [] => .ok []
  | year, (k, v) :: t =>
    match lintMetaKey a draft year k v with
    | .ok (year', fs) =>
      match lintMetaKeys a draft year' t with
      | .ok gs => .ok (fs ++ gs)
      | .err => .err
      | .panic => .panic
    | .err => .err
    | .panic => .panic

/-- linter.rs:143-291: `lint_metadata`. -/
def lintMetadata (a : AdvisoryFile) (draft : Option Bool) : Toml → Outcome (List Finding)
  | .table t => lintMetaKeys a draft none t
  | _ => .ok [.notTable]

/-- linter.rs:293-307: `lint_versions`. -/
def lintVersions : Toml → List Finding
  | .table t =>
    t.filterMap fun kv =>
      if kv.1 = "patched".toList ∨ kv.1 = "unaffected".toList then none
      else some (.unknownKey (some "versions".toList) kv.1)
  | _ => []

/-- `str::replace('-', "_")`. -/
def underscored (s : Str) : Str := s.map fun c => if c = '-' then '_' else c

/-- linter.rs:315-329.  `segments()[0]` cannot panic: no path is empty; the model takes the first segment. -/
def foreignFunctions (a : AdvisoryFile) (af : Affected) : List Finding :=
  af.functions.filterMap fun f =>
    if f.1.head? = some (underscored a.metadata.package) then none else some (.foreignFunction f.1)

/-- linter.rs:332-340. -/
def unknownArches (af : Affected) : List Finding :=
  af.arch.filterMap fun s =>
    if s.isEmpty || (Plat.Arch.fromStr s).isNone then some (.unknownArch s) else none

/-- linter.rs:343-351. -/
def emptyOses (af : Affected) : List Finding :=
  af.os.filterMap fun s => if s.isEmpty then some .emptyOs else none

/-- linter.rs:313-358: one key of `[affected]`; `as_ref().unwrap()` panics if the advisory has no
`[affected]`. -/
def lintAffectedKey (a : AdvisoryFile) (key : Str) : Outcome (List Finding) :=
  if key = "functions".toList then
    match a.affected with
    | none => .panic
    | some af => .ok (foreignFunctions a af)
  else if key = "arch".toList then
    match a.affected with
    | none => .panic
    | some af => .ok (unknownArches af)
  else if key = "os".toList then
    match a.affected with
    | none => .panic
    | some af => .ok (emptyOses af)
  else .ok [.unknownKey (some "affected".toList) key]

/-- Concatenate the results for the elements of a list, in order. -/
def concatMap {α : Type} (f : α → Outcome (List Finding)) : List α → Outcome (List Finding)
  | [] => .ok []
  | x :: xs =>
    match f x with
    | .ok fs =>
      match concatMap f xs with
      | .ok gs => .ok (fs ++ gs)
      | .err => .err
      | .panic => .panic
    | .err => .err
    | .panic => .panic

/-- linter.rs:309-361: `lint_affected`. -/
def lintAffected (a : AdvisoryFile) : Toml → Outcome (List Finding)
  | .table t => concatMap (fun kv => lintAffectedKey a kv.1) t
  | _ => .ok []

/-- linter.rs:129-139: one top-level key. -/
def lintTopKey (a : AdvisoryFile) (draft : Option Bool) (kv : Str × Toml) : Outcome (List Finding) :=
  if kv.1 = "advisory".toList then lintMetadata a draft kv.2
  else if kv.1 = "versions".toList then .ok (lintVersions kv.2)
  else if kv.1 = "affected".toList then lintAffected a kv.2
  else .ok [.unknownKey none kv.1]

/-- linter.rs:128-141: `lint_advisory`. -/
def lintAdvisory (a : AdvisoryFile) (draft : Option Bool) (t : TomlTable) : Outcome (List Finding) :=
  concatMap (lintTopKey a draft) t

/-- linter.rs:53-115: `Linter::lint_string`. -/
def lintString (L : AdvLib) (s : Str) (draft : Option Bool) : Outcome (AdvisoryFile × List Finding) := do
  let a ← AdvisoryFile.fromStr L s
  let parts ← Parts.parse s
  let table ← ofOption (L.toml parts.frontMatter)
  let fs ← lintAdvisory a draft table
  .ok (a, lintMentions parts.markdown ++ fs)

/-- `Path::extension` of a file name: the text after the last `.`, if there is one that is not the first
character (the name `..` is left out: it is not a file). -/
def extension (name : Str) : Option Str :=
  match splitC '.' name.reverse with
  | [] => none
  | [_] => none
  | [_, []] => none
  | ext :: _ => some ext.reverse

/-- linter.rs:28-50: `Linter::lint_file`; `content` is the result of reading the file. -/
def lintFile (L : AdvLib) (name : Str) (content : Option Str) : Outcome (AdvisoryFile × List Finding) :=
  if extension name ≠ some "md".toList then .err
  else
    match content with
    | none => .err
    | some s => lintString L s (some (isDraft name))

end Verif.Lint
