import Verif.Model.Semver
import Verif.Model.Str

/-!
# Versions and requirements as texts

The grammar of the `semver` crate (a third-party crate, not in /repo: `Version::parse`, `VersionReq::parse` and the
`Display`s, semver 1.0 `src/parse.rs`, `src/display.rs`), as used at `cargo-lock/src/lockfile/encoding.rs:173-190`,
`cargo-lock/src/package.rs`, `rustsec/src/advisory/versions.rs:127-150` and `rustsec/src/advisory/affected.rs:20-35`.
It belongs to the specification of the libraries, like `Verif.Spec.Toml`.
-/

namespace Verif.Semver

/-- A character of an identifier. -/
def isIdChar (c : Char) : Bool := c.isAlphanum || c = '-'

/-- A numeric identifier of a version: decimal digits without superfluous zeros, at most `u64::MAX`. -/
def readNumeric (s : Str) : Option Nat :=
  if s.isEmpty || (decide (1 < s.length) && s.head? = some '0') then none
  else
    let n := Nat.ofDigitChars 10 s 0
    if n < 2 ^ 64 then some n else none

/-- Such a number at the beginning of a text, and the rest. -/
def takeNumeric (s : Str) : Option (Nat × Str) :=
  (readNumeric (s.takeWhile Char.isDigit)).map fun n => (n, s.dropWhile Char.isDigit)

/-- An identifier of a pre-release: digits without superfluous zeros, or something with a letter or a hyphen. -/
def readIdent (s : Str) : Option Ident :=
  if s.isEmpty then none
  else if s.all Char.isDigit then
    if decide (1 < s.length) && s.head? = some '0' then none else some (.num (Nat.ofDigitChars 10 s 0))
  else some (.alpha s)

/-- An identifier of build metadata; superfluous zeros count. -/
def readBuildId (s : Str) : Option BuildId :=
  if s.isEmpty then none
  else if s.all Char.isDigit then some (.num (Nat.ofDigitChars 10 s 0) s.length)
  else some (.alpha s)

/-- Part of a pre-release or of build metadata. -/
def isIdOrDot (c : Char) : Bool := isIdChar c || c = '.'

/-- Each of a list can be read. -/
def readAll {α : Type} (f : Str → Option α) : List Str → Option (List α)
  | [] => some []
  | s :: ss => do
    let x ← f s
    let xs ← readAll f ss
    some (x :: xs)

/-- Identifiers with dots between them at the beginning of a text, and the rest. -/
def takeIds {α : Type} (f : Str → Option α) (s : Str) : Option (List α × Str) :=
  (readAll f (splitC '.' (s.takeWhile isIdOrDot))).map fun l => (l, s.dropWhile isIdOrDot)

/-- The pre-release, if there is one. -/
def takePre : Str → Option (Pre × Str)
  | '-' :: s => takeIds readIdent s
  | s => some ([], s)

/-- The build metadata, if there are any. -/
def takeBuild : Str → Option (List BuildId × Str)
  | '+' :: s => takeIds readBuildId s
  | s => some ([], s)

/-- A dot and the rest. -/
def takeDot : Str → Option Str
  | '.' :: s => some s
  | _ => none

/-- `Version::parse`. -/
def readVersion (s : Str) : Option Version := do
  let (major, s) ← takeNumeric s
  let s ← takeDot s
  let (minor, s) ← takeNumeric s
  let s ← takeDot s
  let (patch, s) ← takeNumeric s
  let (pre, s) ← takePre s
  let (build, s) ← takeBuild s
  if s.isEmpty then some ⟨major, minor, patch, pre, build⟩ else none

/-- The text of an identifier. -/
def Ident.text : Ident → Str
  | .num n => showNat n
  | .alpha s => s

/-- The text of an identifier of build metadata. -/
def BuildId.text : BuildId → Str
  | .num n digits => showNatPad digits n
  | .alpha s => s

/-- A pre-release after its hyphen, if there is one. -/
def preText (p : Pre) : Str := if p.isEmpty then [] else '-' :: joinC '.' (p.map Ident.text)

/-- Build metadata after the plus sign, if there are any. -/
def buildText (b : List BuildId) : Str := if b.isEmpty then [] else '+' :: joinC '.' (b.map BuildId.text)

/-- `Display for Version`. -/
def Version.text (v : Version) : Str :=
  showNat v.major ++ '.' :: (showNat v.minor ++ '.' :: (showNat v.patch ++ (preText v.pre ++ buildText v.build)))

/-! ### Requirements -/

/-- `Op`, and the rest; `none` if none is written. -/
def takeOp : Str → Option Op × Str
  | '=' :: s => (some .exact, s)
  | '>' :: '=' :: s => (some .greaterEq, s)
  | '>' :: s => (some .greater, s)
  | '<' :: '=' :: s => (some .lessEq, s)
  | '<' :: s => (some .less, s)
  | '~' :: s => (some .tilde, s)
  | '^' :: s => (some .caret, s)
  | s => (none, s)

/-- Spaces are skipped. -/
def skipSpaces (s : Str) : Str := s.dropWhile (· = ' ')

/-- `*`, `x` or `X`, and the rest. -/
def takeStar : Str → Option Str
  | '*' :: s => some s
  | 'x' :: s => some s
  | 'X' :: s => some s
  | _ => none

/-- A part of a comparator after the first: not there, a wildcard, or a number. -/
inductive Part where
  | missing
  | star
  | number (n : Nat)
  deriving DecidableEq, Repr

/-- The number of a part. -/
def Part.value : Part → Option Nat
  | .number n => some n
  | _ => none

/-- Such a part, and the rest. -/
def takePart : Str → Option (Part × Str)
  | '.' :: s =>
    match takeStar s with
    | some s => some (.star, s)
    | none => (takeNumeric s).map fun x => (.number x.1, x.2)
  | s => some (.missing, s)

/-- After a full version: a pre-release, and build metadata that are read and dropped. -/
def takeSuffix (s : Str) : Option (Pre × Str) := do
  let (pre, s) ← takePre s
  let (_, s) ← takeBuild s
  some (pre, s)

/-- The suffix is looked for only if there is a patch number. -/
def takeSuffixIf (patch : Part) (s : Str) : Option (Pre × Str) :=
  match patch with
  | .number _ => takeSuffix s
  | _ => some ([], s)

/-- The operator: as written; otherwise the wildcard operator if there is a wildcard, or else the caret. -/
def opOf (written : Option Op) (minor patch : Part) : Op :=
  match written with
  | some op => op
  | none => if minor = .star ∨ patch = .star then .wildcard else .caret

/-- A comparator, and what follows it. -/
def takeComparator (s : Str) : Option (Comparator × Str) := do
  let (op, s) := takeOp s
  let (major, s) ← takeNumeric (skipSpaces s)
  let (minor, s) ← takePart s
  let (patch, s) ← takePart s
  if minor = .star ∧ patch.value ≠ none then none
  else do
    let (pre, s) ← takeSuffixIf patch s
    some (⟨opOf op minor patch, major, minor.value, patch.value, pre⟩, skipSpaces s)

/-- Comparators with commas between them, at most so many. -/
def readComparators : Nat → Str → Option (List Comparator)
  | 0, _ => none
  | n + 1, s => do
    let (c, s) ← takeComparator s
    match s with
    | [] => some [c]
    | ',' :: s => do
      let cs ← readComparators n (skipSpaces s)
      some (c :: cs)
    | _ => none

/-- `VersionReq::parse`: a wildcard alone, or at most 32 comparators. -/
def readReq (s : Str) : Option VersionReq :=
  match takeStar (skipSpaces s) with
  | some rest => if (skipSpaces rest).isEmpty then some ⟨[]⟩ else none
  | none => (readComparators 32 (skipSpaces s)).map VersionReq.mk

/-- `Display for Op` (as part of `Display for Comparator`). -/
def Op.text : Op → Str
  | .exact => ['=']
  | .greater => ['>']
  | .greaterEq => ['>', '=']
  | .less => ['<']
  | .lessEq => ['<', '=']
  | .tilde => ['~']
  | .caret => ['^']
  | .wildcard => []

/-- The numbers after the first. -/
def partsText (c : Comparator) : Str :=
  match c.minor with
  | some minor =>
    '.' :: (showNat minor ++
      (match c.patch with
      | some patch => '.' :: (showNat patch ++ preText c.pre)
      | none => if c.op = .wildcard then ['.', '*'] else []))
  | none => if c.op = .wildcard then ['.', '*'] else []

/-- `Display for Comparator`. -/
def Comparator.text (c : Comparator) : Str := c.op.text ++ (showNat c.major ++ partsText c)

/-- Comparators with a comma and a space between them. -/
def comparatorsText : List Comparator → Str
  | [] => []
  | [c] => c.text
  | c :: cs => c.text ++ ',' :: ' ' :: comparatorsText cs

/-- `Display for VersionReq`. -/
def VersionReq.text (r : VersionReq) : Str := if r.comparators.isEmpty then ['*'] else comparatorsText r.comparators

/-! ### What can be read -/

/-- A text of letters, digits and hyphens, not all digits. -/
def IsLabel (s : Str) : Prop := (∀ c ∈ s, isIdChar c = true) ∧ ∃ c ∈ s, c.isDigit = false

/-- An identifier that can be written. -/
def Ident.Valid : Ident → Prop
  | .num _ => True
  | .alpha s => IsLabel s

/-- An identifier of build metadata that can be written: not more digits than written. -/
def BuildId.Valid : BuildId → Prop
  | .num n digits => (showNat n).length ≤ digits
  | .alpha s => IsLabel s

/-- A value of `semver::Version`: numbers of 64 bits, identifiers of letters, digits and hyphens. -/
structure Version.Valid (v : Version) : Prop where
  major : v.major < 2 ^ 64
  minor : v.minor < 2 ^ 64
  patch : v.patch < 2 ^ 64
  pre : ∀ i ∈ v.pre, i.Valid
  build : ∀ i ∈ v.build, i.Valid

/-- A comparator that can be written. -/
structure Comparator.Valid (c : Comparator) : Prop where
  wf : c.WF
  major : c.major < 2 ^ 64
  minor : ∀ n, c.minor = some n → n < 2 ^ 64
  patch : ∀ n, c.patch = some n → n < 2 ^ 64
  pre : ∀ i ∈ c.pre, i.Valid

/-- A requirement that can be written. -/
structure VersionReq.Valid (r : VersionReq) : Prop where
  comparators : ∀ c ∈ r.comparators, c.Valid
  atMost : r.comparators.length ≤ 32

end Verif.Semver
