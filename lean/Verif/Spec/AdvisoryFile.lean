import Verif.Model.Linter

/-!
# Specification of advisory files (C20, C21, C22, C24)
-/

namespace Verif.Spec

open Verif.Adv Verif.Lint

/-! ### The calendar (C20) -/

/-- Gregorian leap years. -/
def LeapYear (y : Nat) : Prop := (4 ∣ y ∧ ¬ 100 ∣ y) ∨ 400 ∣ y

/-- Number of days of a month. -/
def monthDays (leap : Prop) [Decidable leap] (m : Nat) : Nat :=
  if m = 2 then (if leap then 29 else 28)
  else if m = 4 ∨ m = 6 ∨ m = 9 ∨ m = 11 then 30
  else 31

instance (y : Nat) : Decidable (LeapYear y) := by unfold LeapYear; infer_instance

/-- The day exists in the calendar. -/
def CalendarDay (y m d : Nat) : Prop := 1 ≤ m ∧ m ≤ 12 ∧ 1 ≤ d ∧ d ≤ monthDays (LeapYear y) m

instance (y m d : Nat) : Decidable (CalendarDay y m d) := by unfold CalendarDay; infer_instance

/-- The text has the form `YYYY-MM-DD` and these are its numbers. -/
def IsoText (s : Str) (y m d : Nat) : Prop :=
  ∃ ys ms ds : Str, s = ys ++ '-' :: (ms ++ '-' :: ds) ∧
    ys.length = 4 ∧ ms.length = 2 ∧ ds.length = 2 ∧ (∀ c ∈ ys ++ ms ++ ds, c.isDigit = true) ∧
    y = Nat.ofDigitChars 10 ys 0 ∧ m = Nat.ofDigitChars 10 ms 0 ∧ d = Nat.ofDigitChars 10 ds 0

/-- What is assumed of `jiff`: on texts of the form `YYYY-MM-DD` it accepts exactly the days that exist and
returns their numbers. -/
def IsoLaw (civil : Str → Option (Int × Nat × Nat)) : Prop :=
  ∀ s y m d, IsoText s y m d → civil s = if CalendarDay y m d then some ((y : Int), m, d) else none

/-! ### Splitting the file (C22) -/

/-- `pat` occurs in `s` for the first time after `pre`, and `post` follows it. -/
def FirstAt (pat s pre post : Str) : Prop :=
  s = pre ++ pat ++ post ∧ ∀ pre' post' : Str, s = pre' ++ pat ++ post' → pre.length ≤ pre'.length

/-- The 25 characters with the Unicode property `White_Space`. -/
def whiteSpace : List Nat :=
  [0x9, 0xA, 0xB, 0xC, 0xD, 0x20, 0x85, 0xA0, 0x1680, 0x2000, 0x2001, 0x2002, 0x2003, 0x2004, 0x2005, 0x2006, 0x2007,
   0x2008, 0x2009, 0x200A, 0x2028, 0x2029, 0x202F, 0x205F, 0x3000]

/-- `t` is `s` without the white space at its start. -/
def TrimmedStart (s t : Str) : Prop :=
  ∃ w, s = w ++ t ∧ (∀ c ∈ w, isWhite c = true) ∧ ∀ c, t.head? = some c → isWhite c = false

/-- `t` is `s` without the white space at its end. -/
def TrimmedEnd (s t : Str) : Prop :=
  ∃ w, s = t ++ w ∧ (∀ c ∈ w, isWhite c = true) ∧ ∀ c, t.getLast? = some c → isWhite c = false

/-- `t` is `s` without the white space around it. -/
def Trimmed (s t : Str) : Prop := ∃ u, TrimmedStart s u ∧ TrimmedEnd u t

/-- The file is: the opening fence, the front matter, the first closing fence, the Markdown.  The Markdown is,
after white space, a line `# title` and the description. -/
structure WellFormedFile (s : Str) (p : Parts) : Prop where
  split : ∃ raw rest, FirstAt closeFence s (tomlFence ++ raw) rest ∧ Trimmed raw p.frontMatter ∧
    TrimmedStart rest p.markdown
  title : ∃ line rest, FirstAt ['\n'] p.markdown ("# ".toList ++ line) rest ∧ TrimmedEnd line p.title ∧
    Trimmed rest p.description

/-! ### Function paths (C21) -/

/-- An identifier of a function path. -/
def Identifier (s : Str) : Prop :=
  ∃ c t, s = c :: t ∧ (c.isAlpha ∨ c = '_' ∨ c = '<') ∧
    ∀ x ∈ t, x.isAlphanum ∨ x = '_' ∨ x = '<' ∨ x = '>' ∨ x = ','

/-- A function path: a crate name and at least one more segment. -/
def ValidPath (p : List Str) : Prop := 2 ≤ p.length ∧ ∀ s ∈ p, Identifier s

/-! ### The linter (C24) -/

/-- A bare user mention in line `n` of a text: an `@` followed by a word that starts with an ASCII letter or
digit and contains none of `.`, `@` and backquote. -/
def Mention (md : Str) (n : Nat) : Prop :=
  ∃ pre post, md = pre ++ '@' :: post ∧ pre.count '\n' = n ∧
    (∃ c, post.head? = some c ∧ asciiAlnum c = true) ∧
    ∀ c ∈ post.takeWhile (fun c => !isWhite c), c ≠ '.' ∧ c ≠ '@' ∧ c ≠ '`'

/-- The key is in the table. -/
def HasKey (t : TomlTable) (k : String) : Prop := ∃ v, (k.toList, v) ∈ t

/-- What is assumed of the TOML parser: the keys of a document are distinct. -/
def DistinctKeys (toml : Str → Option TomlTable) : Prop :=
  ∀ fm t, toml fm = some t → (t.map Prod.fst).Nodup

/-- The keys of `[advisory]` that advisories may use. -/
def metadataKeys : List String :=
  ["id", "categories", "informational", "url", "date", "yanked", "license", "aliases", "cvss", "keywords",
   "package", "references", "related", "title", "withdrawn", "description", "expect-deleted"]

/-- What is wrong with an `[advisory]` table. -/
inductive MetaProblem (a : AdvisoryFile) (draft : Option Bool) (m : TomlTable) : Finding → Prop
  | draft (d : Bool) : HasKey m "id" → draft = some d →
      (d = true ↔ a.metadata.id.string ≠ "RUSTSEC-0000-0000".toList) → MetaProblem a draft m .draftMismatch
  | otherId : HasKey m "id" → a.metadata.id.kind = .other → MetaProblem a draft m .otherId
  | year (y1 y2 : Nat) : HasKey m "id" → HasKey m "date" → a.metadata.id.kind ≠ .other →
      a.metadata.id.kind ≠ .cve → a.metadata.id.year = some y1 → a.metadata.date.year = .ok y2 → y1 ≠ y2 →
      MetaProblem a draft m .yearMismatch
  | category (s : Str) : HasKey m "categories" → Category.other s ∈ a.metadata.categories →
      MetaProblem a draft m (.unknownCategory s)
  | collection : HasKey m "collection" → MetaProblem a draft m .explicitCollection
  | informational (s : Str) : HasKey m "informational" → a.metadata.informational = some (.other s) →
      MetaProblem a draft m (.unknownInformational s)
  | url (u : Str) : ("url".toList, .str u) ∈ m → (∀ r, u ≠ "https://".toList ++ r) →
      MetaProblem a draft m (.insecureUrl u)
  | yanked : HasKey m "yanked" → a.metadata.withdrawn = none → MetaProblem a draft m .yankedDeprecated
  | license (l : Str) : ("license".toList, .str l) ∈ m → l ≠ "CC0-1.0".toList → l ≠ "CC-BY-4.0".toList →
      MetaProblem a draft m (.unknownLicense l)
  | key (k : Str) (v : Toml) : (k, v) ∈ m → k ≠ "collection".toList →
      (∀ n ∈ metadataKeys, k ≠ n.toList) → MetaProblem a draft m (.unknownKey (some "advisory".toList) k)

/-- What is wrong with an `[affected]` table. -/
inductive AffectedProblem (a : AdvisoryFile) (m : TomlTable) : Finding → Prop
  | function (af : Affected) (p : List Str) (reqs : List Semver.VersionReq) : HasKey m "functions" →
      a.affected = some af → (p, reqs) ∈ af.functions →
      p.head? ≠ some (a.metadata.package.map fun c => if c = '-' then '_' else c) →
      AffectedProblem a m (.foreignFunction p)
  | arch (af : Affected) (s : Str) : HasKey m "arch" → a.affected = some af → s ∈ af.arch →
      (∀ x : Plat.Arch, x.asStr ≠ s) → AffectedProblem a m (.unknownArch s)
  | os (af : Affected) : HasKey m "os" → a.affected = some af → [] ∈ af.os → AffectedProblem a m .emptyOs
  | key (k : Str) (v : Toml) : (k, v) ∈ m → k ≠ "functions".toList → k ≠ "arch".toList →
      k ≠ "os".toList → AffectedProblem a m (.unknownKey (some "affected".toList) k)

/-- What is wrong with an advisory: its document `t`, its Markdown, its parsed form `a`. -/
inductive Problem (a : AdvisoryFile) (t : TomlTable) (md : Str) (draft : Option Bool) : Finding → Prop
  | mention (n : Nat) : Mention md n → Problem a t md draft (.mention n)
  | notTable (v : Toml) : ("advisory".toList, v) ∈ t → (∀ m, v ≠ .table m) → Problem a t md draft .notTable
  | metadata (m : TomlTable) (f : Finding) : ("advisory".toList, .table m) ∈ t → MetaProblem a draft m f →
      Problem a t md draft f
  | versions (m : TomlTable) (k : Str) (v : Toml) : ("versions".toList, .table m) ∈ t → (k, v) ∈ m →
      k ≠ "patched".toList → k ≠ "unaffected".toList →
      Problem a t md draft (.unknownKey (some "versions".toList) k)
  | affected (m : TomlTable) (f : Finding) : ("affected".toList, .table m) ∈ t → AffectedProblem a m f →
      Problem a t md draft f
  | key (k : Str) (v : Toml) : (k, v) ∈ t → k ≠ "advisory".toList → k ≠ "versions".toList →
      k ≠ "affected".toList → Problem a t md draft (.unknownKey none k)

end Verif.Spec
