import Verif.Model.OsvExport
import Verif.Spec.ModTimes
import Verif.Spec.Sync

/-!
# Specification of the OSV export (C67)
-/

namespace Verif.Spec

open Verif.Adv Verif.Db Verif.Assign Verif.Git Verif.Osv Verif.Lock Verif.Export

/-- Characters of names and IDs. -/
def nameChar (c : Char) : Prop := c.isAlphanum = true ∨ c = '-' ∨ c = '_' ∨ c = '+'

/-- What is assumed of `url`: the addresses of pages of crates.io and rustsec.org whose last part consists of ASCII
letters, digits, `-`, `_` and `+` are valid, and normalised already. -/
def PageLaw (U : UrlLib) : Prop :=
  ∀ t : Str, (∀ c ∈ t, nameChar c) →
    U.base ("https://crates.io/crates/".toList ++ t) = some ("https://crates.io/crates/".toList ++ t) ∧
    U.base ("https://rustsec.org/advisories/".toList ++ t ++ ".html".toList) =
      some ("https://rustsec.org/advisories/".toList ++ t ++ ".html".toList)

/-- The text is `YYYY-MM-DDThh:mm:ssZ`, and it denotes the time `seconds` after 1970. -/
def Rfc3339Text (cal : Int → Int × Nat × Nat) (s : Str) (seconds : Int) : Prop :=
  ∃ (day : Int) (y mo d h mi se : Nat) (date hs ms ss : Str),
    s = date ++ 'T' :: (hs ++ ':' :: (ms ++ ':' :: (ss ++ ['Z']))) ∧ IsoText date y mo d ∧
    hs.length = 2 ∧ ms.length = 2 ∧ ss.length = 2 ∧ (∀ c ∈ hs ++ ms ++ ss, c.isDigit = true) ∧
    h = Nat.ofDigitChars 10 hs 0 ∧ mi = Nat.ofDigitChars 10 ms 0 ∧ se = Nat.ofDigitChars 10 ss 0 ∧
    h < 24 ∧ mi < 60 ∧ se < 60 ∧ cal day = ((y : Int), mo, d) ∧
    seconds = day * 86400 + h * 3600 + mi * 60 + se

/-- The text of an advisory date is `YYYY-MM-DD`. -/
def IsoDate (d : DateText) : Prop := ∃ y m n, IsoText d.text y m n

/-- The last time a commit of the history, other than a merge, changed the file. -/
def LastChange (db : Objects) (ids : List Nat) (p : Str) (t : Time) : Prop :=
  TouchedAt db ids p t ∧ ∀ t', TouchedAt db ids p t' → NotLater t' t

/-- The kind of a reference: issues of GitHub and GitLab are reports; other pages with `/advisories/` in their
address, and those of cve.org, are advisories; crates.io pages are packages. -/
def kindOf (url : Str) : RefKind → Prop
  | .report => IssuePage url
  | .advisory => ¬ IssuePage url ∧ AdvisoryPage url
  | .package => ¬ IssuePage url ∧ ¬ AdvisoryPage url ∧ "://crates.io/crates/".toList <:+: url
  | .web => ¬ IssuePage url ∧ ¬ AdvisoryPage url ∧ ¬ "://crates.io/crates/".toList <:+: url
where
  /-- issue trackers -/
  IssuePage (url : Str) : Prop :=
    ("://github.com/".toList <:+: url ∨ "://gitlab.".toList <:+: url) ∧ "/issues/".toList <:+: url
  /-- advisory databases -/
  AdvisoryPage (url : Str) : Prop := "/advisories/".toList <:+: url ∨ "://www.cve.org/".toList <:+: url

/-- The severity entry carries this vector, under the name of the version it belongs to. -/
def SeverityOf : OsvSeverity → Cvss.Cvss → Prop
  | .v2 v, .v20 w => v = w
  | .v3 b, .v30 w => b = w
  | .v3 b, .v31 w => b = w
  | .v4 v, .v40 w => v = w
  | _, _ => False

/-- The exported record says what the advisory says. -/
structure Conveys (a : AdvisoryFile) (o : OsvAdvisory) : Prop where
  id : o.id = a.metadata.id
  published : o.published = a.metadata.date.text ++ "T12:00:00Z".toList
  withdrawn : o.withdrawn = a.metadata.withdrawn.map fun d => d.text ++ "T12:00:00Z".toList
  aliases : o.aliases = a.metadata.aliases
  related : o.related = a.metadata.related
  summary : o.summary = a.metadata.title
  details : o.details = a.metadata.description
  license : o.license = a.metadata.license.spdx
  /-- The references: the crate, the advisory's page, the advisory's URL, its references. -/
  references : o.references.map (fun r => r.url.text) =
    ["https://crates.io/crates/".toList ++ a.metadata.package,
     "https://rustsec.org/advisories/".toList ++ a.metadata.id.string ++ ".html".toList] ++
    a.metadata.url.toList.map Url.text ++ a.metadata.references.map Url.text
  kinds : ∀ r ∈ o.references, kindOf r.url.text r.kind
  noSeverity : o.severity = [] ↔ a.metadata.cvss = none
  severity : ∀ c, a.metadata.cvss = some c → ∃ s, o.severity = [s] ∧ SeverityOf s c ∧
    Cvss.Cvss.fromStr s.score = .ok c
  /-- One package is affected. -/
  affected : ∃ p, o.affected = [p] ∧
    p.ecosystem = "crates.io".toList ∧ p.name = a.metadata.package ∧
    p.purl = "pkg:cargo/".toList ++ a.metadata.package ∧
    p.categories = a.metadata.categories ∧ p.cvss = a.metadata.cvss ∧
    p.informational = a.metadata.informational ∧
    (∀ af, a.affected = some af → p.arch = af.arch ∧ p.os = af.os ∧
      (∀ f, f ∈ p.functions ↔ ∃ reqs, (f, reqs) ∈ af.functions) ∧ p.functions.Nodup) ∧
    (a.affected = none → p.arch = [] ∧ p.os = [] ∧ p.functions = []) ∧
    /- The events, read as OSV prescribes, select the vulnerable versions. -/
    p.events.Pairwise (fun x y => PrecLE (eventVersion x) (eventVersion y)) ∧
    ∀ v, a.versions.isVulnerable v = .ok (evalEvents v p.events false)

/-- The advisory is exported: its informational kind, if any, is one of those the format knows. -/
def Exported (i : Option Informational) : Prop :=
  i = none ∨ i = some .notice ∨ i = some .unmaintained ∨ i = some .unsound

/-- An advisory that can be exported: it was parsed, its package and ID consist of ASCII letters, digits, `-`,
`_` and `+`, and its dates are written `YYYY-MM-DD`. -/
structure PlainAdvisory (L : AdvLib) (text : Str) (a : AdvisoryFile) : Prop where
  parsed : AdvisoryFile.fromStr L text = .ok a
  id : ∀ c ∈ a.metadata.id.string, nameChar c
  package : ∀ c ∈ a.metadata.package, nameChar c
  date : IsoDate a.metadata.date
  withdrawn : ∀ d, a.metadata.withdrawn = some d → IsoDate d

/-- The laws of the libraries: requirements that were parsed are well-formed, `jiff` reads ISO dates, `url` accepts
the addresses of the pages. -/
structure ExportLaws (L : AdvLib) : Prop where
  req : ∀ s r, L.req s = some r → ReqWF r
  civil : IsoLaw L.civil
  page : PageLaw L.url

/-- The commit time can be written: the year is between 0 and 9999 and the offset is below 26 hours. -/
def Representable (cal : Int → Int × Nat × Nat) (t : Time) : Prop :=
  (-377705116800 ≤ t.seconds ∧ t.seconds ≤ 253402300799) ∧ (-93599 ≤ t.offset ∧ t.offset ≤ 93599) ∧
  0 ≤ (cal (t.seconds / 86400)).1 ∧ (cal (t.seconds / 86400)).1 ≤ 9999

/-- The versions are `*`: an advisory that affects no version. -/
def NothingAffected (vs : Versions) : Prop := vs.patched ++ vs.unaffected = [⟨[]⟩]

/-- The path of a crate's file in git. -/
def cratePath (p : Path) : Str := "crates/".toList ++ p.dir ++ '/' :: p.file

end Verif.Spec
