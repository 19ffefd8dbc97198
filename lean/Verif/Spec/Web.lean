import Verif.Model.Web
import Verif.Spec.AdvisoryFile

/-!
# Specification of the web site (C70)
-/

namespace Verif.Spec

open Verif.Adv Verif.Web Verif.Git Verif.Export Verif.Lock

/-- The advisory with the dates at which its file was added and last changed. -/
structure Dated (E : WebEnv) (a : AdvisoryFile) (d : Data) : Prop where
  advisory : d.advisory = a
  dates : ∃ c path, a.metadata.collection = some c ∧
    path = gitPath ⟨c, a.metadata.package, a.metadata.id.string ++ ".md".toList⟩ ∧ E.exp.tracked path = true ∧
    E.exp.modTimes.cdateForPath E.exp.cal E.exp.adv.civil path = .ok d.created ∧
    E.exp.modTimes.mdateForPath E.exp.cal E.exp.adv.civil path = .ok d.modified

/-- The title that lists show for an advisory. -/
inductive TitleOf (a : AdvisoryFile) : Str → Prop
  | notice : a.metadata.informational = some .notice →
      TitleOf a (a.metadata.id.string ++ ": Security notice about ".toList ++ a.metadata.package)
  | unmaintained : a.metadata.informational = some .unmaintained →
      TitleOf a (a.metadata.id.string ++ ": ".toList ++ a.metadata.package ++ " is unmaintained".toList)
  | unsound : a.metadata.informational = some .unsound →
      TitleOf a (a.metadata.id.string ++ ": Unsoundness in ".toList ++ a.metadata.package)
  | other (s : Str) : a.metadata.informational = some (.other s) →
      TitleOf a (a.metadata.id.string ++ ": ".toList ++ a.metadata.package ++ " is ".toList ++ s)
  | malicious : a.metadata.informational = none → .malicious ∈ a.metadata.categories →
      TitleOf a (a.metadata.id.string ++ ": ".toList ++ a.metadata.package ++ " contained malicious code".toList)
  | vulnerability : a.metadata.informational = none → .malicious ∉ a.metadata.categories →
      TitleOf a (a.metadata.id.string ++ ": Vulnerability in ".toList ++ a.metadata.package)

/-- No entry is followed by one of a later date. -/
def NewestFirst (ds : List Data) : Prop := ds.Pairwise fun a b => strCmp a.created.text b.created.text ≠ .lt

/-- The list shows exactly these advisories, as often as they occur here, the newest first, with their titles;
advisories of the same date are in the order given here. -/
structure ListsAll (ds : List Data) (l : Listing) : Prop where
  same : (l.map Prod.fst).Perm ds
  order : NewestFirst (l.map Prod.fst)
  stable : ∀ t, (l.map Prod.fst).filter (fun d => decide (d.created.text = t)) =
    ds.filter fun d => decide (d.created.text = t)
  titles : ∀ e ∈ l, TitleOf e.1.advisory e.2

/-- The package of an advisory. -/
def packageOf (d : Data) : Str := d.advisory.metadata.package

/-- The address of a keyword: everything but ASCII letters, digits, `-` and `_` becomes `-`. -/
def Slug (keyword slug : Str) : Prop :=
  List.Forall₂ (fun c c' => c' =
    if 'a' ≤ c ∧ c ≤ 'z' ∨ 'A' ≤ c ∧ c ≤ 'Z' ∨ '0' ≤ c ∧ c ≤ '9' ∨ c = '-' ∨ c = '_' then c else '-') keyword slug

/-- The advisory has a keyword with this address. -/
def HasKeyword (d : Data) (slug : Str) : Prop := ∃ k ∈ d.advisory.metadata.keywords, Slug k slug

/-- The advisory is in the category of this name. -/
def HasCategory (d : Data) (name : Str) : Prop := ∃ c ∈ d.advisory.metadata.categories, c.name = name

/-- The file of a group. -/
def htmlFile (folder : String) (key : Str) : SitePath := (folder.toList, key ++ ".html".toList)

/-- The JSON file of a package. -/
def jsonFile (key : Str) : SitePath := ("packages".toList, key ++ ".json".toList)

/-- What the record of an advisory is made from (C67). -/
def RecordOf (E : WebEnv) (d : Data) (o : OsvAdvisory) : Prop :=
  ∃ c path, d.advisory.metadata.collection = some c ∧
    path = gitPath ⟨c, d.advisory.metadata.package, d.advisory.metadata.id.string ++ ".md".toList⟩ ∧
    E.exp.tracked path = true ∧
    fromRustsec E.exp.cal E.exp.adv.url d.advisory E.exp.modTimes path = .ok o

/-- What an index lists: these items, each once, sorted by name without regard to case. -/
structure IndexOf (E : WebEnv) (P : ListItem → Prop) (items : List ListItem) : Prop where
  names : (items.map ListItem.name).Nodup
  mem : ∀ i, i ∈ items ↔ P i
  sorted : items.Pairwise fun a b => strCmp (E.lower a.name) (E.lower b.name) ≠ .gt

/-- How often the advisory is in the category of this name. -/
def timesIn (d : Data) (k : Str) : Nat := d.advisory.metadata.categories.countP fun c => decide (c.name = k)

/-- What an entry of the feed says about its advisory. -/
structure EntryFor (e : FeedEntry) : Prop where
  url : e.url = "https://rustsec.org/advisories/".toList ++ e.data.advisory.metadata.id.string ++ ".html".toList
  title : TitleOf e.data.advisory e.title
  published : e.published = e.data.created.text ++ "T12:00:00+00:00".toList
  updated : e.updated = e.data.modified.text ++ "T12:00:00+00:00".toList
  categories : e.categories = e.data.advisory.metadata.categories.map Category.name

/-- The date can be shown. -/
def ShowsDate (E : WebEnv) (t : DateText) : Prop :=
  ∃ y m n, t.year = .ok y ∧ t.month = .ok m ∧ t.day = .ok n ∧ E.ymd y m n = true

/-- The dates of the advisory can be shown, and it has a record (C67). -/
structure Presentable (E : WebEnv) (d : Data) : Prop where
  date : ShowsDate E d.advisory.metadata.date
  created : ShowsDate E d.created
  modified : ShowsDate E d.modified
  day : ∃ k, E.days d.created.text = some k
  published : E.stamp (d.created.text ++ "T12:00:00+00:00".toList) = true
  updated : E.stamp (d.modified.text ++ "T12:00:00+00:00".toList) = true
  record : ∃ o, RecordOf E d o

/-- What is assumed of day numbers: on dates written `YYYY-MM-DD` they grow with the date. -/
def DayLaw (days : Str → Option Int) : Prop :=
  ∀ s y m d s' y' m' d' n n', IsoText s y m d → IsoText s' y' m' d' → days s = some n → days s' = some n' →
    (y < y' ∨ y = y' ∧ (m < m' ∨ m = m' ∧ d ≤ d')) → n ≤ n'

/-- The ID, an alias or a related ID of the advisory is this, up to case. -/
def Answers (E : WebEnv) (d : Data) (term : Str) : Prop :=
  ∃ x, (x ∈ d.advisory.metadata.aliases ∨ x ∈ d.advisory.metadata.related ∨ x = d.advisory.metadata.id) ∧
    E.lower x.string = term

end Verif.Spec
