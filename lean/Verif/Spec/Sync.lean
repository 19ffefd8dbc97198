import Verif.Model.Sync
import Verif.Spec.AdvisoryFile
import Verif.Spec.Database
import Mathlib.Data.List.Dedup

/-!
# Specification of alias synchronisation (C56)
-/

namespace Verif.Spec

open Verif.Adv Verif.Db Verif.Assign Verif.Sync Verif.Lock

/-- A front matter that `toml_edit` can change without disturbing the file around it: it starts with the header,
no line of it starts with a fence, it does not end in white space or in a comment line. -/
structure PlainFront (fm : Str) : Prop where
  header : "[advisory]".toList <+: fm
  noFence : ∀ l ∈ splitC '\n' fm, ¬ "```".toList <+: l
  trimmed : ∀ c, fm.getLast? = some c → isWhite c = false
  noComment : ∀ l, (splitC '\n' fm).getLast? = some l → ¬ ['#'] <+: trimStart l

/-- The value of an array after the edit: an empty list leaves the old value. -/
def arrayAfter (old : Option Toml) (l : List Str) : Option Toml :=
  if l = [] then old else some (.arr (l.map .str))

/-- What is assumed of `toml_edit`: setting the arrays `aliases` and `related` of `[advisory]` to strings
without line breaks yields a text, ended by a line break, that reads as the same document except for these two
values.  (A front matter that ends in a comment line is left out: the line break would be missing.) -/
def EditLaw (L : SyncLib) : Prop :=
  ∀ (fm : Str) (t m : TomlTable) (al rel : List Str), PlainFront fm → L.adv.toml fm = some t →
    t.get "advisory" = some (.table m) → (∀ s ∈ al ++ rel, '\n' ∉ s) →
    ∃ body t' m', L.edit fm al rel = body ++ ['\n'] ∧ PlainFront body ∧ L.adv.toml body = some t' ∧
      t'.get "advisory" = some (.table m') ∧
      (∀ k, k ≠ "advisory" → t'.get k = t.get k) ∧
      (∀ k, k ≠ "aliases" → k ≠ "related" → TomlTable.get m' k = TomlTable.get m k) ∧
      TomlTable.get m' "aliases" = arrayAfter (TomlTable.get m "aliases") al ∧
      TomlTable.get m' "related" = arrayAfter (TomlTable.get m "related") rel

/-- A file that can be edited: its front matter starts with the header and does not end in a comment line, and
its aliases and related IDs have no line breaks. -/
structure EditableFile (L : AdvLib) (text : Str) (f : AdvisoryFile) : Prop where
  parses : AdvisoryFile.fromStr L text = .ok f
  header : ∀ parts, Parts.parse text = .ok parts → "[advisory]".toList <+: parts.frontMatter
  noComment : ∀ parts, Parts.parse text = .ok parts → ∀ l, (splitC '\n' parts.frontMatter).getLast? = some l →
    ¬ ['#'] <+: trimStart l
  oneLine : ∀ i ∈ f.metadata.aliases ++ f.metadata.related, '\n' ∉ i.string

/-- The ID was parsed from a text without line breaks. -/
def PlainId (i : Id) : Prop := Id.fromStr i.string = .ok i ∧ '\n' ∉ i.string

/-- The IDs are listed in increasing order of their texts, without duplicates. -/
def SortedIds (l : List Id) : Prop := (l.map Id.string).Pairwise fun a b => strCmp a b = .lt

/-- The advisories agree in everything but `aliases` and `related`, and have the same related IDs. -/
structure SameButAliases (f f' : AdvisoryFile) : Prop where
  same : f' = { f with metadata := { f.metadata with
    aliases := f'.metadata.aliases, related := f'.metadata.related } }
  related : ∀ i, i ∈ f'.metadata.related ↔ i ∈ f.metadata.related

/-- The record names the package of crates.io. -/
def NamesCrate (o : OsvRecord) (package : Str) : Prop := ("crates.io".toList, package) ∈ o.affected

/-- A reference of the record is a RustSec URL whose 17 characters after the prefix are this ID. -/
def RefersTo (o : OsvRecord) (i : Id) : Prop :=
  ∃ url ∈ o.references, ∃ rest, url = "https://rustsec.org/advisories/".toList ++ rest ∧
    17 ≤ rest.length ∧ Id.fromStr (rest.take 17) = .ok i

/-- The record is linked to the advisory: by a reference, or because the advisory lists it as an alias. -/
def LinkedTo (o : OsvRecord) (a : Advisory) : Prop := RefersTo o a.metadata.id ∨ o.id ∈ a.metadata.aliases

/-- The alias `i` is to be added to the advisory `a`. -/
def ToAdd (osv : List OsvRecord) (a : Advisory) (i : Id) : Prop :=
  ∃ o ∈ osv, o.withdrawn = false ∧ LinkedTo o a ∧ NamesCrate o a.metadata.package ∧
    (i = o.id ∨ i ∈ o.aliases) ∧ (i.kind = .cve ∨ i.kind = .ghsa) ∧
    i ≠ a.metadata.id ∧ i ∉ a.metadata.aliases

/-- Where `sync` looks for the file of an advisory. -/
def fileOf (a : Advisory) : Path := ⟨.crates, a.metadata.package, a.metadata.id.string ++ ".md".toList⟩

/-- The database on disk is in order: one file per path, it opens, its advisories have RUSTSEC IDs, and their
files can be edited. -/
structure SyncReady (L : SyncLib) (sev : Cvss.Cvss → Severity) (d : Disk) (db : Database) : Prop where
  paths : (d.map Prod.fst).Nodup
  opens : d.open L.adv sev = .ok db
  rustsec : ∀ a ∈ db.iter, a.metadata.id.kind = .rustSec
  editable : ∀ a ∈ db.iter, ∀ t, (fileOf a, t) ∈ d → ∃ f, EditableFile L.adv t f

/-- The IDs of the record were parsed, and have no line breaks. -/
def PlainRecord (o : OsvRecord) : Prop := ∀ i ∈ o.aliases ++ [o.id], PlainId i

/-- The names of the crates.io packages of the record that are valid and known to crates.io, each once. -/
def reportedCrates (L : SyncLib) (o : OsvRecord) : List Str :=
  (((o.affected.filter fun a => decide (a.1 = "crates.io".toList)).map Prod.snd).dedup).filter fun c =>
    L.validName c && L.known c

/-- No reference of the record makes the program stop: each RustSec URL carries, in the 17 characters after the
prefix, the ID of an advisory of the database. -/
def GoodReferences (db : Database) (o : OsvRecord) : Prop :=
  ∀ url ∈ o.references, ∀ rest, url = "https://rustsec.org/advisories/".toList ++ rest →
    17 ≤ rest.length ∧ ∃ a ∈ db.iter, Id.fromStr (rest.take 17) = .ok a.metadata.id

end Verif.Spec
