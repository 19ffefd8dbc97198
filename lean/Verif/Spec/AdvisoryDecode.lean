import Verif.Spec.AdvisoryFile
import Verif.Spec.Versions

/-!
# Specification of the fields of an advisory file (C68)

`L.toml`, `L.req`, `L.civil`, `L.url` stand for the TOML, requirement, date and URL parsers.
-/

namespace Verif.Spec

open Verif.Adv Verif.Lock Verif.Osv Verif.Semver

/-- The key holds a text that reads as `x`. -/
def FieldIs {α : Type} (t : TomlTable) (key : String) (reads : Str → α → Prop) (x : α) : Prop :=
  ∃ s, t.lookup key.toList = some (.str s) ∧ reads s x

/-- The key holds a text that reads as the value; without the key there is no value. -/
def FieldOpt {α : Type} (t : TomlTable) (key : String) (reads : Str → α → Prop) : Option α → Prop
  | some x => FieldIs t key reads x
  | none => t.lookup key.toList = none

/-- The elements of the array are texts that read as the elements of the list, in order. -/
def ArrayIs {α : Type} (v : Toml) (reads : Str → α → Prop) (xs : List α) : Prop :=
  ∃ l, v = .arr l ∧ List.Forall₂ (fun e x => ∃ s, e = .str s ∧ reads s x) l xs

/-- The key holds such an array; without the key the list is empty. -/
def FieldList {α : Type} (t : TomlTable) (key : String) (reads : Str → α → Prop) (xs : List α) : Prop :=
  (t.lookup key.toList = none ∧ xs = []) ∨ ∃ v, t.lookup key.toList = some v ∧ ArrayIs v reads xs

/-- A text taken as it is. -/
def Verbatim (s x : Str) : Prop := s = x

/-- A text that is a requirement. -/
def ReadsReq (L : AdvLib) (s : Str) (r : VersionReq) : Prop := L.req s = some r

/-- The fields of `[advisory]`. -/
structure MetadataOf (L : AdvLib) (t : TomlTable) (md : FileMetadata) : Prop where
  id : FieldIs t "id" (fun s x => Id.fromStr s = .ok x) md.id
  package : FieldIs t "package" Verbatim md.package
  date : FieldIs t "date" (fun s x => DateText.fromStr L.civil s = .ok x) md.date
  aliases : FieldList t "aliases" (fun s x => Id.fromStr s = .ok x) md.aliases
  related : FieldList t "related" (fun s x => Id.fromStr s = .ok x) md.related
  collection : FieldOpt t "collection" (fun s x => Collection.fromStr s = some x) md.collection
  categories : FieldList t "categories" (fun s x => Category.fromStr s = x) md.categories
  keywords : FieldList t "keywords" Verbatim md.keywords
  cvss : FieldOpt t "cvss" (fun s x => Cvss.Cvss.fromStr s = .ok x) md.cvss
  informational : FieldOpt t "informational" (fun s x => Informational.fromStr s = x) md.informational
  references : FieldList t "references" (fun s x => Url.parse L.url s = some x) md.references
  source : FieldOpt t "source" (fun s x => SourceId.fromUrl L.url s = .ok x) md.source
  url : FieldOpt t "url" (fun s x => Url.parse L.url s = some x) md.url
  withdrawn : FieldOpt t "withdrawn" (fun s x => DateText.fromStr L.civil s = .ok x) md.withdrawn
  /-- Without a licence the advisory is in the public domain. -/
  license : (t.lookup "license".toList = none ∧ md.license = .ccZero10) ∨
    FieldIs t "license" (fun s x => x.spdx = s ∧ ∀ o, x = .other o → s ≠ "CC0-1.0".toList ∧ s ≠ "CC-BY-4.0".toList)
      md.license
  expectDeleted : (t.lookup "expect-deleted".toList = none ∧ md.expectDeleted = false) ∨
    t.lookup "expect-deleted".toList = some (.bool md.expectDeleted)

/-- The fields of `[affected]`. -/
structure AffectedOf (L : AdvLib) (t : TomlTable) (a : Affected) : Prop where
  arch : FieldList t "arch" Verbatim a.arch
  os : FieldList t "os" Verbatim a.os
  functions : (t.lookup "functions".toList = none ∧ a.functions = []) ∨
    ∃ m, t.lookup "functions".toList = some (.table m) ∧
      List.Forall₂ (fun e f => FunctionPath.fromStr e.1 = .ok f.1 ∧ ArrayIs e.2 (ReadsReq L) f.2) m a.functions

/-- The title and the description may not be given in the front matter (an empty text is tolerated). -/
def NotInToml (t : TomlTable) (key : String) : Prop :=
  t.lookup key.toList = none ∨ t.lookup key.toList = some (.str [])

/-- The advisory that a file contains: front matter and Markdown are split as in C22; the front matter, with the line
`[advisory]` in front unless it starts with it, is TOML; every field is what its key says; title and description
come from the Markdown; the version ranges are accepted. -/
structure AdvisoryOf (L : AdvLib) (text : Str) (a : AdvisoryFile) : Prop where
  contents : ∃ (parts : Parts) (front : Str) (t m v : TomlTable),
    WellFormedFile text parts ∧
    ("[advisory]".toList <+: parts.frontMatter ∧ front = parts.frontMatter ∨
      ¬ "[advisory]".toList <+: parts.frontMatter ∧ front = "[advisory]\n".toList ++ parts.frontMatter) ∧
    L.toml front = some t ∧
    t.lookup "advisory".toList = some (.table m) ∧ t.lookup "versions".toList = some (.table v) ∧
    MetadataOf L m a.metadata ∧ NotInToml m "title" ∧ NotInToml m "description" ∧
    a.metadata.title = parts.title ∧ a.metadata.description = parts.description ∧
    (t.lookup "affected".toList = none ∧ a.affected = none ∨
      ∃ ta af, t.lookup "affected".toList = some (.table ta) ∧ a.affected = some af ∧ AffectedOf L ta af) ∧
    (∃ w, v.lookup "patched".toList = some w ∧ ArrayIs w (ReadsReq L) a.versions.patched) ∧
    FieldList v "unaffected" (ReadsReq L) a.versions.unaffected ∧
    Versions.new a.versions.patched a.versions.unaffected = .ok a.versions

end Verif.Spec
