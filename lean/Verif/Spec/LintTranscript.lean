import Verif.Model.LintTranscript
import Verif.Spec.AdminLint

/-!
# Specification of the output of `rustsec-admin lint` (C95)
-/

namespace Verif.Spec

open Verif.Adv Verif.Db Verif.Lock Verif.Lint Verif.AdminLint

/-- The checkout has this file, with this text. -/
def FileAt (ch : Checkout) (p : Place) (text : Str) : Prop :=
  ∃ entries items, ch.listing p.collection = some entries ∧ .dir p.dir items ∈ entries ∧ .file p.file (some text) ∈ items

/-- The file holds an advisory, and these are its problems (C24), each at least once. -/
def ProblemsOf (L : AdvLib) (p : Place) (text : Str) (errors : List Finding) : Prop :=
  ∃ a parts t, AdvisoryOf L text a ∧ WellFormedFile text parts ∧ L.toml parts.frontMatter = some t ∧
    ∀ f, f ∈ errors ↔ Problem a t parts.markdown (some (decide (DraftName p.file))) f

/-- The file that a notice is about. -/
def placeOf : Notice → Place
  | .linted p => p
  | .faulty p _ => p

/-- The order of paths: `crates` before `rust`, then by directory, then by file. -/
def PathBefore (p q : Place) : Prop :=
  (p.collection = .crates ∧ q.collection = .rust) ∨
  (p.collection = q.collection ∧ (strCmp p.dir q.dir = .lt ∨ (p.dir = q.dir ∧ strCmp p.file q.file = .lt)))

/-- No two entries of a directory have the same name. -/
structure NamesDistinct (ch : Checkout) : Prop where
  dirs : ∀ c entries, ch.listing c = some entries → (entries.map Entry.name).Nodup
  files : ∀ c entries dir items, ch.listing c = some entries → .dir dir items ∈ entries → (items.map Item.name).Nodup

/-- The same entry of a directory, its own entries perhaps listed in another order. -/
inductive SameEntry : Entry → Entry → Prop
  | dir (name : Str) {items items' : List Item} (h : items.Perm items') : SameEntry (.dir name items) (.dir name items')
  | other (name : Str) : SameEntry (.other name) (.other name)

/-- The same entries, listed in another order. -/
inductive SameListing : Option (List Entry) → Option (List Entry) → Prop
  | none : SameListing .none .none
  | some {l l' m : List Entry} (h : l.Perm m) (h' : List.Forall₂ SameEntry m l') : SameListing (.some l) (.some l')

/-- The same files, listed in another order. -/
def SameFiles (ch ch' : Checkout) : Prop := ∀ c, SameListing (ch.listing c) (ch'.listing c)

/-- There is reason for the blame. -/
inductive Blamed (E : LintEnv) (lookup : Str → Lookup) (ch : Checkout) : Blame → Prop
  | unlisted {c : Collection} (h : ch.listing c = none) : Blamed E lookup ch (.unlisted c)
  | strayFile {c : Collection} {entries : List Entry} {name : Str} (h : ch.listing c = some entries)
      (he : .other name ∈ entries) : Blamed E lookup ch (.strayFile c name)
  | strayEntry {p : Place} {entries : List Entry} {items : List Item} (h : ch.listing p.collection = some entries)
      (he : .dir p.dir items ∈ entries) (hi : .other p.file ∈ items) : Blamed E lookup ch (.strayEntry p)
  | unreadable {p : Place} {entries : List Entry} {items : List Item} (h : ch.listing p.collection = some entries)
      (he : .dir p.dir items ∈ entries) (hi : .file p.file none ∈ items) : Blamed E lookup ch (.rejected p)
  | rejected {p : Place} {text : Str} (h : FileAt ch p text)
      (hr : ¬ (MdName p.file ∧ ∃ errors, ProblemsOf E.adv p text errors)) : Blamed E lookup ch (.rejected p)
  | otherName {p : Place} {text name : Str} {a : AdvisoryFile} (h : FileAt ch p text) (hc : p.collection = .crates)
      (ha : AdvisoryOf E.adv text a) (hd : a.metadata.expectDeleted = false) (hl : lookup a.metadata.package = .found name)
      (hn : name ≠ a.metadata.package) : Blamed E lookup ch (.otherName a.metadata.package a.metadata.id)
  | noCrate {p : Place} {text : Str} {a : AdvisoryFile} (h : FileAt ch p text) (hc : p.collection = .crates)
      (ha : AdvisoryOf E.adv text a) (hd : a.metadata.expectDeleted = false) (hl : lookup a.metadata.package = .missing) :
      Blamed E lookup ch (.noCrate a.metadata.package a.metadata.id)
  | noAnswer {p : Place} {text : Str} {a : AdvisoryFile} (h : FileAt ch p text) (hc : p.collection = .crates)
      (ha : AdvisoryOf E.adv text a) (hd : a.metadata.expectDeleted = false) (hl : lookup a.metadata.package = .failed) :
      Blamed E lookup ch (.noAnswer a.metadata.package a.metadata.id)

/-- A user mention: after an `@` a word that starts with an ASCII letter or digit and has no `.`, `@` and backquote; the user
is the word without the `)` at its end. -/
def Mentions (post user : Str) : Prop :=
  (∃ c, post.head? = some c ∧ asciiAlnum c = true) ∧
  (∀ c ∈ post.takeWhile (fun c => !isWhite c), c ≠ '.' ∧ c ≠ '@' ∧ c ≠ '`') ∧
  ∃ n, post.takeWhile (fun c => !isWhite c) = user ++ List.replicate n ')' ∧ user.getLast? ≠ some ')'

/-- The first user that this line of the text (the first has number 0) mentions. -/
def FirstMention (text : Str) (n : Nat) (user : Str) : Prop :=
  ∃ pre post, text = pre ++ '@' :: post ∧ pre.count '\n' = n ∧ Mentions post user ∧
    ∀ pre' post' user', text = pre' ++ '@' :: post' → pre'.count '\n' = n → Mentions post' user' → pre.length ≤ pre'.length

/-- The usual layout of an advisory file: no blank line before the front matter nor after it, one before the title. -/
def UsualLayout (text : Str) (parts : Parts) : Prop :=
  text = "```toml\n".toList ++ parts.frontMatter ++ "\n```\n\n".toList ++ parts.markdown

end Verif.Spec
