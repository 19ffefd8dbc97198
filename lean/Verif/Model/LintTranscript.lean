import Verif.Model.AdminLint

/-!
# What `rustsec-admin lint` prints

Model of the output of `admin/src/linter.rs` and of the messages about user mentions of `rustsec/src/advisory/linter.rs`.  The
other messages of the linter are kept as findings, and colours are left out.
-/

namespace Verif.AdminLint

open Verif.Adv Verif.Db Verif.Lint

/-- The path of an advisory file below the checkout. -/
structure Place where
  collection : Collection
  dir : Str
  file : Str
  deriving DecidableEq, Repr

/-- What is printed about a file (`linter.rs:105-120`). -/
inductive Notice where
  /-- `linter.rs:107`: `Linted ok: <path>`. -/
  | linted (path : Place)
  /-- `linter.rs:113-119`: `<path> contained the following lint errors:`, and the errors. -/
  | faulty (path : Place) (errors : List Finding)
  deriving DecidableEq, Repr

/-- Why the run was given up. -/
inductive Blame where
  /-- `linter.rs:59`: the directory cannot be listed. -/
  | unlisted (c : Collection)
  /-- `linter.rs:65-72`: `unexpected file in`. -/
  | strayFile (c : Collection) (name : Str)
  /-- `linter.rs:94-101`: `unexpected entry in`. -/
  | strayEntry (path : Place)
  /-- `linter.rs:103-104`: the advisory cannot be loaded, or cannot be linted. -/
  | rejected (path : Place)
  /-- `linter.rs:155-164`: `crates.io package name does not match package name in advisory for`. -/
  | otherName (package : Str) (id : Id)
  /-- `linter.rs:166-175`: `crates.io package name does not exist for`. -/
  | noCrate (package : Str) (id : Id)
  /-- `linter.rs:176-185`: `failed to fetch crates.io metadata for`. -/
  | noAnswer (package : Str) (id : Id)
  deriving DecidableEq, Repr

/-- How a run is cut short. -/
inductive Halt where
  | stopped (b : Blame)
  | panicked
  deriving DecidableEq, Repr

/-- How the run ends. -/
inductive End where
  | counted (invalid : Nat)
  | halted (h : Halt)
  deriving DecidableEq, Repr

/-- What is printed, and the result or how the run was cut short. -/
abbrev Said (α : Type) := List Notice × (α ⊕ Halt)

/-- `linter.rs:87-104`: the advisory of a file and its errors. -/
def lintItem (L : AdvLib) (c : Collection) (dir : Str) : Item → (AdvisoryFile × List Finding) ⊕ Halt
  | .other name => .inr (.stopped (.strayEntry ⟨c, dir, name⟩))
  | .file name none => .inr (.stopped (.rejected ⟨c, dir, name⟩))
  | .file name (some text) =>
    match AdvisoryFile.fromStr L text with
    | .err => .inr (.stopped (.rejected ⟨c, dir, name⟩))
    | .panic => .inr .panicked
    | .ok a =>
      match lintFile L name (some text) with
      | .err => .inr (.stopped (.rejected ⟨c, dir, name⟩))
      | .panic => .inr .panicked
      | .ok (_, findings) => .inl (a, findings)

/-- `linter.rs:105-120`: what is printed about one file. -/
def noticeOf (verbose : Bool) (p : Place) (errors : List Finding) : List Notice :=
  if errors.isEmpty then (if verbose then [.linted p] else []) else [.faulty p errors]

/-- `linter.rs:75-78`: the files of a package directory; the advisories, and whether they have errors. -/
def sayItems (L : AdvLib) (verbose : Bool) (c : Collection) (dir : Str) : List Item → Said (List (AdvisoryFile × Bool))
  | [] => ([], .inl [])
  | i :: is =>
    match lintItem L c dir i with
    | .inr e => ([], .inr e)
    | .inl (a, fs) =>
      let r := sayItems L verbose c dir is
      (noticeOf verbose ⟨c, dir, i.name⟩ fs ++ r.1,
        match r.2 with
        | .inl as => .inl ((a, !fs.isEmpty) :: as)
        | .inr e => .inr e)

/-- `linter.rs:61-78`: the entries of a collection directory. -/
def sayEntries (L : AdvLib) (verbose : Bool) (c : Collection) : List Entry → Said (List (AdvisoryFile × Bool))
  | [] => ([], .inl [])
  | .other name :: _ => ([], .inr (.stopped (.strayFile c name)))
  | .dir dir items :: es =>
    let r := sayItems L verbose c dir (sortedBy Item.name items)
    match r.2 with
    | .inr e => (r.1, .inr e)
    | .inl as =>
      let q := sayEntries L verbose c es
      (r.1 ++ q.1,
        match q.2 with
        | .inl bs => .inl (as ++ bs)
        | .inr e => .inr e)

/-- `linter.rs:141-187`: the first advisory whose name is not right. -/
def blameNames (lookup : Str → Lookup) : List AdvisoryFile → Option Blame
  | [] => none
  | a :: as =>
    if a.metadata.expectDeleted then blameNames lookup as
    else
      match lookup a.metadata.package with
      | .found name =>
        if name ≠ a.metadata.package then some (.otherName a.metadata.package a.metadata.id) else blameNames lookup as
      | .missing => some (.noCrate a.metadata.package a.metadata.id)
      | .failed => some (.noAnswer a.metadata.package a.metadata.id)

/-- `linter.rs:58-81`: one collection; how many advisories have errors. -/
def sayCollection (E : LintEnv) (verbose : Bool) (lookup : Str → Lookup) (c : Collection) (listing : Option (List Entry)) :
    Said Nat :=
  match listing with
  | none => ([], .inr (.stopped (.unlisted c)))
  | some entries =>
    let r := sayEntries E.adv verbose c (sortedBy Entry.name entries)
    match r.2 with
    | .inr e => (r.1, .inr e)
    | .inl as =>
      match (if c = .crates ∧ E.lockFree = true then blameNames lookup (as.map Prod.fst) else none) with
      | some b => (r.1, .inr (.stopped b))
      | none => (r.1, .inl (as.countP Prod.snd))

/-- `linter.rs:57-84`: `Linter::lint`: what it prints, and how it ends. -/
def sayLint (E : LintEnv) (verbose : Bool) (lookup : Str → Lookup) (ch : Checkout) : List Notice × End :=
  let r := sayCollection E verbose lookup .crates ch.crates
  match r.2 with
  | .inr e => (r.1, .halted e)
  | .inl n =>
    let q := sayCollection E verbose lookup .rust ch.rust
    match q.2 with
    | .inr e => (r.1 ++ q.1, .halted e)
    | .inl m => (r.1 ++ q.1, .counted (n + m))

/-! ## User mentions -/

/-- `rustsec/src/advisory/linter.rs:79-95`: the user that a part of a line mentions. -/
def partUser (part : Str) : Option Str :=
  match part with
  | [] => none
  | c :: _ =>
    if !asciiAlnum c then none
    else
      match firstWord part with
      | none => none
      | some username =>
        if username.any fun c => c == '.' || c == '@' || c == '`' then none
        else some (username.reverse.dropWhile (· == ')')).reverse

/-- `rustsec/src/advisory/linter.rs:73-97`: the user that a line mentions first. -/
def lineUser (line : Str) : Option Str := ((splitInclusive '@' line).drop 1).findSome? partUser

/-- `rustsec/src/advisory/linter.rs:70-110`: the users and the line numbers of the messages, for lines numbered from `i`. -/
def mentionNotes (front : Nat) (i : Nat) : List Str → List (Str × Nat)
  | [] => []
  | l :: ls =>
    match lineUser l with
    | some user => (user, front + 4 + i) :: mentionNotes front (i + 1) ls
    | none => mentionNotes front (i + 1) ls

/-- `rustsec/src/advisory/linter.rs:68-111`: `bare @<user> in advisory on line <number>`. -/
def mentionMessages (parts : Parts) : List (Str × Nat) :=
  if parts.markdown.contains '@' then mentionNotes (lines parts.frontMatter).length 0 (lines parts.markdown) else []

end Verif.AdminLint
