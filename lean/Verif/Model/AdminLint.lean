import Verif.Model.Assigner
import Verif.Model.Linter
import Mathlib.Data.List.Sort

/-!
# `rustsec-admin lint`

Model of `admin/src/linter.rs` and `admin/src/commands/lint.rs`.  A checkout is the listings of the two collection
directories; package directories can always be listed, and there are no symbolic links.
-/

namespace Verif.AdminLint

open Verif.Adv Verif.Db Verif.Assign Verif.Lint Verif.Lock

/-- An entry of a package directory: a regular file, with its text if it can be read as UTF-8, or something else. -/
inductive Item where
  | file (name : Str) (text : Option Str)
  | other (name : Str)
  deriving DecidableEq, Repr

/-- Its name. -/
def Item.name : Item → Str
  | .file n _ => n
  | .other n => n

/-- An entry of a collection directory: a package directory or something else. -/
inductive Entry where
  | dir (name : Str) (items : List Item)
  | other (name : Str)
  deriving DecidableEq, Repr

/-- Its name. -/
def Entry.name : Entry → Str
  | .dir n _ => n
  | .other n => n

/-- A checkout of the advisory database; `none` is a directory that cannot be listed. -/
structure Checkout where
  crates : Option (List Entry)
  rust : Option (List Entry)

/-- The directory of a collection. -/
def Checkout.listing (c : Checkout) : Collection → Option (List Entry)
  | .crates => c.crates
  | .rust => c.rust

/-- The answer of the registry for one name (`Result<Option<IndexKrate>, Error>`, the crate's own name kept; a name
that is absent from the answers counts as missing, `linter.rs:166`). -/
inductive Lookup where
  | failed
  | missing
  | found (name : Str)
  deriving DecidableEq, Repr

/-- What the command works with: parsers, the crates.io index (`none` if it cannot be opened, `lib.rs:24-34`) and
whether cargo's package lock is free (`lock.rs:8-23`; the code does not wait for it). -/
structure LintEnv where
  adv : AdvLib
  sev : Cvss.Cvss → Severity
  index : Option (Str → Lookup)
  lockFree : Bool

/-- What `Database::open` sees of a file. -/
def Item.toFile (L : AdvLib) (sev : Cvss.Cvss → Severity) : Item → File
  | .file name (some text) => ⟨name, loadText L sev text⟩
  | .file name none => ⟨name, .err⟩
  | .other name => ⟨name, .err⟩

/-- What `Database::open` sees of an entry. -/
def Entry.toDir (L : AdvLib) (sev : Cvss.Cvss → Severity) : Entry → DirEntry
  | .dir name items => .dir name (items.map (Item.toFile L sev))
  | .other _ => .notDir

/-- What `Database::open` sees of a checkout. -/
def Checkout.tree (L : AdvLib) (sev : Cvss.Cvss → Severity) (c : Checkout) : Tree :=
  { crates := c.crates.map (List.map (Entry.toDir L sev)), rust := c.rust.map (List.map (Entry.toDir L sev)) }

/-- `linter.rs:193-198`: `read_dir_sorted`, on the names. -/
def sortedBy {α : Type} (name : α → Str) (l : List α) : List α :=
  l.insertionSort fun a b => strCmp (name a) (name b) ≠ .gt

/-- `linter.rs:87-123`: `lint_advisory`; the advisory, and whether the linter found anything. -/
def lintAdvisory (L : AdvLib) : Item → Outcome (AdvisoryFile × Bool)
  | .other _ => .err
  | .file _ none => .err
  | .file name (some text) =>
    match AdvisoryFile.fromStr L text with
    | .err => .err
    | .panic => .panic
    | .ok a =>
      match lintFile L name (some text) with
      | .err => .err
      | .panic => .panic
      | .ok (_, findings) => .ok (a, !findings.isEmpty)

/-- `linter.rs:61-75`: one entry of a collection directory; a stray file is an error. -/
def lintEntry (L : AdvLib) : Entry → Outcome (List (AdvisoryFile × Bool))
  | .other _ => .err
  | .dir _ items => Outcome.mapList (lintAdvisory L) (sortedBy Item.name items)

/-- `linter.rs:141-187`: the checks of one advisory against crates.io. -/
def checkName (lookup : Str → Lookup) (a : AdvisoryFile) : Outcome Unit :=
  if a.metadata.expectDeleted then .ok ()
  else
    match lookup a.metadata.package with
    | .found name => if name ≠ a.metadata.package then .err else .ok ()
    | .missing => .err
    | .failed => .err

/-- `linter.rs:141-187`: the loop. -/
def checkNames (lookup : Str → Lookup) : List AdvisoryFile → Outcome Unit
  | [] => .ok ()
  | a :: as =>
    match checkName lookup a with
    | .ok () => checkNames lookup as
    | .err => .err
    | .panic => .panic

/-- `linter.rs:126-190`: `crates_io_lints`; skipped, with a message only, if the lock is taken. -/
def cratesIoLints (E : LintEnv) (lookup : Str → Lookup) (as : List AdvisoryFile) : Outcome Unit :=
  if E.lockFree then checkNames lookup as else .ok ()

/-- `linter.rs:58-81`: one collection; how many advisories have findings. -/
def lintCollection (E : LintEnv) (lookup : Str → Lookup) (c : Collection) (listing : Option (List Entry)) :
    Outcome Nat :=
  match listing with
  | none => .err
  | some entries =>
    match Outcome.mapList (lintEntry E.adv) (sortedBy Entry.name entries) with
    | .err => .err
    | .panic => .panic
    | .ok rs =>
      let as := rs.flatten
      match (if c = .crates then cratesIoLints E lookup (as.map Prod.fst) else .ok ()) with
      | .err => .err
      | .panic => .panic
      | .ok () => .ok (as.countP Prod.snd)

/-- `linter.rs:57-84`: `Linter::lint`: the collections `crates` and `rust`. -/
def lint (E : LintEnv) (lookup : Str → Lookup) (c : Checkout) : Outcome Nat :=
  match lintCollection E lookup .crates c.crates with
  | .err => .err
  | .panic => .panic
  | .ok n =>
    match lintCollection E lookup .rust c.rust with
    | .err => .err
    | .panic => .panic
    | .ok m => .ok (n + m)

/-- `commands/lint.rs:26-65`: the command; `ok` is exit status 0, `err` is 1.  More than one path is
`unreachable!()`, though the argument parser lets it through. -/
def lintCommand (E : LintEnv) (at_ : Str → Checkout) (paths : List Str) : Outcome Unit :=
  match paths with
  | _ :: _ :: _ => .panic
  | _ =>
    let c := at_ (paths.head?.getD ".".toList)
    match Database.open (c.tree E.adv E.sev) with
    | .err => .err
    | .panic => .panic
    | .ok db =>
      match E.index with
      | none => .err
      | some lookup =>
        if db.iter.isEmpty then .err
        else
          match lint E lookup c with
          | .err => .err
          | .panic => .panic
          | .ok n => if n = 0 then .ok () else .err

end Verif.AdminLint
