import Verif.Model.AdminLint

/-!
# `rustsec-admin list-affected-versions`

Model of `admin/src/list_versions.rs` and `admin/src/commands/list_affected_versions.rs`.  The index of crates.io and the
text form of versions are arguments.
-/

namespace Verif.ListVersions

open Verif.Adv Verif.Db Verif.Assign Verif.AdminLint Verif.Semver Verif.Osv

/-- The answer of the registry (`Result<Option<IndexKrate>, Error>`, of the crate the texts of its versions). -/
inductive Answer where
  | failed
  | missing
  | found (versions : List Str)
  deriving DecidableEq, Repr

/-- What the command works with: parsers, the crates.io index (`none` if it cannot be opened, `lib.rs:24-34`), whether a
text is a possible crate name (`KrateName::try_from`), and whether cargo's package lock is free (`lock.rs:8-23`). -/
structure ListEnv where
  adv : AdvLib
  sev : Cvss.Cvss → Severity
  index : Option (Str → Answer)
  validName : Str → Bool
  version : Str → Option Version
  lockFree : Bool

/-- What is printed. -/
inductive Said where
  | loaded (id : Id) (package : Str)
  | line (text : Str)
  deriving DecidableEq

/-- What is printed, and how it ended. -/
structure ListRun where
  said : List Said := []
  result : Outcome Unit

/-- Something printed first. -/
def ListRun.after (s : List Said) (r : ListRun) : ListRun := { r with said := s ++ r.said }

/-- `list_versions.rs:51-58`: the versions of the crate. -/
def listEach (E : ListEnv) (a : Advisory) : List Str → ListRun
  | [] => { result := .ok () }
  | text :: rest =>
    match E.version text with
    | none => { result := .panic }
    | some v =>
      match a.versions.isVulnerable v with
      | .ok true => (listEach E a rest).after [.line (text ++ " vulnerable".toList)]
      | .ok false => (listEach E a rest).after [.line (text ++ " OK".toList)]
      | .err => { result := .err }
      | .panic => { result := .panic }

/-- `list_versions.rs:36-59`: `process_one_advisory`. -/
def processOne (E : ListEnv) (index : Str → Answer) (a : Advisory) : ListRun :=
  ListRun.after [.loaded a.metadata.id a.metadata.package]
    (if E.lockFree then
      if E.validName a.metadata.package then
        match index a.metadata.package with
        | .failed => { result := .panic }
        | .missing => { result := .panic }
        | .found versions => listEach E a versions
      else { result := .panic }
    else { result := .panic })

/-- `list_versions.rs:62-71`: `process_all_advisories`. -/
def processAll (E : ListEnv) (index : Str → Answer) : List Advisory → ListRun
  | [] => { result := .ok () }
  | a :: as =>
    match a.metadata.collection with
    | none => { result := .panic }
    | some .rust => processAll E index as
    | some .crates =>
      match (processOne E index a).result with
      | .ok () => (processAll E index as).after (processOne E index a).said
      | .err => processOne E index a
      | .panic => processOne E index a

/-- `list_affected_versions.rs:31-64`: the command, with `list_versions.rs:21-29`, `AffectedVersionLister::new`; `err` is
exit status 1. -/
def listCommand (E : ListEnv) (at_ : Str → Checkout) (paths : List Str) : ListRun :=
  match paths with
  | _ :: _ :: _ => { result := .panic }
  | _ =>
    match Database.open ((at_ (paths.head?.getD ".".toList)).tree E.adv E.sev) with
    | .err => { result := .err }
    | .panic => { result := .panic }
    | .ok db =>
      match E.index with
      | none => { result := .err }
      | some index => if db.iter.isEmpty then { result := .err } else processAll E index db.iter

end Verif.ListVersions
