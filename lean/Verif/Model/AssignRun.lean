import Verif.Model.Assigner

/-!
# Model of `rustsec-admin assign-id` as a command: what it writes and what it prints, in order

Source: admin/src/commands/assign_id.rs, admin/src/assigner.rs.
-/

namespace Verif.Assign

open Verif.Adv Verif.Db

/-- A line that is printed: `assigner.rs:46-52` (`status_ok!`), `:191` (`status_ok!`), `:105` (`println!`).  Error
messages (`status_err!`) are not modelled. -/
inductive AssignLine where
  | loaded (advisories : Nat) (path : Str)
  | assigned (id dir : Str)
  | title (text : Str)
  deriving DecidableEq, Repr

/-- What happens in a run: a change of the disk, or a line. -/
inductive Event where
  | disk (e : Effect)
  | line (l : AssignLine)

/-- The events of a run in order, and how it ends. -/
structure EventRun (α : Type) where
  events : List Event
  result : Outcome α

/-- `assigner.rs:190-194`: an assignment is announced, unless the output is for the GitHub action. -/
def announce (github : Bool) : Option Assignment → List Event
  | some a => if github then [] else [.line (.assigned a.id a.dir)]
  | none => []

/-- `assigner.rs:109-199`: the files of the collections, with the announcements. -/
def assignEvents (L : AdvLib) (github : Bool) : Highest → Disk → EventRun (List Assignment)
  | _, [] => ⟨[], .ok []⟩
  | h, (p, text) :: fs =>
    match assignFile L h p text with
    | ⟨es, .ok (h', o)⟩ =>
      let r := assignEvents L github h' fs
      ⟨es.map .disk ++ (announce github o ++ r.events),
        match r.result with
        | .ok as => .ok (o.toList ++ as)
        | .err => .err
        | .panic => .panic⟩
    | ⟨es, .err⟩ => ⟨es.map .disk, .err⟩
    | ⟨es, .panic⟩ => ⟨es.map .disk, .panic⟩

/-- `assigner.rs:27-106`: `assign_ids` at a path with the files `d`. -/
def assignAt (L : AdvLib) (sev : Cvss.Cvss → Severity) (d : Disk) (path : Str) (github : Bool) : EventRun Unit :=
  match d.open L sev with
  | .err => ⟨[], .err⟩
  | .panic => ⟨[], .panic⟩
  | .ok db =>
    if db.iter.isEmpty then ⟨[], .err⟩
    else
      let loaded : List Event := if github then [] else [.line (.loaded db.iter.length path)]
      match Highest.collect [] db.iter with
      | .err => ⟨loaded, .err⟩
      | .panic => ⟨loaded, .panic⟩
      | .ok h =>
        let r := assignEvents L github h (d.collection .crates ++ d.collection .rust)
        match r.result with
        | .err => ⟨loaded ++ r.events, .err⟩
        | .panic => ⟨loaded ++ r.events, .panic⟩
        | .ok as =>
          if github then
            match Assign.title as with
            | .ok t => ⟨loaded ++ r.events ++ [.line (.title t)], .ok ()⟩
            | .err => ⟨loaded ++ r.events, .err⟩
            | .panic => ⟨loaded ++ r.events, .panic⟩
          else ⟨loaded ++ r.events, .ok ()⟩

/-- `commands/assign_id.rs:22-38`: the command; `at_` is what is on the disk at a path.  More than one path is
`unreachable!()`, though the argument parser lets it through. -/
def assignCommand (L : AdvLib) (sev : Cvss.Cvss → Severity) (at_ : Str → Disk) (github : Bool) (paths : List Str) :
    EventRun Unit :=
  match paths with
  | [] => assignAt L sev (at_ ".".toList) ".".toList github
  | [p] => assignAt L sev (at_ p) p github
  | _ :: _ :: _ => ⟨[], .panic⟩

end Verif.Assign
