import Verif.Model.AdvisoryFile

/-!
# Modification times of files in git

Model of `rustsec/src/repository/git/modification_time.rs` and `repository/git.rs:20-24`.

The git object database is a list of commits by number, the walk over the history a list of commit numbers in
any order.  A tree is the list of its files with their contents (blob numbers); directories are left out.
-/

namespace Verif.Git

open Verif.Adv

/-- `gix::date::Time`: seconds since 1970 and the offset of the time zone in seconds. -/
structure Time where
  seconds : Int
  offset : Int
  deriving DecidableEq, Repr

/-- The derived order of `gix::date::Time`. -/
def Time.le (a b : Time) : Bool :=
  decide (a.seconds < b.seconds) || (decide (a.seconds = b.seconds) && decide (a.offset ≤ b.offset))

/-- `std::cmp::max`. -/
def Time.max (a b : Time) : Time := if a.le b then b else a

/-- `std::cmp::min`. -/
def Time.min (a b : Time) : Time := if a.le b then a else b

/-- The files of a tree. -/
abbrev Files := List (Str × Nat)

/-- A commit: the numbers of its parents, its time, its tree. -/
structure GitCommit where
  parents : List Nat
  time : Time
  tree : Files
  deriving DecidableEq, Repr

/-- The object database. -/
abbrev Objects := List (Nat × GitCommit)

/-- `gix::diff::tree` with the `Recorder`: the paths that were added, modified or deleted. -/
def diff (previous current : Files) : List Str :=
  ((previous ++ current).map Prod.fst).dedup.filter fun p => decide (previous.lookup p ≠ current.lookup p)

/-- `modification_time.rs:66-71,121-128`: the tree that a commit is compared with; `none` is a merge commit.
A parent that is not in the object database (a shallow clone) counts as the empty tree. -/
def previousTree (db : Objects) (c : GitCommit) : Option Files :=
  match c.parents with
  | [] => some []
  | [p] => some (((db.lookup p).map GitCommit.tree).getD [])
  | _ => none

/-- A `HashMap<PathBuf, Time>`. -/
abbrev TimeMap := List (Str × Time)

/-- `modification_time.rs:162-169`: `entry(path).and_modify(..).or_insert(t)`. -/
def TimeMap.update (f : Time → Time → Time) (m : TimeMap) (path : Str) (t : Time) : TimeMap :=
  match m.lookup path with
  | some old => (path, f old t) :: m.filter fun e => !decide (e.1 = path)
  | none => (path, t) :: m

/-- `modification_time.rs:16-19`: `struct GitModificationTimes`. -/
structure ModTimes where
  mtimes : TimeMap := []
  ctimes : TimeMap := []

/-- `modification_time.rs:151-170`: the loop over the changed paths of a commit. -/
def ModTimes.record (t : Time) (m : ModTimes) (path : Str) : ModTimes :=
  { mtimes := m.mtimes.update Time.max path t, ctimes := m.ctimes.update Time.min path t }

/-- `modification_time.rs:57-171`: the loop over the walk.  A commit that is not in the database is an
error. -/
def ModTimes.walk (db : Objects) : ModTimes → List Nat → Outcome ModTimes
  | m, [] => .ok m
  | m, id :: ids =>
    match db.lookup id with
    | none => .err
    | some c =>
      match previousTree db c with
      | none => ModTimes.walk db m ids
      | some previous => ModTimes.walk db ((diff previous c.tree).foldl (ModTimes.record c.time) m) ids

/-- `modification_time.rs:25-174`: `GitModificationTimes::new`. -/
def ModTimes.new (db : Objects) (ids : List Nat) : Outcome ModTimes := ModTimes.walk db {} ids

/-- `repository/git.rs:20-24`: `gix_time_to_time`: the `expect`s panic outside the years ±9999 and on offsets
of 26 hours or more (limits of the `time` crate).  The result is the local time in seconds. -/
def localSeconds (t : Time) : Outcome Int :=
  if -377705116800 ≤ t.seconds ∧ t.seconds ≤ 253402300799 then
    if -93599 ≤ t.offset ∧ t.offset ≤ 93599 then .ok (t.seconds + t.offset) else .panic
  else .panic

/-- `modification_time.rs:178-181`: `for_path`; the time as UTC seconds. -/
def ModTimes.forPath (m : ModTimes) (path : Str) : Outcome Int :=
  match m.mtimes.lookup path with
  | none => .panic
  | some t =>
    match localSeconds t with
    | .ok _ => .ok t.seconds
    | .err => .err
    | .panic => .panic

/-- `format!("{:0>4}-{:0>2}-{:0>2}", ..)`: a negative year keeps its sign after the padding. -/
def isoFormat (y : Int) (m d : Nat) : Str :=
  (if 0 ≤ y then showNatPad 4 y.toNat
   else List.replicate (3 - (showNat (-y).toNat).length) '0' ++ '-' :: showNat (-y).toNat) ++
    '-' :: (showNatPad 2 m ++ '-' :: showNatPad 2 d)

/-- `modification_time.rs:195-207`: `gix_time_to_date`.  `cal` is the calendar of the `time` crate (the date of
a day number since 1970-01-01), `civil` the parser of `jiff`; `parse().unwrap()` panics on an error. -/
def dateOfTime (cal : Int → Int × Nat × Nat) (civil : Str → Option (Int × Nat × Nat)) (t : Time) :
    Outcome DateText :=
  match localSeconds t with
  | .ok s =>
    let date := cal (s / 86400)
    match DateText.fromStr civil (isoFormat date.1 date.2.1 date.2.2) with
    | .ok d => .ok d
    | .err => .panic
    | .panic => .panic
  | .err => .err
  | .panic => .panic

/-- `modification_time.rs:185-187`: `mdate_for_path`. -/
def ModTimes.mdateForPath (cal : Int → Int × Nat × Nat) (civil : Str → Option (Int × Nat × Nat)) (m : ModTimes)
    (path : Str) : Outcome DateText :=
  match m.mtimes.lookup path with
  | none => .panic
  | some t => dateOfTime cal civil t

/-- `modification_time.rs:191-193`: `cdate_for_path`. -/
def ModTimes.cdateForPath (cal : Int → Int × Nat × Nat) (civil : Str → Option (Int × Nat × Nat)) (m : ModTimes)
    (path : Str) : Outcome DateText :=
  match m.ctimes.lookup path with
  | none => .panic
  | some t => dateOfTime cal civil t

end Verif.Git
