import Verif.Model.Sync
import Verif.Model.Linter
import Mathlib.Data.List.Sort

/-!
# The command `rustsec-admin sync`

Model of the rest of `admin/src/commands/sync.rs`: loading the OSV export, what is printed, the exit status, and every
state the advisory database goes through.
-/

namespace Verif.Sync

open Verif.Adv Verif.Db Verif.Assign Verif.Lock Verif.Lint

/-- A file in the directory of the export: its name, and its text if it can be read. -/
structure ExportEntry where
  name : Str
  content : Option Str
  deriving DecidableEq, Repr

/-- Whether a text occurs in another (`str::contains`). -/
def occursIn (p : Str) : Str → Bool
  | [] => p.isPrefixOf []
  | c :: s => p.isPrefixOf (c :: s) || occursIn p s

/-- `sync.rs:440-447`: whether a file of the export is read.  The path is the directory, a slash and the name. -/
def readsEntry (dir : Str) (name : Str) : Bool :=
  decide (extension name = some "json".toList) && !occursIn "RUSTSEC-".toList (dir ++ '/' :: name)

/-- `sync.rs:455-465`: `load_osv_file`; the JSON parser is an argument. -/
def loadOsvFile (json : Str → Option OsvRecord) (e : ExportEntry) : Outcome OsvRecord :=
  match e.content with
  | none => .err
  | some t =>
    match json t with
    | none => .err
    | some o => .ok o

/-- `sync.rs:436-452`: `load_osv_export`; `entries` is what `read_dir` yields, whose errors are unwrapped. -/
def loadExport (json : Str → Option OsvRecord) (dir : Str) (entries : Option (List ExportEntry)) :
    Outcome (List OsvRecord) :=
  match entries with
  | none => .panic
  | some es => Outcome.mapList (loadOsvFile json) (es.filter fun e => readsEntry dir e.name)

/-- A line on the terminal. -/
inductive SyncLine where
  | loadedExport (n : Nat)
  | loadedDatabase (n : Nat)
  | nothingMissing
  | missing (n : Nat)
  | item (date url : Str) (crates : List Str)
  | upToDate
  | updated (n : Nat)
  deriving DecidableEq, Repr

/-- `sync.rs:187-189`: sorted by the time of publication, as text; `sort_by` is stable. -/
def sortMissing (l : List OsvRecord) : List OsvRecord :=
  l.insertionSort fun a b => strCmp a.published b.published ≠ .gt

/-- `sync.rs:190-197`: the line for a missing advisory; `{:.10}` takes ten characters. -/
def OsvRecord.line (o : OsvRecord) : SyncLine :=
  .item (o.published.take 10) ("https://github.com/advisories/".toList ++ o.id.display) o.crates

/-- `sync.rs:145-215`: everything printed by a run that succeeds. -/
def syncLines (nOsv nDb : Nat) (missing : List OsvRecord) (updated : Nat) : List SyncLine :=
  [.loadedExport nOsv, .loadedDatabase nDb] ++
  (if missing.isEmpty then [.nothingMissing] else .missing missing.length :: (sortMissing missing).map OsvRecord.line) ++
  (if updated = 0 then [.upToDate] else [.updated updated])

/-! ### States -/

/-- `sync.rs:424` (`fs::write`): the states of the disk while a file is overwritten: any beginning of the new text. -/
def writeStates (d : Disk) (p : Path) (text : Str) : List Disk :=
  (List.range (text.length + 1)).map fun n => Disk.write d p (text.take n)

/-- `sync.rs:336-426`: the states `update_advisory_from_alias` goes through. -/
def updateStates (L : SyncLib) (a : Advisory) (o : OsvRecord) (s : SyncState) : List Disk :=
  let missing := missingAliases a o
  if missing.isEmpty then []
  else
    match s.disk.read (advisoryPath a) with
    | none => []
    | some content =>
      match updateText L content missing with
      | .ok text => writeStates s.disk (advisoryPath a) text
      | _ => []

/-- `sync.rs:272-301`: the states of one linked advisory. -/
def linkStates (L : SyncLib) (db : Database) (o : OsvRecord) (s : SyncState) (id : Id) : List Disk :=
  match db.get id with
  | none => []
  | some a => if o.crates.contains a.metadata.package then updateStates L a o s else []

/-- The states of the loop over linked advisories; it ends at the first failure. -/
def linksStates (L : SyncLib) (db : Database) (o : OsvRecord) : SyncState → List Id → List Disk
  | _, [] => []
  | s, id :: ids =>
    linkStates L db o s id ++
    match syncLink L db o s id with
    | .ok s' => linksStates L db o s' ids
    | _ => []

/-- `sync.rs:230-303`: the states of the loop over the records. -/
def recordsStates (L : SyncLib) (db : Database) : SyncState → List OsvRecord → List Disk
  | _, [] => []
  | s, o :: os =>
    if o.withdrawn then recordsStates L db s os
    else
      match linked db o with
      | .ok ids =>
        linksStates L db o s ids ++
        match syncLinks L db o s ids with
        | .ok s' => recordsStates L db s' os
        | _ => []
      | _ => []

/-- The surroundings of the command. -/
structure SyncEnv where
  lib : SyncLib
  sev : Cvss.Cvss → Severity
  json : Str → Option OsvRecord
  /-- The path given with `--osv`, and the directory there. -/
  exportDir : Str
  entries : Option (List ExportEntry)
  /-- The crates.io index can be opened (`sync.rs:153-156`). -/
  indexOk : Bool
  /-- cargo's package lock is free (`sync.rs:305-312`). -/
  lockFree : Bool

/-- `sync.rs:120-216`: `SyncCmd::run` with the database at the path given: the states of the disk, and what is printed if
the exit status is 0 (`.err` is status 1).  Messages of failing runs and notes on skipped records are not modelled. -/
def SyncEnv.run (E : SyncEnv) (paths : List Str) (d : Disk) : List Disk × Outcome (List SyncLine) :=
  if paths.length > 1 then ([d], .panic)
  else
    match d.open E.lib.adv E.sev with
    | .err => ([d], .err)
    | .panic => ([d], .panic)
    | .ok db =>
      match loadExport E.json E.exportDir E.entries with
      | .err => ([d], .err)
      | .panic => ([d], .panic)
      | .ok osv =>
        if !E.indexOk then ([d], .err)
        else if db.iter.isEmpty then ([d], .err)
        else
          let states := d :: recordsStates E.lib db { disk := d } osv
          match sync E.lib E.sev d osv with
          | .err => (states, .err)
          | .panic => (states, .panic)
          | .ok (s, missing) =>
            if !E.lockFree then (states, .err)
            else (states, .ok (syncLines osv.length db.iter.length missing s.updated))

end Verif.Sync
