import Verif.Model.Assigner
import Verif.Model.Source

/-!
# Synchronising aliases with an OSV export

Model of `admin/src/commands/sync.rs` and of `rustsec/src/osv/advisory.rs:294-337`.

The advisory database is the disk of `Verif.Assign`.  The libraries are arguments: the TOML parser, the
formatting-preserving editor `toml_edit`, the crates.io index.
-/

namespace Verif.Sync

open Verif.Adv Verif.Db Verif.Assign Verif.Lock

/-- One insertion of an insertion sort that drops equal elements. -/
def insertBy {α : Type} (cmp : α → α → Ordering) (x : α) : List α → List α
  | [] => [x]
  | y :: r =>
    match cmp x y with
    | .lt => x :: y :: r
    | .eq => y :: r
    | .gt => y :: insertBy cmp x r

/-- `sort()` followed by `dedup()`. -/
def sortDedup {α : Type} (cmp : α → α → Ordering) (l : List α) : List α := l.foldr (insertBy cmp) []

/-- `id.rs:169-186`: the derived order of `IdKind`, by position. -/
def kindRank : IdKind → Nat
  | .rustSec => 0
  | .cve => 1
  | .ghsa => 2
  | .talos => 3
  | .other => 4

/-- Derived `Ord` of `Option<u32>`: `None` first. -/
def optNatCmp : Option Nat → Option Nat → Ordering
  | none, none => .eq
  | none, some _ => .lt
  | some _, none => .gt
  | some a, some b => compare a b

/-- `id.rs:12-22`: the derived order of `Id`: kind, year, text. -/
def idCmp (a b : Id) : Ordering :=
  ((compare (kindRank a.kind) (kindRank b.kind)).then (optNatCmp a.year b.year)).then (strCmp a.string b.string)

/-- `osv/advisory.rs:21-46`: the fields of `struct OsvAdvisory` that `sync` reads; `affected` holds ecosystem and
name of each package, `references` the texts of the URLs (ASCII: `url` encodes everything else). -/
structure OsvRecord where
  id : Id
  aliases : List Id
  withdrawn : Bool
  affected : List (Str × Str)
  references : List Str
  published : Str := []
  deriving DecidableEq, Repr

/-- `osv/advisory.rs:302`. -/
def rustsecUrl : Str := "https://rustsec.org/advisories/".toList

/-- `osv/advisory.rs:304`: the ID in a URL; the slice `[31..48]` and the `expect` may panic. -/
def refId (url : Str) : Outcome Id :=
  if url.length < 48 then .panic
  else
    match Id.fromStr ((url.drop 31).take 17) with
    | .ok i => .ok i
    | .err => .panic
    | .panic => .panic

/-- `osv/advisory.rs:295-309`: `rustsec_refs_imported`. -/
def OsvRecord.rustsecRefs (o : OsvRecord) : Outcome (List Id) := do
  let refs ← Outcome.mapList refId (o.references.filter fun u => rustsecUrl.isPrefixOf u)
  .ok (sortDedup idCmp refs)

/-- `osv/advisory.rs:312-327`: `crates`. -/
def OsvRecord.crates (o : OsvRecord) : List Str :=
  sortDedup strCmp (o.affected.filterMap fun a => if a.1 = "crates.io".toList then some a.2 else none)

/-- The libraries of `sync`. -/
structure SyncLib where
  /-- reading advisories -/
  adv : AdvLib
  /-- `toml_edit`: the front matter with the arrays `aliases` and `related` of `[advisory]` replaced (an empty
  list leaves the document as it is, `sync.rs:394,416`). -/
  edit : Str → List Str → List Str → Str
  /-- `KrateName::try_from(..).is_ok()` -/
  validName : Str → Bool
  /-- the crate is in the crates.io index (`sync.rs:317-318`) -/
  known : Str → Bool

/-- `sync.rs:382-391,405-413`: an array of strings of the table, nothing if the key is missing; the `unwrap`s
panic on any other value. -/
def stringArray (t : TomlTable) (k : String) : Outcome (List Str) :=
  match t.get k with
  | none => .ok []
  | some v =>
    match asStrings (α := Str) .ok v with
    | .ok l => .ok l
    | .err => .panic
    | .panic => .panic

/-- `sync.rs:380-421`: the new text of an advisory file.  A document without `[advisory]` makes
`metadata["advisory"]` panic. -/
def updateText (L : SyncLib) (content : Str) (missing : List Id) : Outcome Str :=
  match Parts.parse content with
  | .err => .err
  | .panic => .panic
  | .ok parts =>
    match L.adv.toml parts.frontMatter with
    | none => .panic
    | some doc =>
      match doc.get "advisory" with
      | some (.table m) => do
        let aliases ← stringArray m "aliases"
        let related ← stringArray m "related"
        .ok ("```toml\n".toList ++
          L.edit parts.frontMatter (sortDedup strCmp (aliases ++ missing.map Id.display))
            (sortDedup strCmp related) ++
          "```\n\n".toList ++ parts.markdown)
      | _ => .panic

/-- `sync.rs:344-361`: the IDs that are missing from the aliases of the advisory. -/
def missingAliases (a : Advisory) (o : OsvRecord) : List Id :=
  (o.aliases ++ [o.id]).filter fun i =>
    (decide (i.kind = .cve) || decide (i.kind = .ghsa)) &&
    (!decide (i = a.metadata.id) && !a.metadata.aliases.contains i)

/-- `sync.rs:367-370`: the file of an advisory; always in the `crates` collection. -/
def advisoryPath (a : Advisory) : Path :=
  ⟨.crates, a.metadata.package, a.metadata.id.display ++ ".md".toList⟩

/-- The disk with a file's text replaced. -/
def Disk.write (d : Disk) (p : Path) (text : Str) : Disk := Assign.Disk.modify d p fun _ => text

/-- The disk and the number of updates. -/
structure SyncState where
  disk : Disk
  updated : Nat := 0

/-- `sync.rs:336-426`: `update_advisory_from_alias`. -/
def updateAdvisory (L : SyncLib) (a : Advisory) (o : OsvRecord) (s : SyncState) : Outcome SyncState :=
  let missing := missingAliases a o
  if missing.isEmpty then .ok s
  else
    match s.disk.read (advisoryPath a) with
    | none => .err
    | some content =>
      match updateText L content missing with
      | .err => .err
      | .panic => .panic
      | .ok text => .ok { disk := Disk.write s.disk (advisoryPath a) text, updated := s.updated + 1 }

/-- `sync.rs:241-250`: the RustSec advisories that a record is linked to. -/
def linked (db : Database) (o : OsvRecord) : Outcome (List Id) := do
  let refs ← o.rustsecRefs
  .ok (sortDedup idCmp (refs ++
    (db.iter.filter fun a => a.metadata.aliases.contains o.id).map fun a => a.metadata.id))

/-- `sync.rs:272-301`: one linked advisory; `expect` panics if it is not in the database. -/
def syncLink (L : SyncLib) (db : Database) (o : OsvRecord) (s : SyncState) (id : Id) : Outcome SyncState :=
  match db.get id with
  | none => .panic
  | some a =>
    if o.crates.contains a.metadata.package then updateAdvisory L a o s else .ok s

/-- The loop of `syncLink`. -/
def syncLinks (L : SyncLib) (db : Database) (o : OsvRecord) : SyncState → List Id → Outcome SyncState
  | s, [] => .ok s
  | s, id :: ids =>
    match syncLink L db o s id with
    | .ok s' => syncLinks L db o s' ids
    | .err => .err
    | .panic => .panic

/-- `sync.rs:230-303`: the loop over the records; the second component lists the crates and records to check. -/
def syncRecords (L : SyncLib) (db : Database) : SyncState → List OsvRecord →
    Outcome (SyncState × List (Str × OsvRecord))
  | s, [] => .ok (s, [])
  | s, o :: os =>
    if o.withdrawn then syncRecords L db s os
    else
      match linked db o with
      | .err => .err
      | .panic => .panic
      | .ok [] =>
        match syncRecords L db s os with
        | .ok (s', checks) => .ok (s', (o.crates.filter L.validName).map (·, o) ++ checks)
        | .err => .err
        | .panic => .panic
      | .ok ids =>
        match syncLinks L db o s ids with
        | .ok s' => syncRecords L db s' os
        | .err => .err
        | .panic => .panic

/-- `sync.rs:218-335`: `sync`, after the database was opened (`sync.rs:121-160`; an empty one is an error): the
final state and the missing advisories.  The package lock is taken to be free. -/
def sync (L : SyncLib) (sev : Cvss.Cvss → Severity) (d : Disk) (osv : List OsvRecord) :
    Outcome (SyncState × List OsvRecord) :=
  match d.open L.adv sev with
  | .err => .err
  | .panic => .panic
  | .ok db =>
    if db.iter.isEmpty then .err
    else
      match syncRecords L db { disk := d } osv with
      | .ok (s, checks) => .ok (s, (checks.filter fun c => L.known c.1).map Prod.snd)
      | .err => .err
      | .panic => .panic

end Verif.Sync
