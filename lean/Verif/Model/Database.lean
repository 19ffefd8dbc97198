import Verif.Model.Advisory

/-!
# The advisory database

Model of `rustsec/src/database.rs`, `database/entries.rs`, `database/index.rs`, `database/query.rs`.

`BTreeMap`s are association lists with unique keys, `BTreeSet<Slot>` an ascending list.  The file system is
an argument (`Tree`): directory listings arrive in any order, every file carries the result of reading
and parsing it (`Advisory::load_file`).
-/

namespace Verif.Db

open Verif.Semver Verif.Osv Verif.Lock Verif.Adv

/-! ### Queries -/

/-- `database/query.rs:16-48`: `struct Query`. -/
structure Query where
  collection : Option Collection := none
  packageName : Option Str := none
  packageVersion : Option Version := none
  packageSource : Option SourceId := none
  severity : Option Severity := none
  targetArch : List Str := []
  targetOs : List Str := []
  year : Option Nat := none
  withdrawn : Option Bool := none
  informational : Option Bool := none
  deriving DecidableEq, Repr

/-- `query.rs:57-70`: `Query::new`. -/
def Query.new : Query := {}

/-- `query.rs:79-84`: `Query::crate_scope`. -/
def Query.crateScope : Query :=
  { Query.new with collection := some .crates, withdrawn := some false, informational := some false }

/-- `query.rs:95-100`: `Query::package`. -/
def Query.package (q : Query) (p : Package) : Query :=
  { q with packageName := some p.name, packageVersion := some p.version, packageSource := p.source }

/-- `Versions::is_vulnerable` as a test inside `matches`.  Its panic (impossible for versions that were
accepted when the advisory was parsed, `C02_accepted_never_panics`) is read as "not vulnerable". -/
def vulnerableTest (a : Advisory) (v : Version) : Bool := decide (a.versions.isVulnerable v = .ok true)

/-- `query.rs:161-246`: `Query::matches`, in the order of the code. -/
def Query.matches (q : Query) (a : Advisory) : Bool :=
  if (match q.collection with | some c => decide (some c ≠ a.metadata.collection) | none => false) then false
  else if (match q.packageName with | some n => decide (n ≠ a.metadata.package) | none => false) then false
  else if (match q.packageVersion with | some v => !vulnerableTest a v | none => false) then false
  else if (match q.packageSource with
      | some s =>
        let adv := a.metadata.source.getD SourceId.default
        decide (adv.kind ≠ s.kind) || decide (adv.url.text ≠ s.url.text)
      | none => false) then false
  else if (match q.severity, a.metadata.severity with
      | some threshold, some sev => decide (sev.rank < threshold.rank)
      | _, _ => false) then false
  else if (match a.affected with
      | some af => !af.arch.isEmpty && !q.targetArch.isEmpty && !q.targetArch.any (fun t => af.arch.contains t)
      | none => false) then false
  else if (match a.affected with
      | some af => !af.os.isEmpty && !q.targetOs.isEmpty && !q.targetOs.any (fun t => af.os.contains t)
      | none => false) then false
  else if (match q.year, a.metadata.id.year with
      | some qy, some ay => decide (qy ≠ ay)
      | _, _ => false) then false
  else if (match q.withdrawn with | some w => w != a.metadata.withdrawn.isSome | none => false) then false
  else if (match q.informational with | some i => i != a.metadata.informational.isSome | none => false)
    then false
  else true

/-! ### Entries and indexes -/

/-- `database/entries.rs:22-30`: `struct Entries`; a `Slot` is its number. -/
structure Entries where
  index : List (Id × Nat) := []
  advisories : List Advisory := []
  deriving DecidableEq

/-- `database/index.rs:10`: `struct Index`. -/
abbrev Index := List (Str × List Nat)

/-- `BTreeSet::insert` on an ascending list. -/
def insertSlot (n : Nat) : List Nat → List Nat
  | [] => [n]
  | m :: r => if n < m then n :: m :: r else if n = m then m :: r else m :: insertSlot n r

/-- `index.rs:19-26`: `Index::insert`. -/
def Index.insert (key : Str) (slot : Nat) : Index → Index
  | [] => [(key, [slot])]
  | (k, s) :: r => if k = key then (k, insertSlot slot s) :: r else (k, s) :: Index.insert key slot r

/-- `index.rs:29-31`: `Index::get`. -/
def Index.get (i : Index) (key : Str) : Option (List Nat) := i.lookup key

/-- One file below a package directory: its name and the result of `Advisory::load_file` on it. -/
structure File where
  name : Str
  content : Outcome Advisory
  deriving DecidableEq

/-- An entry of a collection directory: a package directory with its files, or something else. -/
inductive DirEntry where
  | dir (name : Str) (files : List File)
  | notDir
  deriving DecidableEq

/-- A repository checkout: the listings of `crates` and `rust`, `none` if unreadable. -/
structure Tree where
  crates : Option (List DirEntry)
  rust : Option (List DirEntry)
  deriving DecidableEq

/-- A path `<repo>/<collection>/<package dir>/<file>` collected by `open`. -/
structure AdvPath where
  collection : Collection
  pkgDir : Str
  file : File

/-- `advisory.rs:104-109`: `Advisory::is_draft`. -/
def isDraft (name : Str) : Bool := startsWith name "RUSTSEC-0000-0000."

/-- `Path::extension() == Some("md")`: the name ends in `.md` with something before it. -/
def hasMdExtension (name : Str) : Bool := endsWith name ".md" && decide (name ≠ ".md".toList)

/-- `entries.rs:104-115`: an explicit `collection` must agree with the directory. -/
def collectionOk (a : Advisory) (c : Collection) : Bool :=
  match a.metadata.collection with
  | some c' => decide (c' = c)
  | none => true

/-- `entries.rs:39-137`: `Entries::load_file`.  The collection directory is one of the two that `open` reads,
so the "invalid package collection" branch cannot occur here. -/
def Entries.loadFile (e : Entries) (p : AdvPath) : Outcome (Entries × Option Nat) :=
  match p.file.content with
  | .err => .err
  | .panic => .panic
  | .ok a =>
    if ¬ hasMdExtension p.file.name then .err
    else if p.file.name ≠ a.metadata.id.display ++ ".md".toList ∧ ¬ isDraft p.file.name then .err
    else if p.pkgDir ≠ a.metadata.package then .err
    else
      if ¬ collectionOk a p.collection then .err
      else
        let a' : Advisory := { a with metadata := { a.metadata with collection := some p.collection } }
        if a'.metadata.id.isPlaceholder then .ok (e, none)
        else
          let slot := e.advisories.length
          match e.index.lookup a'.metadata.id with
          | some _ => .err
          | none => .ok ({ index := (a'.metadata.id, slot) :: e.index, advisories := e.advisories ++ [a'] },
                        some slot)

/-- `database.rs:27-40`: `struct Database` (without the commit information). -/
structure Database where
  advisories : Entries := {}
  rustIndex : Index := []
  crateIndex : Index := []
  deriving DecidableEq

/-- `database.rs:50-74`: the paths of one collection directory; dotfiles are skipped. -/
def collectionPaths (c : Collection) (entries : List DirEntry) : List AdvPath :=
  entries.flatMap fun
    | .notDir => []
    | .dir name files =>
      (files.filter (fun f => !startsWith f.name ".")).map (fun f => { collection := c, pkgDir := name, file := f })

/-- `database.rs:46-75`: collecting the paths; an unreadable `rust` directory is skipped, an unreadable
`crates` directory is an error.  `Collection::all` lists `crates` first (`collection.rs:22-24`). -/
def advisoryPaths (t : Tree) : Outcome (List AdvPath) :=
  match t.crates with
  | none => .err
  | some cs => .ok (collectionPaths .crates cs ++
      (match t.rust with | none => [] | some rs => collectionPaths .rust rs))

/-- `database.rs:81-93`: one iteration of the loading loop.  `unwrap`s are panics. -/
def Database.load1 (db : Database) (p : AdvPath) : Outcome Database :=
  match db.advisories.loadFile p with
  | .err => .err
  | .panic => .panic
  | .ok (e, none) => .ok { db with advisories := e }
  | .ok (e, some slot) =>
    match e.advisories[slot]? with
    | none => .panic
    | some a =>
      match a.metadata.collection with
      | none => .panic
      | some .crates => .ok { db with advisories := e, crateIndex := db.crateIndex.insert a.metadata.package slot }
      | some .rust => .ok { db with advisories := e, rustIndex := db.rustIndex.insert a.metadata.package slot }

/-- `database.rs:81-93`: the loading loop. -/
def Database.loadAll : Database → List AdvPath → Outcome Database
  | db, [] => .ok db
  | db, p :: ps =>
    match db.load1 p with
    | .ok db' => Database.loadAll db' ps
    | .err => .err
    | .panic => .panic

/-- `database.rs:45-101`: `Database::open`. -/
def Database.open (t : Tree) : Outcome Database :=
  match advisoryPaths t with
  | .ok ps => Database.loadAll {} ps
  | .err => .err
  | .panic => .panic

/-- `database.rs:175-177`: `Database::iter`. -/
def Database.iter (db : Database) : List Advisory := db.advisories.advisories

/-- `database.rs:116-118`, `entries.rs:140-142`: `Database::get`. -/
def Database.get (db : Database) (id : Id) : Option Advisory :=
  (db.advisories.index.lookup id).bind (fun slot => db.advisories.advisories[slot]?)

/-- `database.rs:126-129`: the package index of a collection. -/
def Database.indexFor (db : Database) : Collection → Index
  | .crates => db.crateIndex
  | .rust => db.rustIndex

/-- `database.rs:121-142`: `Database::query`; `none` is the `unwrap` panic on a dangling slot. -/
def Database.query (db : Database) (q : Query) : Option (List Advisory) :=
  match q.packageName, q.collection with
  | some name, some c =>
    match (db.indexFor c).get name with
    | none => some []
    | some slots => (slots.mapM (fun s => db.advisories.advisories[s]?)).map (fun l => l.filter q.matches)
  | _, _ => some (db.iter.filter q.matches)

/-- `database.rs:148-154`: packages that are not from crates.io are skipped. -/
def scanned (p : Package) : Bool :=
  match p.source with
  | some s => s.isDefaultRegistry
  | none => false

/-- `database.rs:145-167`: `Database::query_vulnerabilities` over the packages of a lockfile. -/
def Database.queryVulnerabilities (db : Database) (packages : List Package) (q : Query) :
    Option (List Vulnerability) :=
  match packages with
  | [] => some []
  | p :: ps =>
    if scanned p then
      match db.query (q.package p), db.queryVulnerabilities ps q with
      | some l, some r => some (l.map (fun a => Vulnerability.new a p) ++ r)
      | _, _ => none
    else db.queryVulnerabilities ps q

/-- `database.rs:170-172`: `Database::vulnerabilities`. -/
def Database.vulnerabilities (db : Database) (packages : List Package) : Option (List Vulnerability) :=
  db.queryVulnerabilities packages Query.crateScope

end Verif.Db
