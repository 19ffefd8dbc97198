import Verif.Model.Database
import Verif.Model.Linter

/-!
# Advisory files on disk, and the assignment of IDs to drafts

Model of `admin/src/assigner.rs`.  The disk is the list of files below the two collection directories of the
advisory database, in the order in which the operating system lists them (any order).  Left out: stray files
directly in a collection directory (they make the real program stop with an error), unreadable files, file
names that are not UTF-8, and a missing `crates` directory.
-/

namespace Verif.Assign

open Verif.Adv Verif.Db

/-- A path `<repo>/<collection>/<dir>/<file>`. -/
structure Path where
  collection : Collection
  dir : Str
  file : Str
  deriving DecidableEq, Repr

/-- The files of the repository with their contents. -/
abbrev Disk := List (Path × Str)

/-- The content of a file. -/
def Disk.read (d : Disk) (p : Path) : Option Str := d.lookup p

/-! ### Opening the database that is on disk -/

/-- `advisory.rs:37-49`: the fields of an advisory that the database model keeps; `sev` is the severity of
a CVSS vector (`advisory.rs:97-99`). -/
def toAdvisory (sev : Cvss.Cvss → Severity) (a : AdvisoryFile) : Advisory :=
  { metadata :=
      { id := a.metadata.id, package := a.metadata.package, title := a.metadata.title,
        date := a.metadata.date, aliases := a.metadata.aliases, related := a.metadata.related,
        collection := a.metadata.collection, severity := a.metadata.cvss.map sev,
        informational := a.metadata.informational, source := a.metadata.source,
        withdrawn := a.metadata.withdrawn, cvss := a.metadata.cvss.map Cvss.Cvss.display,
        url := a.metadata.url, license := a.metadata.license },
    affected := a.affected, versions := a.versions }

/-- `advisory.rs:53-71`: `Advisory::load_file` on a text. -/
def loadText (L : AdvLib) (sev : Cvss.Cvss → Severity) (text : Str) : Outcome Advisory :=
  match AdvisoryFile.fromStr L text with
  | .ok a => .ok (toAdvisory sev a)
  | .err => .err
  | .panic => .panic

/-- The files of one collection. -/
def Disk.collection (d : Disk) (c : Collection) : Disk := d.filter fun f => decide (f.1.collection = c)

/-- The directory entries of one collection, each file listed in an entry of its own. -/
def Disk.entries (L : AdvLib) (sev : Cvss.Cvss → Severity) (d : Disk) (c : Collection) : List DirEntry :=
  (d.collection c).map fun f => .dir f.1.dir [⟨f.1.file, loadText L sev f.2⟩]

/-- What `Database::open` sees. -/
def Disk.tree (L : AdvLib) (sev : Cvss.Cvss → Severity) (d : Disk) : Tree :=
  { crates := some (d.entries L sev .crates), rust := some (d.entries L sev .rust) }

/-- `database.rs:45-101`: `Database::open` on a disk. -/
def Disk.open (L : AdvLib) (sev : Cvss.Cvss → Severity) (d : Disk) : Outcome Database :=
  Database.open (d.tree L sev)

/-! ### Effects -/

/-- One change of the disk.  A text is written character by character, so that a crash may leave any
beginning of it. -/
inductive Effect where
  | create (p : Path)
  | append (p : Path) (c : Char)
  | remove (p : Path)
  deriving DecidableEq, Repr

/-- Change the content of a file. -/
def Disk.modify (d : Disk) (p : Path) (g : Str → Str) : Disk :=
  d.map fun f => if f.1 = p then (f.1, g f.2) else f

/-- `File::create` (an existing file is emptied), `write`, `fs::remove_file`. -/
def Effect.apply (d : Disk) : Effect → Disk
  | .create p => if d.any (fun f => decide (f.1 = p)) then d.modify p (fun _ => []) else d ++ [(p, [])]
  | .append p c => d.modify p (· ++ [c])
  | .remove p => d.filter fun f => !decide (f.1 = p)

/-- The disk after some effects. -/
def applyAll (d : Disk) (es : List Effect) : Disk := es.foldl Effect.apply d

/-! ### Assigning -/

/-- `assigner.rs:54`: `highest_id`, a map from year to number. -/
abbrev Highest := List (Nat × Nat)

/-- `Map::insert`. -/
def Highest.set (h : Highest) (year n : Nat) : Highest := (year, n) :: h.filter fun e => !decide (e.1 = year)

/-- `assigner.rs:56-71`: one advisory; `date.year()` and `numerical_part().unwrap()` may panic. -/
def Highest.note (h : Highest) (a : Advisory) : Outcome Highest :=
  match a.metadata.date.year with
  | .ok year =>
    if a.metadata.id.kind = .rustSec then
      match a.metadata.id.numericalPart with
      | none => .panic
      | some n =>
        match h.lookup year with
        | some number => if number < n then .ok (h.set year n) else .ok h
        | none => .ok (h.set year n)
    else .ok h
  | .err => .err
  | .panic => .panic

/-- `assigner.rs:54-72`. -/
def Highest.collect : Highest → List Advisory → Outcome Highest
  | h, [] => .ok h
  | h, a :: as =>
    match h.note a with
    | .ok h' => Highest.collect h' as
    | .err => .err
    | .panic => .panic

/-- `assigner.rs:167`: the line that is replaced. -/
def placeholderLine : Str := "id = \"RUSTSEC-0000-0000\"".toList

/-- `assigner.rs:167`: is this the line? -/
def isPlaceholderLine (line : Str) : Bool := decide (trimEnd (trimStart line) = placeholderLine)

/-- `assigner.rs:166-174`: what is written for a line. -/
def rewriteLine (id line : Str) : Str :=
  if isPlaceholderLine line then "id = \"".toList ++ id ++ "\"\n".toList else line ++ ['\n']

/-- `assigner.rs:165-175`: what is written for a text (`BufRead::lines` and `str::lines` split alike). -/
def rewriteText (id text : Str) : Str := ((Lint.lines text).map (rewriteLine id)).flatten

/-- `assigner.rs:164-170`: was a line replaced? -/
def replaced (text : Str) : Bool := (Lint.lines text).any isPlaceholderLine

/-- `assigner.rs:159-160`: the text of the new ID. -/
def newId (year n : Nat) : Str := "RUSTSEC-".toList ++ showNat year ++ "-".toList ++ showNatPad 4 n

/-- What a run of the program does: its effects in order, and its result. -/
structure Run (α : Type) where
  effects : List Effect
  result : Outcome α

/-- An assignment: the new ID and the directory (`assigner.rs:193`). -/
structure Assignment where
  id : Str
  dir : Str
  deriving DecidableEq, Repr

/-- `assigner.rs:135-156`: the year of a draft's date. The front matter is parsed without adding a header. -/
def draftYear (L : AdvLib) (text : Str) : Outcome Nat := do
  let parts ← Parts.parse text
  let t ← ofOption (L.toml parts.frontMatter)
  let a ← AdvisoryFile.decode L t
  a.metadata.date.year

/-- `assigner.rs:129-195`: one file.  `u32` overflow of the new number is left out. -/
def assignFile (L : AdvLib) (h : Highest) (p : Path) (text : Str) : Run (Highest × Option Assignment) :=
  if !Db.isDraft p.file then ⟨[], .ok (h, none)⟩
  else
    match draftYear L text with
    | .err => ⟨[], .err⟩
    | .panic => ⟨[], .panic⟩
    | .ok year =>
      let n := (h.lookup year).getD 0 + 1
      let id := newId year n
      let q : Path := { p with file := id ++ ".md".toList }
      let writes := Effect.create q :: (rewriteText id text).map (Effect.append q)
      if replaced text then ⟨writes ++ [.remove p], .ok (h.set year n, some ⟨id, p.dir⟩)⟩
      else ⟨writes, .err⟩

/-- `assigner.rs:113-199`: the files of one collection; they are the files listed at the start (drafts are
changed by nobody else, and new files are not drafts). -/
def assignFiles (L : AdvLib) : Highest → Disk → Run (Highest × List Assignment)
  | h, [] => ⟨[], .ok (h, [])⟩
  | h, (p, text) :: fs =>
    match assignFile L h p text with
    | ⟨es, .ok (h', o)⟩ =>
      match assignFiles L h' fs with
      | ⟨es', .ok (h'', as)⟩ => ⟨es ++ es', .ok (h'', o.toList ++ as)⟩
      | ⟨es', .err⟩ => ⟨es ++ es', .err⟩
      | ⟨es', .panic⟩ => ⟨es ++ es', .panic⟩
    | ⟨es, .err⟩ => ⟨es, .err⟩
    | ⟨es, .panic⟩ => ⟨es, .panic⟩

/-- `assigner.rs:27-93`: `assign_ids` up to the title: open the database, find the highest numbers, go over
both collections.  `.err` is exit status 1. -/
def assignIds (L : AdvLib) (sev : Cvss.Cvss → Severity) (d : Disk) : Run (List Assignment) :=
  match d.open L sev with
  | .err => ⟨[], .err⟩
  | .panic => ⟨[], .panic⟩
  | .ok db =>
    if db.iter.isEmpty then ⟨[], .err⟩
    else
      match Highest.collect [] db.iter with
      | .err => ⟨[], .err⟩
      | .panic => ⟨[], .panic⟩
      | .ok h =>
        match assignFiles L h (d.collection .crates ++ d.collection .rust) with
        | ⟨es, .ok (_, as)⟩ => ⟨es, .ok as⟩
        | ⟨es, .err⟩ => ⟨es, .err⟩
        | ⟨es, .panic⟩ => ⟨es, .panic⟩

/-! ### The title -/

/-- `str::rsplit_once(", ")`: the text before the last occurrence. -/
def beforeLastComma : Str → Option Str
  | [] => none
  | c :: t =>
    match beforeLastComma t with
    | some r => some (c :: r)
    | none => if ", ".toList.isPrefixOf (c :: t) then some [] else none

/-- `assignments.join(", ")`. -/
def joinComma : List Str → Str
  | [] => []
  | [a] => a
  | a :: as => a ++ ", ".toList ++ joinComma as

/-- `assigner.rs:98-103`: the loop; `fuel` is the number of commas in the title, which falls with every turn;
a title without commas makes `unwrap` panic. -/
def shorten : Nat → Nat → Str → Outcome Str
  | 0, _, title => if byteLen title ≤ 255 then .ok title else .panic
  | fuel + 1, dropped, title =>
    if byteLen title ≤ 255 then .ok title
    else
      match beforeLastComma title with
      | none => .panic
      | some new =>
        shorten fuel (dropped + 1) (new ++ " and ".toList ++ showNat (dropped + 1) ++ " more".toList)

/-- `assigner.rs:193`: the text of an assignment. -/
def Assignment.text (a : Assignment) : Str := a.id ++ " to ".toList ++ a.dir

/-- `assigner.rs:96-105`: the title that is printed for the GitHub action. -/
def title (as : List Assignment) : Outcome Str :=
  let t := "Assigned ".toList ++ joinComma (as.map Assignment.text)
  shorten (t.count ',') 0 t

end Verif.Assign
