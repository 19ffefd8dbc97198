import Verif.Props.AssignerCrash
import Verif.Props.AdvisoryFile

/-!
# ID assignment: violations, and disks that meet the hypotheses of the C51 and C52 theorems
-/

namespace Verif.Props

open Verif.Adv Verif.Db Verif.Assign Verif.Spec

theorem first_effect {L : AdvLib} (h : Highest) (fs : Disk) :
    (assignFiles L h fs).effects = [] ∨ ∃ p y n rest,
      (assignFiles L h fs).effects = Effect.create (target p y n) :: rest := by
  refine assignFiles_rec (L := L) (P := fun h fs es r => es = [] ∨ ∃ p y n rest,
    es = Effect.create (target p y n) :: rest) ?_ ?_ ?_ ?_ ?_ ?_ h fs
  · intro h; exact .inl rfl
  · intro h p t fs es r _ ih; exact ih
  · intro h p t fs _ _; exact .inl rfl
  · intro h p t fs _ _; exact .inl rfl
  · intro h p t fs y _ _ _; exact .inr ⟨p, y, _, _, rfl⟩
  · intro h p t fs y es r _ _ _ _; exact .inr ⟨p, y, _, _, rfl⟩

/-- **C52, violation.**  Whenever `assign-id` does anything, a crash after its first effect leaves a database
that cannot be opened any more: running `assign-id` again does nothing but fail. -/
theorem C52_crash_breaks_database (L : AdvLib) (sev : Cvss.Cvss → Severity) (d : Disk)
    (h : (assignIds L sev d).effects ≠ []) :
    ∃ es, es <+: (assignIds L sev d).effects ∧ (∀ db, (applyAll d es).open L sev ≠ .ok db) ∧
      (assignIds L sev (applyAll d es)).effects = [] ∧
      ∀ as, (assignIds L sev (applyAll d es)).result ≠ .ok as := by
  obtain ⟨p, y, n, rest, he⟩ : ∃ p y n rest,
      (assignIds L sev d).effects = Effect.create (target p y n) :: rest := by
    cases ho : d.open L sev with
    | err => rw [assignIds, ho] at h; exact absurd rfl h
    | panic => rw [assignIds, ho] at h; exact absurd rfl h
    | ok db =>
      rcases assignIds_eq ho with ⟨e, -⟩ | ⟨hi, -, -, e, -⟩
      · exact absurd e h
      · rw [e] at h ⊢
        exact (first_effect hi _).resolve_left h
  have hno : ∀ db, (applyAll d [Effect.create (target p y n)]).open L sev ≠ .ok db := by
    intro db ho
    have hr : (applyAll d [Effect.create (target p y n)]).read (target p y n) = some [] := by
      show (Effect.apply d (Effect.create (target p y n))).read (target p y n) = _
      rw [read_create, if_pos rfl]
    obtain ⟨a, hw, -⟩ := C18_every_file_loaded _ db ho _ _ _
      (located_of_mem (L := L) (sev := sev) (mem_of_read hr) (newId_not_dot y n _))
    have := hw.1
    have e : loadText L sev [] = .err := rfl
    simp only [e] at this
    cases this
  refine ⟨[Effect.create (target p y n)], ⟨rest, by rw [he]; rfl⟩, hno, ?_⟩
  unfold assignIds
  cases ho : (applyAll d [Effect.create (target p y n)]).open L sev with
  | err => exact ⟨rfl, by simp⟩
  | panic => exact ⟨rfl, by simp⟩
  | ok db => exact absurd ho (hno db)

/-! ### Disks -/

/-- A front matter with this ID line and a tag that the toy parser reads. -/
def frontOf (idLine tag : String) : Str := ("[advisory]\n" ++ idLine ++ "\n" ++ tag).toList

/-- The table of a front matter. -/
def tomlOf (id date : String) : TomlTable :=
  [("advisory".toList, .table [("id".toList, .str id.toList), ("package".toList, .str "foo".toList),
    ("date".toList, .str date.toList)]),
   ("versions".toList, .table [("patched".toList, .arr [])])]

/-- A TOML parser that knows a few texts. -/
def assignToml (s : Str) : Option TomlTable :=
  if s = frontOf "id = \"RUSTSEC-2021-0001\"" "21" then some (tomlOf "RUSTSEC-2021-0001" "2021-03-04")
  else if s = frontOf "id = \"RUSTSEC-2021-0002\"" "21" then some (tomlOf "RUSTSEC-2021-0002" "2021-03-04")
  else if s = frontOf "id = \"RUSTSEC-0000-0000\"" "21" then some (tomlOf "RUSTSEC-0000-0000" "2021-03-04")
  else if s = frontOf "id = \"RUSTSEC-2021-0001\"" "20" then some (tomlOf "RUSTSEC-2021-0001" "2020-12-31")
  else if s = frontOf "id = 'RUSTSEC-0000-0000'" "21" then some (tomlOf "RUSTSEC-0000-0000" "2021-03-04")
  else if s = frontOf "id = \"RUSTSEC-0000-0000\"" "basic" then some (tomlOf "RUSTSEC-0000-0000" "20170101")
  else none

/-- Libraries for the examples.  `jiff` also reads the basic format `20170101`. -/
def assignLib : AdvLib where
  toml := assignToml
  civil := fun s => if s = "20170101".toList then some (2017, 1, 1) else refCivil s
  url := ⟨fun s => some s, fun _ => true⟩
  req := fun _ => none

/-- A document. -/
def assignDoc (front : Str) : Str := "```toml\n".toList ++ front ++ "\n```\n\n# T\n\nD\n".toList

/-- A file of the crate `foo`. -/
def fooFile (name : String) : Path := ⟨.crates, "foo".toList, name.toList⟩

/-- No severity. -/
def noSev : Cvss.Cvss → Severity := fun _ => .none

/-- An advisory of 2021 and two drafts. -/
def exDisk : Disk :=
  [(fooFile "RUSTSEC-0000-0000.md", assignDoc (frontOf "id = \"RUSTSEC-0000-0000\"" "21")),
   (fooFile "RUSTSEC-2021-0001.md", assignDoc (frontOf "id = \"RUSTSEC-2021-0001\"" "21")),
   (⟨.rust, "foo".toList, "RUSTSEC-0000-0000.md".toList⟩,
     assignDoc (frontOf "id = \"RUSTSEC-0000-0000\"" "21"))]

/-- What the examples look at. -/
def assignSummary (L : AdvLib) (d : Disk) : Outcome (List Assignment) × List Path :=
  ((assignIds L noSev d).result, created (assignIds L noSev d).effects)

/-- The hypotheses of the C51 and C52 theorems hold of it, and both drafts get an ID. -/
example : (exDisk.map Prod.fst).Nodup ∧
    assignSummary assignLib exDisk =
      (.ok [⟨"RUSTSEC-2021-0002".toList, "foo".toList⟩, ⟨"RUSTSEC-2021-0003".toList, "foo".toList⟩],
       [fooFile "RUSTSEC-2021-0002.md", ⟨.rust, "foo".toList, "RUSTSEC-2021-0003.md".toList⟩]) := by
  refine ⟨?_, ?_⟩ <;> decide +kernel

/-- `YearsAgree`, as a test. -/
def yearsAgreeB (db : Database) : Bool :=
  db.iter.all fun a => !decide (a.metadata.id.kind = .rustSec) ||
    (match a.metadata.id.year, a.metadata.date.year with
     | some y1, .ok y2 => decide (y1 = y2)
     | _, _ => true)

theorem yearsAgree_of_b {db : Database} (h : yearsAgreeB db = true) : YearsAgree db := by
  intro a ha hk y1 y2 h1 h2
  have := List.all_eq_true.mp h a ha
  rw [h1, h2] at this
  simpa [hk] using this

example : ∃ db, exDisk.open assignLib noSev = .ok db ∧ YearsAgree db ∧ db.iter.length = 1 := by
  have h : (match exDisk.open assignLib noSev with
    | .ok db => yearsAgreeB db && decide (db.iter.length = 1)
    | _ => false) = true := by decide +kernel
  cases ho : exDisk.open assignLib noSev with
  | err => rw [ho] at h; cases h
  | panic => rw [ho] at h; cases h
  | ok db =>
    rw [ho] at h
    simp only [Bool.and_eq_true, decide_eq_true_eq] at h
    exact ⟨db, rfl, yearsAgree_of_b h.1, h.2⟩

/-- After the run the disk holds the advisory and the two new files. -/
example : (applyAll exDisk (assignIds assignLib noSev exDisk).effects).read
      (fooFile "RUSTSEC-2021-0002.md") = some (assignDoc (frontOf "id = \"RUSTSEC-2021-0002\"" "21")) ∧
    (applyAll exDisk (assignIds assignLib noSev exDisk).effects).read (fooFile "RUSTSEC-0000-0000.md") =
      none := by
  refine ⟨?_, ?_⟩ <;> decide +kernel

/-- An advisory whose ID has the year after its date (2021 for 31 December 2020), and a draft of 2021. -/
def clashDisk : Disk :=
  [(fooFile "RUSTSEC-0000-0000.md", assignDoc (frontOf "id = \"RUSTSEC-0000-0000\"" "21")),
   (fooFile "RUSTSEC-2021-0001.md", assignDoc (frontOf "id = \"RUSTSEC-2021-0001\"" "20"))]

/-- **C51 and C52, violation.**  Numbers are counted by the year of the date, not of the ID.  If they differ, a
draft gets the ID of an existing advisory, and the text of that advisory is overwritten. -/
theorem C51_year_of_date_clash :
    ∃ (L : AdvLib) (sev : Cvss.Cvss → Severity) (d : Disk) (p : Path) (t : Str),
      (d.map Prod.fst).Nodup ∧ (∃ db, d.open L sev = .ok db) ∧
      d.read p = some t ∧ p ∈ created (assignIds L sev d).effects ∧
      ((assignIds L sev d).result).isOk = true ∧
      ∀ q, (applyAll d (assignIds L sev d).effects).read q ≠ some t := by
  refine ⟨assignLib, noSev, clashDisk, fooFile "RUSTSEC-2021-0001.md",
    assignDoc (frontOf "id = \"RUSTSEC-2021-0001\"" "20"), by decide +kernel, ?_, by decide +kernel,
    by decide +kernel, by decide +kernel, ?_⟩
  · have h : (clashDisk.open assignLib noSev).isOk = true := by decide +kernel
    cases ho : clashDisk.open assignLib noSev with
    | err => rw [ho] at h; cases h
    | panic => rw [ho] at h; cases h
    | ok db => exact ⟨db, rfl⟩
  · have h : (applyAll clashDisk (assignIds assignLib noSev clashDisk).effects).all (fun f =>
        decide (f.2 ≠ assignDoc (frontOf "id = \"RUSTSEC-2021-0001\"" "20"))) = true := by decide +kernel
    intro q hq
    have := of_decide_eq_true (List.all_eq_true.mp h _ (mem_of_read hq))
    exact this rfl

/-- A draft dated `20170101` gets an ID that is not a valid advisory ID. -/
example : assignSummary assignLib
      [(fooFile "RUSTSEC-2021-0001.md", assignDoc (frontOf "id = \"RUSTSEC-2021-0001\"" "21")),
       (fooFile "RUSTSEC-0000-0000.md", assignDoc (frontOf "id = \"RUSTSEC-0000-0000\"" "basic"))] =
      (.ok [⟨"RUSTSEC-20170101-0001".toList, "foo".toList⟩], [fooFile "RUSTSEC-20170101-0001.md"]) ∧
    Id.fromStr "RUSTSEC-20170101-0001".toList = .err := by
  refine ⟨?_, ?_⟩ <;> decide +kernel

/-- The disk when the run over `exDisk` (with its first draft only) stops just before the draft is removed. -/
def beforeRemove : Disk :=
  applyAll (exDisk.take 2) ((assignIds assignLib noSev (exDisk.take 2)).effects.dropLast)

/-- Rerun after that crash: the same text gets a second ID. -/
example : assignSummary assignLib beforeRemove =
    (.ok [⟨"RUSTSEC-2021-0003".toList, "foo".toList⟩], [fooFile "RUSTSEC-2021-0003.md"]) ∧
    beforeRemove.read (fooFile "RUSTSEC-2021-0002.md") =
      some (assignDoc (frontOf "id = \"RUSTSEC-2021-0002\"" "21")) := by
  refine ⟨?_, ?_⟩ <;> decide +kernel

/-- A draft whose ID is quoted in another way: the program fails, and leaves a file that breaks the database. -/
example :
    let d : Disk := [(fooFile "RUSTSEC-2021-0001.md", assignDoc (frontOf "id = \"RUSTSEC-2021-0001\"" "21")),
      (fooFile "RUSTSEC-0000-0000.md", assignDoc (frontOf "id = 'RUSTSEC-0000-0000'" "21"))]
    (d.open assignLib noSev).isOk = true ∧
    assignSummary assignLib d = (.err, [fooFile "RUSTSEC-2021-0002.md"]) ∧
    ((applyAll d (assignIds assignLib noSev d).effects).open assignLib noSev) = .err := by
  refine ⟨?_, ?_, ?_⟩ <;> decide +kernel

end Verif.Props
