import Verif.Props.ProjectJson
import Verif.Props.OsvExportExamples

/-!
# C91: examples

A project whose lockfile has a vulnerable version of `foo`, and what changes the verdict.
-/

namespace Verif.Props

open Verif.Audit Verif.Adv Verif.Semver Verif.Spec Verif.Lock

/-- The text of lines. -/
private def lines (l : List String) : Str := l.flatMap fun s => s.toList ++ ['\n']

/-- A lockfile with one package from crates.io, at a given version, and the project itself. -/
def projectLock (version : String) : Str := lines
  ["version = 3",
   "[[package]]",
   "name = \"app\"",
   "version = \"0.1.0\"",
   "dependencies = [\"foo\"]",
   "[[package]]",
   "name = \"foo\"",
   "version = \"" ++ version ++ "\"",
   "source = \"registry+https://github.com/rust-lang/crates.io-index\""]

/-- An advisory about `foo`. -/
def projectAdvisory (extra : List String) : Str := lines (
  ["```toml",
   "[advisory]",
   "id = \"RUSTSEC-2021-0001\"",
   "package = \"foo\"",
   "date = \"2021-03-04\""] ++ extra ++
  ["[versions]",
   "patched = [\">= 1.2.3\", \"~1.0.9\"]",
   "```",
   "# It breaks",
   "",
   "Text."])

/-- A project with a lockfile, perhaps a configuration, and one advisory in the database. -/
def exProject (lock : Str) (config : Option Str) (advisory : Str) : Project where
  cargoHome := none
  pathExists := fun p => decide (p = "Cargo.lock".toList) || (config.isSome && decide (p = projectConfig))
  contents := fun p =>
    if p = "Cargo.lock".toList then some lock else if p = projectConfig then config else none
  stdin := none
  generated := none
  checkoutAt := fun _ =>
    { crates := some [.dir "foo".toList [.file "RUSTSEC-2021-0001.md".toList (some advisory)]], rust := some [] }
  fetched := fun _ _ _ => some
    { crates := some [.dir "foo".toList [.file "RUSTSEC-2021-0001.md".toList (some advisory)]], rust := some [] }
  defaultPath := []
  fetchIndex := true
  openIndex := true
  registry := { cached := fun _ => .versions [], download := some (fun _ => .versions []) }
  toolVersion := ⟨0, 22, 0, [], []⟩
  libVersion := ⟨0, 31, 0, [], []⟩
  url := toyUrl
  civil := jiffLike
  fp := Cvss.binary64

/-- A configuration that ignores the advisory. -/
def ignoringConfig : Str := lines ["[advisories]", "ignore = [\"RUSTSEC-2021-0001\"]"]

/-- A vulnerable version: the run fails. -/
example : ((exProject (projectLock "1.2.2") none (projectAdvisory [])).run {}).2 = .code 1 := by decide +kernel

/-- A patched version, in a range or above. -/
example : ((exProject (projectLock "1.2.3") none (projectAdvisory [])).run {}).2 = .code 0 ∧
    ((exProject (projectLock "1.0.10") none (projectAdvisory [])).run {}).2 = .code 0 := by decide +kernel

/-- An ignored advisory. -/
example : ((exProject (projectLock "1.2.2") (some ignoringConfig) (projectAdvisory [])).run {}).2 = .code 0 := by
  decide +kernel

/-- A withdrawn advisory, and an informational one. -/
example : ((exProject (projectLock "1.2.2") none (projectAdvisory ["withdrawn = \"2021-05-06\""])).run {}).2 = .code 0 ∧
    ((exProject (projectLock "1.2.2") none (projectAdvisory ["informational = \"unsound\""])).run {}).2 = .code 0 := by
  decide +kernel

/-- A configuration with a threshold. -/
def thresholdConfig : Str := lines ["[advisories]", "severity_threshold = \"high\""]

/-- A score of 6.4 is below the threshold; a score of 9.8 is not. -/
example : ((exProject (projectLock "1.2.2") (some thresholdConfig)
      (projectAdvisory ["cvss = \"CVSS:3.1/AV:L/AC:H/PR:H/UI:N/S:U/C:H/I:H/A:H\""])).run {}).2 = .code 0 ∧
    ((exProject (projectLock "1.2.2") (some thresholdConfig)
      (projectAdvisory ["cvss = \"CVSS:3.1/AV:N/AC:L/PR:N/UI:N/S:U/C:H/I:H/A:H\""])).run {}).2 = .code 1 := by
  decide +kernel

/-- A version that cannot be read, a configuration that cannot be read, an advisory that cannot be read. -/
example : ((exProject (projectLock "1.2") none (projectAdvisory [])).run {}).2 = .code 2 ∧
    ((exProject (projectLock "1.2.2") (some (lines ["[advisory]"])) (projectAdvisory [])).run {}).2 = .code 1 ∧
    ((exProject (projectLock "1.2.3") none (projectAdvisory ["url = 1"])).run {}).2 = .code 1 := by decide +kernel

/-- The outcome is a value with a property. -/
private def okWith {α : Type} (o : Outcome α) (p : α → Bool) : Bool :=
  match o with
  | .ok a => p a
  | _ => false

private theorem okWith_some {α : Type} {o : Outcome α} {p : α → Bool} (h : okWith o p = true) :
    ∃ a, o = .ok a ∧ p a = true := by
  cases o with
  | ok a => exact ⟨a, rfl, h⟩
  | err => cases h
  | panic => cases h

/-- The hypotheses of C91 are met by a project whose texts are damning, and by one whose texts are not. -/
theorem exProject_meets (version : String) (hv : version = "1.2.2" ∨ version = "1.2.3") :
    let P := exProject (projectLock version) none (projectAdvisory [])
    let cmd : AuditCommand := { outputFormat := some .json, noFetch := true }
    ∃ c text l ch db, Configured P cmd c ∧ LockOf P cmd.file text ∧
      Lockfile.fromText (semverCodec P.url) Toml.read text = .ok l ∧ CheckoutOf P c ch ∧
      Db.Database.open (ch.tree P.advLib P.severityOf) = .ok db ∧ Printable c l ∧
      (Damning P cmd.file c ch text ↔ version = "1.2.2") := by
  intro P cmd
  have hconf : okWith (effectiveConfig P.configWorld cmd) (fun c => decide (c.output.format = .json) &&
      !c.database.fetch) = true := by
    rcases hv with rfl | rfl <;> decide +kernel
  obtain ⟨c, hc, hcj⟩ := okWith_some hconf
  simp only [Bool.and_eq_true, decide_eq_true_eq, Bool.not_eq_true'] at hcj
  have hlock : okWith (Lockfile.fromText (semverCodec P.url) Toml.read (projectLock version)) (fun _ => true) = true := by
    rcases hv with rfl | rfl <;> decide +kernel
  obtain ⟨l, hl, -⟩ := okWith_some hlock
  have hdb : okWith (Db.Database.open ((P.checkoutAt []).tree P.advLib P.severityOf)) (fun _ => true) = true := by
    show okWith (Db.Database.open (((exProject [] none (projectAdvisory [])).checkoutAt []).tree
      (exProject [] none (projectAdvisory [])).advLib (exProject [] none (projectAdvisory [])).severityOf)) (fun _ => true) = true
    decide +kernel
  obtain ⟨db, hdb, -⟩ := okWith_some hdb
  have h1 : Configured P cmd c := (configured_iff P cmd c).mp hc
  have h2 : LockOf P cmd.file (projectLock version) := .found rfl (.inl rfl)
  have h3 : CheckoutOf P c (P.checkoutAt []) := CheckoutOf.files (P := P) (c := c) hcj.2
  have h4 : Printable c l := fun h => by rw [hcj.1] at h; cases h
  refine ⟨c, _, l, _, db, h1, h2, hl, h3, hdb, h4, ?_⟩
  obtain ⟨r, out, n, hrun, -, -, -, hn⟩ := C91_verdict P Cvss.binary64_ok cmd c h1 _ h2 l hl _ h3 db hdb h4
  rw [← hn]
  have he : (P.run cmd).2 = .code n := by rw [hrun]
  rcases hv with rfl | rfl
  · have : (P.run cmd).2 = .code 1 := by decide +kernel
    rw [this] at he; cases he; simp
  · have : (P.run cmd).2 = .code 0 := by decide +kernel
    rw [this] at he; cases he; simp

/-- What `--json` prints for the example, from the texts. -/
private def printedJson (version : String) : Option Json :=
  let P := exProject (projectLock version) none (projectAdvisory [])
  match P.run { outputFormat := some .json, noFetch := true }, P.loadLock none "Cargo.lock".toList with
  | (some (.json r), _), some l =>
    match AuditJson.jsonOutput (P.reportLib Unit (fun _ => none) (fun _ => none)) (P.checkoutAt []) none l r with
    | .ok text => readJson text.dropLast
    | _ => none
  | _, _ => none

private def isText (s : String) : Option Json → Bool
  | some (.str t) => decide (t = s.toList)
  | _ => false

/-- The vulnerable version is listed; the patched one is not. -/
example : (printedJson "1.2.2").any (fun j =>
      isText "RUSTSEC-2021-0001" (jsonAt [.key "vulnerabilities", .key "list", .idx 0, .key "advisory", .key "id"] j) &&
      isText "foo" (jsonAt [.key "vulnerabilities", .key "list", .idx 0, .key "package", .key "name"] j) &&
      isText "1.2.2" (jsonAt [.key "vulnerabilities", .key "list", .idx 0, .key "package", .key "version"] j)) = true ∧
    (printedJson "1.2.3").any (fun j => (jsonAt [.key "vulnerabilities", .key "list", .idx 0] j).isNone) = true := by
  decide +kernel

/-- A checkout with a file in the directory of a package. -/
private def oneFile (dir name : String) (texts : List Str) : AdminLint.Checkout :=
  { crates := some [.dir dir.toList (texts.map fun t => .file name.toList (some t)), .other "README".toList], rust := none }

/-- A database that can be read; and ones that cannot: a wrong directory, a wrong name, an ID twice, no advisory. -/
example : let P := exProject [] none []
    DatabaseReads P.advLib (oneFile "foo" "RUSTSEC-2021-0001.md" [projectAdvisory []]) ∧
    DatabaseReads P.advLib (oneFile "foo" ".RUSTSEC-2021-0001.md" [[]]) ∧
    ¬ DatabaseReads P.advLib (oneFile "bar" "RUSTSEC-2021-0001.md" [projectAdvisory []]) ∧
    ¬ DatabaseReads P.advLib (oneFile "foo" "RUSTSEC-2021-0002.md" [projectAdvisory []]) ∧
    ¬ DatabaseReads P.advLib (oneFile "foo" "RUSTSEC-2021-0001.md" [projectAdvisory [], projectAdvisory []]) ∧
    ¬ DatabaseReads P.advLib (oneFile "foo" "RUSTSEC-2021-0001.md" [[]]) := by
  intro P
  have yes : ∀ ch, okWith (Db.Database.open (ch.tree P.advLib P.severityOf)) (fun _ => true) = true →
      DatabaseReads P.advLib ch := fun ch h => by
    obtain ⟨db, hdb, -⟩ := okWith_some h
    exact (C91_database P ch).mp ⟨db, hdb⟩
  have no : ∀ ch, okWith (Db.Database.open (ch.tree P.advLib P.severityOf)) (fun _ => true) = false →
      ¬ DatabaseReads P.advLib ch := fun ch h hr => by
    obtain ⟨db, hdb⟩ := (C91_database P ch).mpr hr
    rw [hdb] at h
    cases h
  refine ⟨yes _ ?_, yes _ ?_, no _ ?_, no _ ?_, no _ ?_, no _ ?_⟩ <;> decide +kernel

end Verif.Props
