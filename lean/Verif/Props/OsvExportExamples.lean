import Verif.Props.OsvExportAll

/-!
# C67: examples and limits
-/

namespace Verif.Props

open Verif.Adv Verif.Db Verif.Assign Verif.Git Verif.Osv Verif.Lock Verif.Export Verif.Sync Verif.Spec

/-- The table of a front matter. -/
def exportToml (id package date : String) (aliases patched : List String) : TomlTable :=
  [("advisory".toList, .table [("id".toList, .str id.toList), ("package".toList, .str package.toList),
    ("date".toList, .str date.toList), ("aliases".toList, .arr (aliases.map fun s => .str s.toList))]),
   ("versions".toList, .table [("patched".toList, .arr (patched.map fun s => .str s.toList))])]

/-- Libraries that know a few texts. -/
def exportLib : AdvLib where
  toml := fun s =>
    if s = "[advisory]\none".toList then
      some (exportToml "RUSTSEC-2021-0001" "foo" "2021-03-04" ["CVE-2021-1234"] [">= 1.2.3"])
    else if s = "[advisory]\ndraft1".toList then some (exportToml "RUSTSEC-0000-0000" "foo" "2021-03-04" [] [])
    else if s = "[advisory]\ndraft2".toList then some (exportToml "RUSTSEC-0000-0000" "bar" "2021-03-05" [] [">= 1.2.3"])
    else if s = "[advisory]\nlong".toList then some (exportToml "RUSTSEC-2024-10000" "foo" "2024-03-04" [] [])
    else if s = "[advisory]\nbasic".toList then some (exportToml "RUSTSEC-2017-0001" "foo" "20170101" [] [])
    else if s = "[advisory]\nstar".toList then some (exportToml "RUSTSEC-2021-0002" "foo" "2021-03-04" [] ["*"])
    else none
  civil := jiffLike
  url := ⟨fun s => some s, fun _ => true⟩
  req := fun s =>
    if s = ">= 1.2.3".toList then some ⟨[{ op := .greaterEq, major := 1, minor := some 2, patch := some 3 }]⟩
    else if s = "*".toList then some ⟨[]⟩
    else none

theorem jiffLike_law : IsoLaw jiffLike := by
  intro s y m d h
  have hl : s.length = 10 := by
    obtain ⟨ys, ms, ds, rfl, l1, l2, l3, _⟩ := h
    simp [l1, l2, l3]
  unfold jiffLike
  rw [if_neg]
  · exact refCivil_law s y m d h
  · rintro (rfl | rfl)
    · exact absurd hl (by decide)
    · exact absurd hl (by decide)

/-- These libraries follow the laws. -/
theorem exportLib_laws : ExportLaws exportLib where
  req := by
    intro s r h
    simp only [exportLib] at h
    split at h
    · cases h; decide
    · split at h
      · cases h; decide
      · cases h
  civil := jiffLike_law
  page := fun t _ => ⟨rfl, rfl⟩

/-- A document. -/
def exportDoc (front : String) : Str := assignDoc ("[advisory]\n" ++ front).toList

/-- A file of a crate, with its path in git. -/
def exportFileOf (package name front : String) : Path × Str :=
  (⟨.crates, package.toList, name.toList⟩, exportDoc front)

/-- The repository with these files, all of which were added by one commit at second 1614945600. -/
def exportRepo (fs : Disk) : ExportInput :=
  let c : GitCommit := ⟨[], ⟨1614945600, 0⟩, fs.map fun f => (cratePath f.1, 1)⟩
  { disk := fs, objects := [(0, c)], history := [0], head := c }

/-- 2021-03-05 is day 18691. -/
def exportCal : Int → Int × Nat × Nat := fun d => if d = 18691 then (2021, 3, 5) else (10000, 1, 1)

/-- An advisory and a draft. -/
def exportDisk : Disk :=
  [exportFileOf "foo" "RUSTSEC-2021-0001.md" "one", exportFileOf "foo" "RUSTSEC-0000-0000.md" "draft1"]

/-- An advisory's text with plain contents, as a test. -/
def plainTextB (L : AdvLib) (t : Str) : Bool :=
  match AdvisoryFile.fromStr L t with
  | .ok a => a.metadata.id.string.all (fun c => c.isAlphanum || c == '-' || c == '_' || c == '+') &&
      a.metadata.package.all (fun c => c.isAlphanum || c == '-' || c == '_' || c == '+') &&
      (decide (a.metadata.date.text = "2021-03-04".toList) && decide (a.metadata.withdrawn = none))
  | _ => true

theorem plain_of_b {L : AdvLib} {t : Str} (h : plainTextB L t = true) {a : AdvisoryFile}
    (ha : AdvisoryFile.fromStr L t = .ok a) : PlainAdvisory L t a := by
  unfold plainTextB at h
  rw [ha] at h
  simp only [Bool.and_eq_true, List.all_eq_true, Bool.or_eq_true, beq_iff_eq, decide_eq_true_eq] at h
  obtain ⟨⟨h1, h2⟩, h3, h4⟩ := h
  refine ⟨ha, fun c hc => ?_, fun c hc => ?_, ?_, fun d hd => by rw [h4] at hd; cases hd⟩
  · have := h1 c hc; unfold nameChar; tauto
  · have := h2 c hc; unfold nameChar; tauto
  · exact ⟨2021, 3, 4, "2021".toList, "03".toList, "04".toList, by rw [h3]; decide, by decide, by decide, by decide,
      by decide, by decide, by decide, by decide⟩

/-- The hypotheses of `C67_succeeds_iff`, `C67_files` and `C67_interrupted` are met by this repository, and the export
succeeds. -/
example : (exportDisk.map Prod.fst).Nodup ∧ (∀ f ∈ exportDisk, ¬ ['.'] <+: f.1.file) ∧
    (∃ db, exportDisk.open exportLib noSev = .ok db ∧ db.iter.length = 1 ∧
      ∀ a ∈ db.iter, a.metadata.id.kind = .rustSec) ∧
    (∀ p t a, (p, t) ∈ (exportRepo exportDisk).disk → p.collection = .crates →
      AdvisoryFile.fromStr exportLib t = .ok a → PlainAdvisory exportLib t a) ∧
    (osvCommand exportLib exportCal (exportRepo exportDisk)).result = .ok () ∧
    (osvCommand exportLib exportCal (exportRepo exportDisk)).writes.map (fun w => (w.1, w.2.modified, w.2.published)) =
      [("RUSTSEC-2021-0001.json".toList, "2021-03-05T12:00:00Z".toList, "2021-03-04T12:00:00Z".toList),
       ("RUSTSEC-0000-0000.json".toList, "2021-03-05T12:00:00Z".toList, "2021-03-04T12:00:00Z".toList)] := by
  refine ⟨by decide +kernel, by decide +kernel, ?_, ?_, ?_, by decide +kernel⟩
  · have h : (match exportDisk.open exportLib noSev with
      | .ok db => decide (db.iter.length = 1) && db.iter.all fun a => decide (a.metadata.id.kind = .rustSec)
      | _ => false) = true := by decide +kernel
    cases ho : exportDisk.open exportLib noSev with
    | err => rw [ho] at h; cases h
    | panic => rw [ho] at h; cases h
    | ok db =>
      rw [ho] at h
      simp only [Bool.and_eq_true, decide_eq_true_eq, List.all_eq_true] at h
      exact ⟨db, rfl, h⟩
  · intro p t a hm _ ha
    have hall : exportDisk.all (fun f => plainTextB exportLib f.2) = true := by decide +kernel
    exact plain_of_b (List.all_eq_true.mp hall _ hm) ha
  · have h : (osvCommand exportLib exportCal (exportRepo exportDisk)).result.isOk = true := by decide +kernel
    cases hr : (osvCommand exportLib exportCal (exportRepo exportDisk)).result with
    | ok u => rfl
    | err => rw [hr] at h; cases h
    | panic => rw [hr] at h; cases h

/-- The record of the example: vulnerable from 0 to 1.2.3, with two references. -/
example : (osvCommand exportLib exportCal (exportRepo exportDisk)).writes.map (fun w =>
      (w.2.affected.map fun p => p.events.length, w.2.aliases.map Id.display,
        w.2.references.map fun r => (r.kind, r.url.text))) =
    [([2], ["CVE-2021-1234".toList],
        [(.package, "https://crates.io/crates/foo".toList),
         (.advisory, "https://rustsec.org/advisories/RUSTSEC-2021-0001.html".toList)]),
     ([1], [], [(.package, "https://crates.io/crates/foo".toList),
         (.advisory, "https://rustsec.org/advisories/RUSTSEC-0000-0000.html".toList)])] := by
  decide +kernel

/-- **C67, violation.**  Drafts are exported too, and all of them to `RUSTSEC-0000-0000.json`: of two drafts, one is
lost. -/
theorem C67_drafts_overwrite :
    ∃ (L : AdvLib) (cal : Int → Int × Nat × Nat) (i : ExportInput),
      ExportLaws L ∧ (osvCommand L cal i).result = .ok () ∧
      (osvCommand L cal i).writes.map (fun w => (w.1, w.2.affected.map OsvAffected.name)) =
        [("RUSTSEC-0000-0000.json".toList, ["foo".toList]), ("RUSTSEC-0000-0000.json".toList, ["bar".toList])] ∧
      ((osvCommand L cal i).file "RUSTSEC-0000-0000.json".toList).map (fun o => o.affected.map OsvAffected.name) =
        some ["bar".toList] := by
  refine ⟨exportLib, exportCal, exportRepo [exportFileOf "foo" "RUSTSEC-0000-0000.md" "draft1",
    exportFileOf "bar" "RUSTSEC-0000-0000.md" "draft2"], exportLib_laws, ?_, by decide +kernel, by decide +kernel⟩
  have h : (osvCommand exportLib exportCal (exportRepo [exportFileOf "foo" "RUSTSEC-0000-0000.md" "draft1",
    exportFileOf "bar" "RUSTSEC-0000-0000.md" "draft2"])).result.isOk = true := by decide +kernel
  cases hr : (osvCommand exportLib exportCal (exportRepo [exportFileOf "foo" "RUSTSEC-0000-0000.md" "draft1",
    exportFileOf "bar" "RUSTSEC-0000-0000.md" "draft2"])).result with
  | ok u => rfl
  | err => rw [hr] at h; cases h
  | panic => rw [hr] at h; cases h

/-- **C67, violation.**  A date that the advisory format accepts (`20170101`) makes the export panic. -/
theorem C67_basic_date_panics :
    ∃ (L : AdvLib) (cal : Int → Int × Nat × Nat) (i : ExportInput), ExportLaws L ∧
      (i.disk.open L noSev).isOk = true ∧ (osvCommand L cal i).result = .panic := by
  refine ⟨exportLib, exportCal, exportRepo [exportFileOf "foo" "RUSTSEC-2017-0001.md" "basic"], exportLib_laws,
    by decide +kernel, ?_⟩
  have h : (match (osvCommand exportLib exportCal (exportRepo
    [exportFileOf "foo" "RUSTSEC-2017-0001.md" "basic"])).result with | .panic => true | _ => false) = true := by
    decide +kernel
  cases hr : (osvCommand exportLib exportCal (exportRepo
    [exportFileOf "foo" "RUSTSEC-2017-0001.md" "basic"])).result with
  | panic => rfl
  | ok u => rw [hr] at h; cases h
  | err => rw [hr] at h; cases h

/-- **C67, violation.**  An ID with five digits after the year is exported, but its page reads back as another ID. -/
theorem C67_long_id_not_read_back :
    ∃ (L : AdvLib) (cal : Int → Int × Nat × Nat) (i : ExportInput), ExportLaws L ∧
      (i.disk.open L noSev).isOk = true ∧ (osvCommand L cal i).result = .ok () ∧
      (osvCommand L cal i).writes.map (fun w => (w.2.id.display, match w.2.record.rustsecRefs with
        | .ok ids => ids.map Id.display
        | _ => [])) = [("RUSTSEC-2024-10000".toList, ["RUSTSEC-2024-1000".toList])] := by
  refine ⟨exportLib, exportCal, exportRepo [exportFileOf "foo" "RUSTSEC-2024-10000.md" "long"], exportLib_laws,
    by decide +kernel, ?_, by decide +kernel⟩
  have h : (osvCommand exportLib exportCal (exportRepo
    [exportFileOf "foo" "RUSTSEC-2024-10000.md" "long"])).result.isOk = true := by decide +kernel
  cases hr : (osvCommand exportLib exportCal (exportRepo
    [exportFileOf "foo" "RUSTSEC-2024-10000.md" "long"])).result with
  | ok u => rfl
  | err => rw [hr] at h; cases h
  | panic => rw [hr] at h; cases h

/-- **C67, violation.**  An advisory that affects no version (`patched = ["*"]`) makes the export panic. -/
theorem C67_nothing_affected_panics :
    ∃ (L : AdvLib) (cal : Int → Int × Nat × Nat) (i : ExportInput), ExportLaws L ∧
      (i.disk.open L noSev).isOk = true ∧ (osvCommand L cal i).result = .panic := by
  refine ⟨exportLib, exportCal, exportRepo [exportFileOf "foo" "RUSTSEC-2021-0002.md" "star"], exportLib_laws,
    by decide +kernel, ?_⟩
  have h : (match (osvCommand exportLib exportCal (exportRepo
    [exportFileOf "foo" "RUSTSEC-2021-0002.md" "star"])).result with | .panic => true | _ => false) = true := by
    decide +kernel
  cases hr : (osvCommand exportLib exportCal (exportRepo
    [exportFileOf "foo" "RUSTSEC-2021-0002.md" "star"])).result with
  | panic => rfl
  | ok u => rw [hr] at h; cases h
  | err => rw [hr] at h; cases h

end Verif.Props
