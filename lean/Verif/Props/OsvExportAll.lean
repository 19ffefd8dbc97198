import Verif.Props.OsvExport
import Verif.Props.AssignerExamples

/-!
# C67: exporting the whole database
-/

namespace Verif.Props

open Verif.Adv Verif.Db Verif.Assign Verif.Git Verif.Osv Verif.Lock Verif.Export Verif.Sync Verif.Spec

/-! ### The loop -/

/-- The loop succeeds iff each file does, and then writes what the files say, in order. -/
theorem exportFiles_ok (W : ExportEnv) (fs : List (Path × Str)) :
    ((exportFiles W fs).result = .ok () ↔ ∀ f ∈ fs, ∃ r, exportFile W f = .ok r) ∧
    ((exportFiles W fs).result = .ok () → ∀ w, w ∈ (exportFiles W fs).writes ↔
      ∃ f ∈ fs, exportFile W f = .ok (some w)) := by
  induction fs with
  | nil => simp [exportFiles]
  | cons f fs ih =>
    cases he : exportFile W f with
    | err => simp [exportFiles, he]
    | panic => simp [exportFiles, he]
    | ok r =>
      cases r with
      | none =>
        have e : exportFiles W (f :: fs) = exportFiles W fs := by rw [exportFiles, he]
        rw [e]
        refine ⟨by simp [ih.1, he], fun h w => ?_⟩
        rw [ih.2 h w]
        simp [he]
      | some w0 =>
        have e : exportFiles W (f :: fs) =
            { exportFiles W fs with writes := w0 :: (exportFiles W fs).writes } := by rw [exportFiles, he]
        rw [e]
        refine ⟨by simp [ih.1, he], fun h w => ?_⟩
        have := ih.2 h w
        simp only [List.mem_cons, this]
        constructor
        · rintro (rfl | ⟨g, hg, h2⟩)
          · exact ⟨f, .inl rfl, he⟩
          · exact ⟨g, .inr hg, h2⟩
        · rintro ⟨g, rfl | hg, h2⟩
          · rw [he] at h2; cases h2; exact .inl rfl
          · exact .inr ⟨g, hg, h2⟩

/-- A run that fails has exported the files before the one that made it fail. -/
theorem exportFiles_failed (W : ExportEnv) (fs : List (Path × Str)) (h : (exportFiles W fs).result ≠ .ok ()) :
    ∃ pre f post, fs = pre ++ f :: post ∧ (∀ r, exportFile W f ≠ .ok r) ∧ (exportFiles W pre).result = .ok () ∧
      (exportFiles W fs).writes = (exportFiles W pre).writes := by
  induction fs with
  | nil => exact absurd rfl h
  | cons f fs ih =>
    cases he : exportFile W f with
    | err => exact ⟨[], f, fs, rfl, by simp [he], rfl, by simp [exportFiles, he]⟩
    | panic => exact ⟨[], f, fs, rfl, by simp [he], rfl, by simp [exportFiles, he]⟩
    | ok r =>
      cases r with
      | none =>
        have e : ∀ l, exportFiles W (f :: l) = exportFiles W l := by intro l; rw [exportFiles, he]
        rw [e] at h ⊢
        obtain ⟨pre, g, post, h1, h2, h3, h4⟩ := ih h
        exact ⟨f :: pre, g, post, by rw [h1]; rfl, h2, by rw [e]; exact h3, by rw [e]; exact h4⟩
      | some w0 =>
        have e : ∀ l, exportFiles W (f :: l) =
            { exportFiles W l with writes := w0 :: (exportFiles W l).writes } := by intro l; rw [exportFiles, he]
        rw [e] at h ⊢
        obtain ⟨pre, g, post, h1, h2, h3, h4⟩ := ih h
        exact ⟨f :: pre, g, post, by rw [h1]; rfl, h2, by rw [e]; exact h3, by rw [e]; simp only; rw [h4]⟩

theorem exportable_iff (a : AdvisoryFile) : exportable a = true ↔ Exported a.metadata.informational := by
  unfold exportable Exported
  cases a.metadata.informational with
  | none => simp
  | some i => cases i <;> simp

/-- What happens to one file. -/
theorem exportFile_iff (W : ExportEnv) (p : Path) (t : Str) :
    ((∃ r, exportFile W (p, t) = .ok r) ↔ ∃ a, AdvisoryFile.fromStr W.adv t = .ok a ∧
      (Exported a.metadata.informational → W.tracked (gitPath p) = true ∧
        ∃ o, fromRustsec W.cal W.adv.url a W.modTimes (gitPath p) = .ok o)) ∧
    ∀ name o, exportFile W (p, t) = .ok (some (name, o)) ↔ ∃ a, AdvisoryFile.fromStr W.adv t = .ok a ∧
      Exported a.metadata.informational ∧ W.tracked (gitPath p) = true ∧
      fromRustsec W.cal W.adv.url a W.modTimes (gitPath p) = .ok o ∧ name = setJson a.metadata.id.string := by
  unfold exportFile
  dsimp only
  cases ha : AdvisoryFile.fromStr W.adv t with
  | err => simp
  | panic => simp
  | ok a =>
    dsimp only
    by_cases hx : exportable a = true
    · have hx' := (exportable_iff a).mp hx
      rw [if_pos hx]
      by_cases ht : W.tracked (gitPath p) = true
      · rw [if_pos ht]
        cases hf : fromRustsec W.cal W.adv.url a W.modTimes (gitPath p) with
        | err => simp [hx', hf]
        | panic => simp [hx', hf]
        | ok o =>
          simp only [Outcome.bind_ok, Id.display]
          refine ⟨⟨fun _ => ⟨a, rfl, fun _ => ⟨ht, o, hf⟩⟩, fun _ => ⟨_, rfl⟩⟩, fun name o' => ?_⟩
          constructor
          · intro h
            cases h
            exact ⟨a, rfl, hx', ht, hf, rfl⟩
          · rintro ⟨a', h1, -, -, h4, h5⟩
            cases h1
            rw [hf] at h4
            cases h4
            rw [h5]
      · rw [if_neg ht]
        simp [hx', ht]
    · have hx' : ¬ Exported a.metadata.informational := fun h => hx ((exportable_iff a).mpr h)
      rw [if_neg hx]
      simp [hx']

theorem takeWhile_noDot {s : Str} (h : '.' ∉ s) : s.takeWhile (fun c => !decide (c = '.')) = s := by
  induction s with
  | nil => rfl
  | cons c s ih =>
    have : c ≠ '.' := fun e => h (by simp [e])
    simp [List.takeWhile, this, ih fun hm => h (List.mem_cons_of_mem _ hm)]

theorem setJson_noDot {s : Str} (h : '.' ∉ s) : setJson s = s ++ ".json".toList := by
  unfold setJson
  dsimp only
  rw [takeWhile_noDot (by simpa using h), List.length_reverse, List.drop_of_length_le (by simp)]

theorem gitPath_crates {p : Path} (h : p.collection = .crates) : gitPath p = cratePath p := by
  unfold gitPath cratePath
  rw [h]
  simp only [Collection.asStr, List.append_assoc]
  rfl

/-! ### The command -/

theorem env_ok {L : AdvLib} {cal : Int → Int × Nat × Nat} {db : Objects} {ids : List Nat} {head : GitCommit}
    {W : ExportEnv} (h : ExportEnv.new L cal db ids head = .ok W) :
    W.adv = L ∧ W.cal = cal ∧ ModTimes.new db ids = .ok W.modTimes ∧
      ∀ p, W.tracked p = true ↔ head.tree.lookup p ≠ none := by
  unfold ExportEnv.new at h
  cases hm : ModTimes.new db ids with
  | ok m =>
    rw [hm] at h
    cases h
    refine ⟨rfl, rfl, rfl, fun p => ?_⟩
    show (head.tree.lookup p).isSome = true ↔ _
    cases head.tree.lookup p <;> simp only [Option.isSome_none, Option.isSome_some, ne_eq, reduceCtorEq, not_true,
      not_false_eq_true, Bool.false_eq_true]
  | err => rw [hm] at h; cases h
  | panic => rw [hm] at h; cases h

theorem mem_crates_disk {d : Disk} {f : Path × Str} :
    f ∈ d.collection .crates ↔ f ∈ d ∧ f.1.collection = .crates := by
  unfold Disk.collection
  rw [List.mem_filter]
  simp

/-- The command succeeds only through the loop. -/
theorem osvCommand_ok {L : AdvLib} {cal : Int → Int × Nat × Nat} {i : ExportInput} :
    (osvCommand L cal i).result = .ok () ↔ ∃ W, ExportEnv.new L cal i.objects i.history i.head = .ok W ∧
      i.disk.collection .crates ≠ [] ∧ (exportFiles W (i.disk.collection .crates)).result = .ok () ∧
      osvCommand L cal i = exportFiles W (i.disk.collection .crates) := by
  unfold osvCommand
  cases hW : ExportEnv.new L cal i.objects i.history i.head with
  | err => simp
  | panic => simp
  | ok W =>
    simp only [Outcome.ok.injEq, exists_eq_left']
    unfold exportAll
    cases hd : i.disk.collection .crates with
    | nil => simp
    | cons f fs => simp

/-- **C67 (when the export succeeds).**  It does iff the history can be read, there is at least one advisory file of
a crate, and every such file parses and — unless it is of an informational kind that is not exported — is in the
head commit, was changed by a commit other than a merge, at a time that can be written, and affects some version. -/
theorem C67_succeeds_iff (L : AdvLib) (laws : ExportLaws L) (cal : Int → Int × Nat × Nat) (i : ExportInput)
    (hplain : ∀ p t a, (p, t) ∈ i.disk → p.collection = .crates → AdvisoryFile.fromStr L t = .ok a →
      PlainAdvisory L t a) :
    (osvCommand L cal i).result = .ok () ↔
      (∀ id ∈ i.history, i.objects.lookup id ≠ none) ∧ (∃ f ∈ i.disk, f.1.collection = .crates) ∧
      ∀ p t, (p, t) ∈ i.disk → p.collection = .crates → ∃ a, AdvisoryFile.fromStr L t = .ok a ∧
        (Exported a.metadata.informational →
          i.head.tree.lookup (cratePath p) ≠ none ∧
          (∃ time, LastChange i.objects i.history (cratePath p) time ∧ Representable cal time) ∧
          ¬ NothingAffected a.versions) := by
  have hhist : (∃ W, ExportEnv.new L cal i.objects i.history i.head = .ok W) ↔
      ∀ id ∈ i.history, i.objects.lookup id ≠ none := by
    have hw := walk_ok_iff i.objects i.history {}
    have : (∃ W, ExportEnv.new L cal i.objects i.history i.head = .ok W) ↔
        ∃ m, ModTimes.new i.objects i.history = .ok m := by
      unfold ExportEnv.new
      cases ModTimes.new i.objects i.history <;> simp
    rw [this]
    exact hw
  have hne : i.disk.collection .crates ≠ [] ↔ ∃ f ∈ i.disk, f.1.collection = .crates := by
    rw [← List.isEmpty_eq_false_iff, List.isEmpty_eq_false_iff_exists_mem]
    simp only [mem_crates_disk]
  have hfiles : ∀ W, ExportEnv.new L cal i.objects i.history i.head = .ok W →
      ((exportFiles W (i.disk.collection .crates)).result = .ok () ↔
        ∀ p t, (p, t) ∈ i.disk → p.collection = .crates → ∃ a, AdvisoryFile.fromStr L t = .ok a ∧
        (Exported a.metadata.informational →
          i.head.tree.lookup (cratePath p) ≠ none ∧
          (∃ time, LastChange i.objects i.history (cratePath p) time ∧ Representable cal time) ∧
          ¬ NothingAffected a.versions)) := by
    intro W hW
    obtain ⟨e1, e2, e3, e4⟩ := env_ok hW
    rw [(exportFiles_ok W _).1]
    constructor
    · intro h p t hm hc
      obtain ⟨a, ha, hx⟩ := (exportFile_iff W p t).1.mp (h (p, t) (mem_crates_disk.mpr ⟨hm, hc⟩))
      rw [e1] at ha hx
      refine ⟨a, ha, fun he => ?_⟩
      obtain ⟨h1, h2⟩ := hx he
      rw [gitPath_crates hc, e2] at h2
      rw [e4, gitPath_crates hc] at h1
      exact ⟨h1, (C67_record_exists L laws cal _ _ _ e3 _ t a (hplain p t a hm hc ha)).1.mp h2⟩
    · intro h f hf
      obtain ⟨p, t⟩ := f
      obtain ⟨hm, hc⟩ := mem_crates_disk.mp hf
      obtain ⟨a, ha, hx⟩ := h p t hm hc
      refine (exportFile_iff W p t).1.mpr ⟨a, by rw [e1]; exact ha, fun he => ?_⟩
      obtain ⟨h1, h2⟩ := hx he
      rw [e4, gitPath_crates hc, e1, e2]
      exact ⟨h1, (C67_record_exists L laws cal _ _ _ e3 _ t a (hplain p t a hm hc ha)).1.mpr h2⟩
  rw [osvCommand_ok, ← hhist, ← hne]
  constructor
  · rintro ⟨W, hW, h1, h2, -⟩
    exact ⟨⟨W, hW⟩, h1, (hfiles W hW).mp h2⟩
  · rintro ⟨⟨W, hW⟩, h1, h2⟩
    refine ⟨W, hW, h1, (hfiles W hW).mpr h2, ?_⟩
    unfold osvCommand
    rw [hW]
    dsimp only
    unfold exportAll
    rw [if_neg (by simpa using h1)]

/-! ### The files that are written -/

theorem lookup_mem {l : List (Str × OsvAdvisory)} {n : Str} {o : OsvAdvisory} (h : l.lookup n = some o) : (n, o) ∈ l := by
  induction l with
  | nil => cases h
  | cons x l ih =>
    obtain ⟨k, v⟩ := x
    rw [List.lookup_cons] at h
    split at h
    · rename_i he
      cases h
      rw [eq_of_beq he]; exact List.mem_cons_self
    · exact List.mem_cons_of_mem _ (ih h)

theorem lookup_written {l : List (Str × OsvAdvisory)} {n : Str} {o : OsvAdvisory} (h : (n, o) ∈ l) :
    ∃ o', l.lookup n = some o' := by
  induction l with
  | nil => cases h
  | cons x l ih =>
    obtain ⟨k, v⟩ := x
    rw [List.lookup_cons]
    split
    · exact ⟨v, rfl⟩
    · rename_i he
      rcases List.mem_cons.mp h with e | h
      · cases e; simp at he
      · exact ih h

/-- The record written for a file. -/
theorem written_iff {L : AdvLib} {cal : Int → Int × Nat × Nat} {i : ExportInput}
    (h : (osvCommand L cal i).result = .ok ()) :
    ∃ m, ModTimes.new i.objects i.history = .ok m ∧ ∀ name o, (name, o) ∈ (osvCommand L cal i).writes ↔
      ∃ p t a, (p, t) ∈ i.disk ∧ p.collection = .crates ∧ AdvisoryFile.fromStr L t = .ok a ∧
        Exported a.metadata.informational ∧ fromRustsec cal L.url a m (cratePath p) = .ok o ∧
        name = setJson a.metadata.id.string := by
  obtain ⟨W, hW, -, h1, h2⟩ := osvCommand_ok.mp h
  obtain ⟨e1, e2, e3, e4⟩ := env_ok hW
  refine ⟨W.modTimes, e3, fun name o => ?_⟩
  rw [h2, (exportFiles_ok W _).2 h1]
  constructor
  · rintro ⟨⟨p, t⟩, hf, he⟩
    obtain ⟨hm, hc⟩ := mem_crates_disk.mp hf
    obtain ⟨a, ha, hx, -, ho, hn⟩ := ((exportFile_iff W p t).2 name o).mp he
    rw [e1] at ha ho
    rw [e2, gitPath_crates hc] at ho
    exact ⟨p, t, a, hm, hc, ha, hx, ho, hn⟩
  · rintro ⟨p, t, a, hm, hc, ha, hx, ho, hn⟩
    refine ⟨(p, t), mem_crates_disk.mpr ⟨hm, hc⟩, ((exportFile_iff W p t).2 name o).mpr ⟨a, ?_, hx, ?_, ?_, hn⟩⟩
    · rw [e1]; exact ha
    · obtain ⟨a', ha', hx'⟩ := (exportFile_iff W p t).1.mp ((exportFiles_ok W _).1.mp h1 _ (mem_crates_disk.mpr ⟨hm, hc⟩))
      rw [e1, ha] at ha'
      cases ha'
      exact (hx' hx).1
    · rw [e1, e2, gitPath_crates hc]; exact ho

theorem rustSec_noDot {s : Str} {Y N : Nat} (h : IsYearId s .rustSec Y N) : '.' ∉ s := by
  obtain ⟨p, hp, y, m, rfl, ⟨d1, e1, -, h1, -⟩, -, -, ⟨d2, e2, -, h2, -⟩⟩ := h
  simp only [yearPrefixes, List.mem_cons, Prod.mk.injEq, List.not_mem_nil, or_false, reduceCtorEq, and_false,
    and_true] at hp
  subst hp
  have k : ∀ d : Str, (∀ c ∈ d, c.isDigit = true) → '.' ∉ d := fun d hd hm => absurd (hd _ hm) (by decide)
  have k1 : '.' ∉ y := by rcases e1 with rfl | rfl <;> simp [k _ h1]
  have k2 : '.' ∉ m := by rcases e2 with rfl | rfl <;> simp [k _ h2]
  simp only [List.mem_append, List.mem_cons, not_or]
  exact ⟨⟨by decide, k1⟩, by decide, k2⟩

/-- **C67 (all advisories, and only those).**  The export of a database that opens, if it succeeds, contains for
every exported advisory of a crate the file `<ID>.json`, with the record of that advisory; every other file it
writes is `RUSTSEC-0000-0000.json`. -/
theorem C67_files (L : AdvLib) (laws : ExportLaws L) (cal : Int → Int × Nat × Nat) (sev : Cvss.Cvss → Severity)
    (i : ExportInput) (db : Database) (hpaths : (i.disk.map Prod.fst).Nodup) (hopen : i.disk.open L sev = .ok db)
    (hdot : ∀ f ∈ i.disk, ¬ ['.'] <+: f.1.file)
    (hkind : ∀ a ∈ db.iter, a.metadata.collection = some .crates → a.metadata.id.kind = .rustSec)
    (hplain : ∀ p t a, (p, t) ∈ i.disk → p.collection = .crates → AdvisoryFile.fromStr L t = .ok a →
      PlainAdvisory L t a)
    (h : (osvCommand L cal i).result = .ok ()) :
    (∀ a ∈ db.iter, a.metadata.collection = some .crates → Exported a.metadata.informational →
      ∃ p t f o, (p, t) ∈ i.disk ∧ AdvisoryFile.fromStr L t = .ok f ∧ a = stored .crates (toAdvisory sev f) ∧
        (osvCommand L cal i).file (a.metadata.id.string ++ ".json".toList) = some o ∧ Conveys f o) ∧
    (∀ name o, (osvCommand L cal i).file name = some o →
      name = "RUSTSEC-0000-0000.json".toList ∨
      ∃ a ∈ db.iter, a.metadata.collection = some .crates ∧ Exported a.metadata.informational ∧
        name = a.metadata.id.string ++ ".json".toList ∧ o.id = a.metadata.id) := by
  obtain ⟨m, hm, hw⟩ := written_iff h
  -- a file of a crate is in the database, or has the placeholder ID
  have hload : ∀ p t f, (p, t) ∈ i.disk → p.collection = .crates → AdvisoryFile.fromStr L t = .ok f →
      f.metadata.id.string = placeholder ∨ stored .crates (toAdvisory sev f) ∈ db.iter := by
    intro p t f hp hc hf
    have hl : loadText L sev t = .ok (toAdvisory sev f) := by unfold loadText; rw [hf]
    obtain ⟨a, hwp, hin⟩ := C18_every_file_loaded _ db hopen _ _ _
      (located_of_mem (L := L) (sev := sev) hp (hdot _ hp))
    have e := hwp.1
    simp only [hl] at e
    cases e
    rw [hc] at hin
    by_cases hph : f.metadata.id.string = placeholder
    · exact .inl hph
    · exact .inr (hin hph)
  have hname : ∀ p t f, (p, t) ∈ i.disk → p.collection = .crates → AdvisoryFile.fromStr L t = .ok f →
      setJson f.metadata.id.string = f.metadata.id.string ++ ".json".toList := by
    intro p t f hp hc hf
    rcases hload p t f hp hc hf with e | hin
    · rw [e]; decide
    · obtain ⟨x, hx⟩ := (parsed_fields hf).1
      have hs : f.metadata.id.string = x := (C19_parsed_contents x _ hx).1
      rw [← hs] at hx
      by_cases hph : f.metadata.id.string = placeholder
      · rw [hph]; decide
      · obtain ⟨Y, N, hy⟩ := rustSec_text hx (hkind _ hin rfl) hph
        exact setJson_noDot (rustSec_noDot hy)
  constructor
  · intro a ha hc hx
    obtain ⟨c, dir, f0, a0, hl, hwp, rfl, hne⟩ := C18_loaded_well_placed _ db hopen a ha
    have hc' : c = .crates := Option.some.inj hc
    subst hc'
    obtain ⟨t, ht, hcont⟩ := mem_of_located hl
    have hcf := hwp.1
    rw [hcont] at hcf
    unfold loadText at hcf
    cases hf : AdvisoryFile.fromStr L t with
    | err => rw [hf] at hcf; cases hcf
    | panic => rw [hf] at hcf; cases hcf
    | ok f =>
      rw [hf] at hcf
      cases hcf
      have hrec : ∃ o, fromRustsec cal L.url f m (cratePath ⟨.crates, dir, f0.name⟩) = .ok o := by
        obtain ⟨-, -, hall⟩ := (C67_succeeds_iff L laws cal i hplain).mp h
        obtain ⟨f', hf', hx'⟩ := hall _ _ ht rfl
        rw [hf] at hf'
        cases hf'
        exact (C67_record_exists L laws cal _ _ m hm _ t f (hplain _ _ _ ht rfl hf)).1.mpr (hx' hx).2
      obtain ⟨o, ho⟩ := hrec
      have hin := (hw _ o).mpr ⟨_, t, f, ht, rfl, hf, hx, ho, rfl⟩
      rw [hname _ _ _ ht rfl hf] at hin
      obtain ⟨o', ho'⟩ := lookup_written (List.mem_reverse.mpr hin)
      refine ⟨_, t, f, o', ht, hf, rfl, ho', ?_⟩
      -- the last write of this name comes from the same file
      obtain ⟨p2, t2, f2, hm2, hc2, hf2, -, hr2, hn2⟩ := (hw _ o').mp (List.mem_reverse.mp (lookup_mem ho'))
      rw [hname _ _ _ hm2 hc2 hf2] at hn2
      have hstr : f.metadata.id.string = f2.metadata.id.string := List.append_cancel_right hn2
      have hid : f.metadata.id = f2.metadata.id := by
        obtain ⟨x1, e1⟩ := (parsed_fields hf).1
        obtain ⟨x2, e2⟩ := (parsed_fields hf2).1
        have s1 := (C19_parsed_contents x1 _ e1).1
        have s2 := (C19_parsed_contents x2 _ e2).1
        have s : x1 = x2 := s1.symm.trans (hstr.trans s2)
        rw [s, e2] at e1
        exact (Outcome.ok.inj e1).symm
      have l1 : loadText L sev t = .ok (toAdvisory sev f) := by unfold loadText; rw [hf]
      have l2 : loadText L sev t2 = .ok (toAdvisory sev f2) := by unfold loadText; rw [hf2]
      have hpp := load_unique hopen ht hm2 (hdot _ ht) (hdot _ hm2) l1 l2 hid hne
      subst hpp
      have htt : t = t2 := by
        have := List.inj_on_of_nodup_map hpaths ht hm2 rfl
        exact congrArg Prod.snd this
      subst htt
      rw [hf] at hf2
      cases hf2
      exact C67_record L laws cal m _ t f (hplain _ _ _ ht rfl hf) o' hr2
  · intro name o ho
    obtain ⟨p, t, f, hp, hc, hf, hx, hr, hn⟩ := (hw _ o).mp (List.mem_reverse.mp (lookup_mem ho))
    have hn' := hname _ _ _ hp hc hf
    rcases hload p t f hp hc hf with e | hin
    · left
      rw [hn, hn', e]; decide
    · right
      refine ⟨_, hin, rfl, hx, hn.trans hn', ?_⟩
      exact (C67_record L laws cal m _ t f (hplain _ _ _ hp hc hf) o hr).id

/-- **C67 (interrupted).**  An export that fails has written the records of the files that come before the one that
made it fail, and no others. -/
theorem C67_interrupted (W : ExportEnv) (d : Disk) (h : (exportAll W d).result ≠ .ok ()) :
    (d.collection .crates = [] ∧ (exportAll W d).writes = []) ∨
    ∃ pre f post, d.collection .crates = pre ++ f :: post ∧ (∀ r, exportFile W f ≠ .ok r) ∧
      ∀ w, w ∈ (exportAll W d).writes ↔ ∃ g ∈ pre, exportFile W g = .ok (some w) := by
  unfold exportAll at h ⊢
  cases hd : d.collection .crates with
  | nil => exact .inl ⟨rfl, by simp⟩
  | cons x xs =>
    rw [hd] at h
    simp only [List.isEmpty_cons, Bool.false_eq_true, if_false] at h ⊢
    obtain ⟨pre, f, post, h1, h2, h3, h4⟩ := exportFiles_failed W _ h
    refine .inr ⟨pre, f, post, h1, h2, fun w => ?_⟩
    rw [h4, (exportFiles_ok W pre).2 h3]

/-! ### Reading the export back -/

/-- **C67 (reading back).**  What `sync` reads in the record of an advisory: its crate, and — if the ID has the
usual 17 characters — a reference to the advisory itself; the record adds nothing to its own advisory. -/
theorem C67_read_back (L : AdvLib) (laws : ExportLaws L) (cal : Int → Int × Nat × Nat) (m : ModTimes)
    (sev : Cvss.Cvss → Severity) (path text : Str) (a : AdvisoryFile) (ha : PlainAdvisory L text a) (o : OsvAdvisory)
    (h : fromRustsec cal L.url a m path = .ok o) :
    o.record.crates = [a.metadata.package] ∧
    (a.metadata.id.string.length = 17 → RefersTo o.record a.metadata.id) ∧
    (o.record.withdrawn = true ↔ a.metadata.withdrawn ≠ none) ∧
    (a.metadata.id.kind = .rustSec → missingAliases (toAdvisory sev a) o.record = []) := by
  have c := C67_record L laws cal m path text a ha o h
  obtain ⟨p, hp, e1, e2, -⟩ := c.affected
  refine ⟨?_, ?_, ?_, ?_⟩
  · unfold OsvRecord.crates OsvAdvisory.record
    rw [hp]
    have e : (if p.ecosystem = "crates.io".toList then some p.name else none) = some a.metadata.package := by
      rw [if_pos e1, e2]
    show sortDedup strCmp (List.filterMap (fun x : Str × Str => if x.1 = "crates.io".toList then some x.2 else none)
      [(p.ecosystem, p.name)]) = _
    rw [List.filterMap_cons_some (f := fun x : Str × Str => if x.1 = "crates.io".toList then some x.2 else none)
      (a := (p.ecosystem, p.name)) (b := a.metadata.package) e]
    rfl
  · intro hl
    obtain ⟨x, hx⟩ := (parsed_fields ha.parsed).1
    have hs := (C19_parsed_contents x _ hx).1
    refine ⟨"https://rustsec.org/advisories/".toList ++ a.metadata.id.string ++ ".html".toList, ?_,
      a.metadata.id.string ++ ".html".toList, List.append_assoc _ _ _, ?_, ?_⟩
    · show _ ∈ o.references.map fun r => r.url.text
      rw [c.references]
      exact List.mem_append_left _ (List.mem_append_left _ (List.mem_cons_of_mem _ List.mem_cons_self))
    · rw [List.length_append, hl]; exact Nat.le_add_right _ _
    · rw [← hl, List.take_left]
      exact (congrArg Id.fromStr hs).trans hx
  · show o.withdrawn.isSome = true ↔ _
    rw [c.withdrawn]
    cases a.metadata.withdrawn <;> simp
  · intro hk
    unfold missingAliases
    rw [List.filter_eq_nil_iff]
    intro x hx
    have hx' : x ∈ a.metadata.aliases ∨ x = a.metadata.id := by
      have := List.mem_append.mp hx
      simp only [OsvAdvisory.record, c.aliases, c.id, List.mem_singleton] at this
      exact this
    rcases hx' with hm | rfl
    · simp only [Bool.and_eq_true, Bool.not_eq_true', not_and, Bool.not_eq_false]
      intro _ _
      exact List.contains_iff_mem.mpr hm
    · simp [hk]

end Verif.Props
