import Verif.Spec.SyncCmd
import Verif.Props.SyncExamples
import Verif.Props.AdminLint
import Mathlib.Data.List.Infix

/-!
# C75: the command `rustsec-admin sync`
-/

namespace Verif.Props

open Verif.Adv Verif.Db Verif.Assign Verif.Sync Verif.Spec Verif.Lock Verif.Lint

/-! ### Which files of the export are read -/

theorem extension_iff (name ext : Str) (hd : '.' ∉ ext) :
    extension name = some ext ↔ ∃ stem, stem ≠ [] ∧ name = stem ++ '.' :: ext := by
  unfold extension
  have hj := joinC_splitC '.' name.reverse
  constructor
  · intro h
    split at h
    · cases h
    · cases h
    · cases h
    · rename_i x rest h1 h2 he
      have hext : x = ext.reverse := by
        have := congrArg List.reverse (Option.some.inj h)
        rwa [List.reverse_reverse] at this
      rw [he, hext] at hj
      cases rest with
      | nil => exact absurd rfl h1
      | cons x xs =>
        have hne : joinC '.' (x :: xs) ≠ [] := by
          intro e
          cases xs with
          | nil =>
            have : x = [] := e
            exact h2 (by rw [this])
          | cons y ys =>
            have : x ++ '.' :: joinC '.' (y :: ys) = [] := e
            simp at this
        refine ⟨(joinC '.' (x :: xs)).reverse, by simpa using hne, ?_⟩
        have e : ext.reverse ++ '.' :: joinC '.' (x :: xs) = name.reverse := hj
        have := congrArg List.reverse e
        rw [List.reverse_reverse] at this
        rw [← this]
        simp
  · rintro ⟨stem, hs, rfl⟩
    have e : (stem ++ '.' :: ext).reverse = ext.reverse ++ '.' :: stem.reverse := by simp
    rw [e, splitC_append (by simpa using hd)]
    have hne : splitC '.' stem.reverse ≠ [[]] := by
      intro h
      have := joinC_splitC '.' stem.reverse
      rw [h] at this
      have e : ([] : Str) = stem.reverse := this
      exact hs (List.reverse_eq_nil_iff.mp e.symm)
    have hn := splitC_ne_nil '.' stem.reverse
    have hx : ∀ l : List Str, l ≠ [] → l ≠ [[]] → (match ext.reverse :: l with
        | [] => none
        | [_] => none
        | [_, []] => none
        | e :: _ => some e.reverse) = some ext := by
      intro l h1 h2
      cases l with
      | nil => exact absurd rfl h1
      | cons x xs =>
        cases x with
        | nil =>
          cases xs with
          | nil => exact absurd rfl h2
          | cons y ys => simp
        | cons c cs => simp
    exact hx _ hn hne

theorem occursIn_iff (p s : Str) : occursIn p s = true ↔ p <:+: s := by
  induction s with
  | nil =>
    unfold occursIn
    rw [List.isPrefixOf_iff_prefix]
    simp
  | cons c s ih =>
    unfold occursIn
    rw [Bool.or_eq_true, ih, List.isPrefixOf_iff_prefix, List.infix_cons_iff]

theorem infix_over_slash (p a b : Str) (hp : p ≠ []) (hs : '/' ∉ p) :
    p <:+: a ++ '/' :: b ↔ p <:+: a ∨ p <:+: b := by
  constructor
  · rintro ⟨s, t, h⟩
    rw [List.append_assoc, List.append_eq_append_iff] at h
    rcases h with ⟨x, h1, h2⟩ | ⟨x, h1, h2⟩
    · rw [List.append_eq_append_iff] at h2
      rcases h2 with ⟨y, h3, _⟩ | ⟨y, h3, h4⟩
      · exact .inl ⟨s, y, by rw [h1, h3, List.append_assoc]⟩
      · cases y with
        | nil => exact .inl ⟨s, [], by rw [h1, h3]; simp⟩
        | cons c y =>
          rw [List.cons_append, List.cons.injEq] at h4
          refine absurd ?_ hs
          rw [h3, ← h4.1]
          exact List.mem_append_right _ List.mem_cons_self
    · cases x with
      | nil =>
        cases p with
        | nil => exact absurd rfl hp
        | cons c p =>
          rw [List.nil_append, List.cons_append, List.cons.injEq] at h2
          exact absurd (h2.1 ▸ List.mem_cons_self) hs
      | cons c x =>
        rw [List.cons_append, List.cons.injEq] at h2
        exact .inr ⟨x, t, by rw [h2.2, List.append_assoc]⟩
  · rintro (⟨s, t, h⟩ | ⟨s, t, h⟩)
    · exact ⟨s, t ++ '/' :: b, by rw [← h]; simp⟩
    · exact ⟨a ++ '/' :: s, t, by rw [← h]; simp⟩

theorem readsEntry_iff (dir name : Str) : readsEntry dir name = true ↔ Counts dir name := by
  unfold readsEntry Counts
  rw [Bool.and_eq_true, decide_eq_true_eq, extension_iff name _ (by decide +kernel), Bool.not_eq_true']
  refine and_congr Iff.rfl ?_
  rw [← Bool.not_eq_true, occursIn_iff, infix_over_slash _ _ _ (by decide +kernel) (by decide +kernel)]
  tauto

open Classical in
/-- **C75, the export.**  Loading succeeds exactly if the directory can be read and every file that counts can be read and
parsed; the records are those of the files that count, in the order of the directory. -/
theorem C75_load (json : Str → Option OsvRecord) (dir : Str) (entries : Option (List ExportEntry)) (osv : List OsvRecord) :
    loadExport json dir entries = .ok osv ↔
      ∃ es, entries = some es ∧ List.Forall₂ (fun e o => ∃ t, e.content = some t ∧ json t = some o)
        (es.filter fun e => decide (Counts dir e.name)) osv := by
  have hd : ∀ es : List ExportEntry, (es.filter fun e => readsEntry dir e.name) =
      es.filter fun e => decide (Counts dir e.name) := by
    intro es
    refine List.filter_congr fun e _ => ?_
    rw [Bool.eq_iff_iff, decide_eq_true_eq]
    exact readsEntry_iff dir e.name
  have hf : ∀ e o, loadOsvFile json e = .ok o ↔ ∃ t, e.content = some t ∧ json t = some o := by
    intro e o
    unfold loadOsvFile
    cases hc : e.content with
    | none => simp
    | some t =>
      simp only [Option.some.injEq, exists_eq_left']
      cases hj : json t with
      | none => simp
      | some o' => simp
  unfold loadExport
  cases entries with
  | none => simp
  | some es =>
    simp only [Option.some.injEq]
    rw [mapList_iff]
    have hc : (List.Forall₂ (fun e o => loadOsvFile json e = .ok o) (es.filter fun e => readsEntry dir e.name) osv) ↔
        List.Forall₂ (fun e o => ∃ t, e.content = some t ∧ json t = some o)
          (es.filter fun e => readsEntry dir e.name) osv := by
      constructor
      · exact fun h => h.imp fun e o h => (hf e o).mp h
      · exact fun h => h.imp fun e o h => (hf e o).mpr h
    rw [hc, hd]
    simp only [exists_eq_left']

/-- **C75, the export, ways to fail.**  Reading the export never panics unless the directory cannot be listed: a file that
cannot be read or parsed ends the run with an error. -/
theorem C75_load_panic (json : Str → Option OsvRecord) (dir : Str) (entries : Option (List ExportEntry)) :
    loadExport json dir entries = .panic ↔ entries = none := by
  have hf : ∀ e, loadOsvFile json e ≠ .panic := by
    intro e
    unfold loadOsvFile
    cases e.content with
    | none => simp
    | some t => simp only; cases json t <;> simp
  have hm : ∀ l : List ExportEntry, Outcome.mapList (loadOsvFile json) l ≠ .panic := by
    intro l
    induction l with
    | nil => simp [Outcome.mapList]
    | cons e l ih =>
      rw [Outcome.mapList]
      cases h : loadOsvFile json e with
      | panic => exact absurd h (hf e)
      | err => nofun
      | ok o =>
        simp only
        cases h' : Outcome.mapList (loadOsvFile json) l with
        | panic => exact absurd h' ih
        | err => nofun
        | ok os => nofun
  unfold loadExport
  cases entries with
  | none => simp
  | some es => simpa using hm _

/-- **C75, violation.**  If the path given with `--osv` contains `RUSTSEC-`, for example a directory
`/tmp/RUSTSEC-export`, all of the export is left out without a word. -/
theorem C75_directory_name (json : Str → Option OsvRecord) (dir : Str) (h : "RUSTSEC-".toList <:+: dir)
    (es : List ExportEntry) : loadExport json dir (some es) = .ok [] := by
  have : es.filter (fun e => readsEntry dir e.name) = [] := by
    rw [List.filter_eq_nil_iff]
    intro e _ he
    exact ((readsEntry_iff _ _).mp he).2.2 h
  unfold loadExport
  simp only [this]
  rfl

/-! ### What is printed -/

/-- Published no later. -/
def noLater (a b : OsvRecord) : Prop := strCmp a.published b.published ≠ .gt

instance : DecidableRel noLater := fun _ _ => inferInstanceAs (Decidable (_ ≠ _))

instance : IsTrans OsvRecord noLater where
  trans a b c h1 h2 := by
    unfold noLater at *
    have h1' : (strCmp a.published b.published).isLE = true := by
      cases h : strCmp a.published b.published <;> simp_all
    have h2' : (strCmp b.published c.published).isLE = true := by
      cases h : strCmp b.published c.published <;> simp_all
    have := Std.TransCmp.isLE_trans (cmp := strCmp) h1' h2'
    intro hg
    rw [hg] at this
    cases this

instance : Std.Total noLater where
  total a b := by
    unfold noLater
    rw [Std.OrientedCmp.eq_swap (cmp := strCmp) (a := b.published)]
    cases strCmp a.published b.published <;> simp

/-- **C75, the list.**  The advisories that are missing are printed oldest first, each as often as `sync` found it missing;
those published at the same time stay in the order of the export. -/
theorem C75_sorted (l : List OsvRecord) :
    (sortMissing l).Perm l ∧ (sortMissing l).Pairwise noLater ∧
    ∀ a b, [a, b].Sublist l → a.published = b.published → [a, b].Sublist (sortMissing l) := by
  have e : sortMissing l = l.insertionSort noLater := rfl
  rw [e]
  refine ⟨List.perm_insertionSort _ _, List.pairwise_insertionSort _ _, ?_⟩
  intro a b h hab
  refine List.pair_sublist_insertionSort ?_ h
  unfold noLater
  rw [hab, (strCmp_eq_iff _ _).mpr rfl]
  nofun

/-! ### States -/

section

variable {L : SyncLib} {sev : Cvss.Cvss → Severity} {d : Disk} {db : Database}

/-- A state of the run: between two steps, or while a file is being written. -/
def MidRun (L : AdvLib) (d : Disk) (Q : Path → Id → Prop) (e : Disk) : Prop :=
  ∃ (s s' : SyncState) (P P' : Path → Id → Prop) (q : Path) (text : Str) (n : Nat),
    SyncInv L d s P ∧ SyncInv L d s' P' ∧ (∀ p i, P p i → Q p i) ∧ (∀ p i, P' p i → Q p i) ∧ (∃ i, P' q i) ∧
    s'.disk = Disk.write s.disk q text ∧ e = Disk.write s.disk q (text.take n)

theorem updateStates_mid (law : EditLaw L) (hr : SyncReady L sev d db) {s : SyncState} {P Q : Path → Id → Prop}
    (hi : SyncInv L.adv d s P) (hPQ : ∀ p i, P p i → Q p i) {a : Advisory} (ha : a ∈ db.iter) {o : OsvRecord}
    (hp : PlainRecord o) (hQ : ∀ p i, p = fileOf a → i ∈ missingAliases a o → Q p i) {e : Disk}
    (he : e ∈ updateStates L a o s) : MidRun L.adv d Q e := by
  obtain ⟨_, h2⟩ := updateAdvisory_spec law hr hi ha hp
  unfold updateStates at he
  unfold updateAdvisory at h2
  simp only at he h2
  by_cases hm : (missingAliases a o).isEmpty = true
  · rw [if_pos hm] at he; cases he
  · rw [if_neg hm] at he h2
    cases hread : s.disk.read (advisoryPath a) with
    | none => rw [hread] at he; cases he
    | some content =>
      rw [hread] at he h2
      simp only at he h2
      cases hu : updateText L content (missingAliases a o) with
      | err => rw [hu] at he; cases he
      | panic => rw [hu] at he; cases he
      | ok text =>
        rw [hu] at he h2
        simp only at he h2
        obtain ⟨n, _, rfl⟩ := List.mem_map.mp he
        have h3 := h2 _ rfl
        refine ⟨s, _, P, _, advisoryPath a, text, n, hi, h3, hPQ, ?_, ?_, rfl, rfl⟩
        · rintro p i (h | ⟨h, h'⟩)
          · exact hPQ p i h
          · exact hQ p i h h'
        · obtain ⟨i, h'⟩ := List.exists_mem_of_ne_nil (missingAliases a o) (by simpa using hm)
          exact ⟨i, .inr ⟨rfl, h'⟩⟩

theorem linkStates_mid (law : EditLaw L) (hr : SyncReady L sev d db) {s : SyncState} {P Q : Path → Id → Prop}
    (hi : SyncInv L.adv d s P) (hPQ : ∀ p i, P p i → Q p i) {o : OsvRecord} (hp : PlainRecord o) {id : Id}
    (hQ : ∀ p i, addsVia db o [id] p i → Q p i) {e : Disk} (he : e ∈ linkStates L db o s id) : MidRun L.adv d Q e := by
  unfold linkStates at he
  cases hg : db.get id with
  | none => rw [hg] at he; cases he
  | some a =>
    rw [hg] at he
    simp only at he
    obtain ⟨ha, -⟩ := (C10_get_iff _ db hr.opens id a).mp hg
    by_cases hc : o.crates.contains a.metadata.package = true
    · rw [if_pos hc] at he
      have hn : NamesCrate o a.metadata.package := mem_crates.mp (List.contains_iff_mem.mp hc)
      exact updateStates_mid law hr hi hPQ ha hp
        (fun p i h h' => hQ p i ⟨id, List.mem_singleton.mpr rfl, a, hg, hn, h, h'⟩) he
    · rw [if_neg hc] at he; cases he

theorem linksStates_mid (law : EditLaw L) (hr : SyncReady L sev d db) {Q : Path → Id → Prop} {o : OsvRecord}
    (hp : PlainRecord o) (ids : List Id) : ∀ {s : SyncState} {P : Path → Id → Prop}, SyncInv L.adv d s P →
    (∀ p i, P p i → Q p i) → (∀ p i, addsVia db o ids p i → Q p i) →
    ∀ {e : Disk}, e ∈ linksStates L db o s ids → MidRun L.adv d Q e := by
  induction ids with
  | nil => intro s P _ _ _ e he; cases he
  | cons id ids ih =>
    intro s P hi hPQ hQ e he
    unfold linksStates at he
    have hQ1 : ∀ p i, addsVia db o [id] p i → Q p i := by
      rintro p i ⟨id', hid, h⟩
      exact hQ p i ⟨id', by rw [List.mem_singleton.mp hid]; exact List.mem_cons_self, h⟩
    rcases List.mem_append.mp he with he | he
    · exact linkStates_mid law hr hi hPQ hp hQ1 he
    · obtain ⟨_, h2⟩ := syncLink_spec law hr hi hp id
      cases hl : syncLink L db o s id with
      | err => rw [hl] at he; cases he
      | panic => rw [hl] at he; cases he
      | ok s' =>
        rw [hl] at he
        refine ih (h2 s' hl) ?_ ?_ he
        · rintro p i (h | h)
          · exact hPQ p i h
          · exact hQ1 p i h
        · rintro p i ⟨id', hid, h⟩
          exact hQ p i ⟨id', List.mem_cons_of_mem _ hid, h⟩

theorem recordsStates_mid (law : EditLaw L) (hr : SyncReady L sev d db) {Q : Path → Id → Prop} (osv : List OsvRecord)
    (hp : ∀ o ∈ osv, PlainRecord o) : ∀ {s : SyncState} {P : Path → Id → Prop}, SyncInv L.adv d s P →
    (∀ p i, P p i → Q p i) → (∀ p i, addsAll db osv p i → Q p i) →
    ∀ {e : Disk}, e ∈ recordsStates L db s osv → MidRun L.adv d Q e := by
  induction osv with
  | nil => intro s P _ _ _ e he; cases he
  | cons o os ih =>
    intro s P hi hPQ hQ e he
    have ih := fun {s : SyncState} {P : Path → Id → Prop} => @ih (fun x hx => hp x (List.mem_cons_of_mem _ hx)) s P
    have hQ2 : ∀ p i, addsAll db os p i → Q p i := by
      rintro p i ⟨o', ho', h⟩
      exact hQ p i ⟨o', List.mem_cons_of_mem _ ho', h⟩
    unfold recordsStates at he
    by_cases hw : o.withdrawn = true
    · rw [if_pos hw] at he
      exact ih hi hPQ hQ2 he
    · rw [if_neg hw] at he
      have hw' : o.withdrawn = false := by simpa using hw
      cases hl : linked db o with
      | err => rw [hl] at he; cases he
      | panic => rw [hl] at he; cases he
      | ok ids =>
        rw [hl] at he
        simp only at he
        have hQ1 : ∀ p i, addsVia db o ids p i → Q p i := fun p i h =>
          hQ p i ⟨o, List.mem_cons_self, hw', ids, hl, h⟩
        rcases List.mem_append.mp he with he | he
        · exact linksStates_mid law hr (hp o List.mem_cons_self) ids hi hPQ hQ1 he
        · obtain ⟨_, h2⟩ := syncLinks_spec law hr (hp o List.mem_cons_self) ids hi
          cases hs : syncLinks L db o s ids with
          | err => rw [hs] at he; cases he
          | panic => rw [hs] at he; cases he
          | ok s' =>
            rw [hs] at he
            refine ih (h2 s' hs) ?_ hQ2 he
            rintro p i (h | h)
            · exact hPQ p i h
            · exact hQ1 p i h

theorem addsAll_sub (ho : d.open L.adv sev = .ok db) {osv : List OsvRecord} (p : Path) (i : Id)
    (h : addsAll db osv p i) : ∃ a ∈ db.iter, p = fileOf a ∧ ToAdd osv a i := by
  obtain ⟨o, hom, hw, ids, hl, id, hid, a, hg, hn, e, hm⟩ := h
  obtain ⟨ha, rfl⟩ := (C10_get_iff _ db ho id a).mp hg
  obtain ⟨h1, h2, h3, h4⟩ := mem_missingAliases.mp hm
  exact ⟨a, ha, e, o, hom, hw, (mem_linked hl ho ha).mp hid, hn, h1, h2, h3, h4⟩

/-- A file between two steps. -/
theorem fileState_cases (hr : SyncReady L sev d db) {osv : List OsvRecord} {p : Path} {t t' : Str} {P : Id → Prop}
    (hm : (p, t) ∈ d) (h : FileState L.adv t t' P) (hP : ∀ i, P i → ∃ a ∈ db.iter, p = fileOf a ∧ ToAdd osv a i) :
    (t' = t ∧ ∀ i, ¬ P i) ∨ UpdatedFile L sev db osv p t t' := by
  by_cases he : ∃ i, P i
  · obtain ⟨i, hi⟩ := he
    obtain ⟨a, ha, rfl, _⟩ := hP i hi
    obtain ⟨f, hf⟩ := hr.editable a ha t hm
    obtain ⟨f0, hf0, hsa⟩ := own_file hr.opens ha (hr.rustsec a ha) hm
    have : f0 = f := by rw [hf.parses] at hf0; exact (Outcome.ok.inj hf0).symm
    subst this
    obtain ⟨f', h1, h2, _, _, h3, h4⟩ := h.changed f0 hf ⟨i, hi⟩
    refine .inr ⟨a, f0, f', ha, rfl, hf, hsa, h1, h2, fun j hj => (h3 j).mpr (.inl hj), ?_, h4⟩
    intro j hj
    rcases (h3 j).mp hj with hj | hj
    · exact .inl hj
    · obtain ⟨b, hb, hab, hadd⟩ := hP j hj
      refine .inr ?_
      have hba : b = a := by
        have hid : a.metadata.id.string = b.metadata.id.string := by
          have := congrArg Path.file hab
          exact List.append_cancel_right this
        obtain ⟨⟨s1, hs1⟩, -⟩ := loaded_id_parsed hr.opens ha
        obtain ⟨⟨s2, hs2⟩, -⟩ := loaded_id_parsed hr.opens hb
        have e1 : a.metadata.id.string = s1 := (C19_parsed_contents s1 _ hs1).1
        have e2 : b.metadata.id.string = s2 := (C19_parsed_contents s2 _ hs2).1
        rw [← e1] at hs1
        rw [← e2, ← hid, hs1] at hs2
        have h1 := (C10_get_iff _ db hr.opens _ _).mpr ⟨ha, rfl⟩
        have h2 := (C10_get_iff _ db hr.opens _ _).mpr ⟨hb, rfl⟩
        rw [← Outcome.ok.inj hs2, h1] at h2
        exact (Option.some.inj h2).symm
      exact hba ▸ hadd
  · push Not at he
    exact .inl ⟨h.unchanged he, he⟩

theorem write_fst (e : Disk) (q : Path) (t : Str) : (Disk.write e q t).map Prod.fst = e.map Prod.fst := by
  unfold Disk.write Assign.Disk.modify
  rw [List.map_map]
  refine List.map_congr_left fun f _ => ?_
  simp only [Function.comp]
  split <;> rfl

theorem mem_write {e : Disk} {q p : Path} {t u : Str} (h : (p, u) ∈ e) :
    (p, if p = q then t else u) ∈ Disk.write e q t := by
  unfold Disk.write Assign.Disk.modify
  refine List.mem_map.mpr ⟨(p, u), h, ?_⟩
  simp only
  split <;> rfl

theorem midRun_interrupted (hr : SyncReady L sev d db) {osv : List OsvRecord} {e : Disk}
    (h : MidRun L.adv d (fun p i => ∃ a ∈ db.iter, p = fileOf a ∧ ToAdd osv a i) e) :
    Interrupted L sev db osv d e := by
  obtain ⟨s, s', P, P', q, text, n, hs, hs', hP, hP', hq, hw, rfl⟩ := h
  refine ⟨by rw [write_fst, files_fst hs.files], some q, ?_⟩
  intro p t hm
  obtain ⟨u, hu, hfs⟩ := files_left hs.files hm
  refine ⟨_, mem_write hu, ?_⟩
  by_cases hpq : p = q
  · rw [if_pos hpq]
    refine .inr (.inr ⟨by rw [hpq], text, ?_, List.take_prefix n text⟩)
    obtain ⟨u', hu', hfs'⟩ := files_left hs'.files hm
    have : u' = text := by
      have h1 : (p, text) ∈ s'.disk := by
        rw [hw]
        have := mem_write (t := text) (q := q) hu
        rwa [if_pos hpq] at this
      have hnd : (s'.disk.map Prod.fst).Nodup := by rw [files_fst hs'.files]; exact hr.paths
      have h2 := read_of_mem h1 hnd
      rw [read_of_mem hu' hnd] at h2
      exact Option.some.inj h2
    subst this
    rcases fileState_cases hr hm hfs' (hP' p) with ⟨_, hno⟩ | h
    · obtain ⟨i, hi⟩ := hq
      exact absurd (hpq ▸ hi) (hno i)
    · exact h
  · rw [if_neg hpq]
    rcases fileState_cases hr hm hfs (hP p) with ⟨h, _⟩ | h
    · exact .inl h
    · exact .inr (.inl h)

theorem interrupted_refl (osv : List OsvRecord) (d : Disk) : Interrupted L sev db osv d d :=
  ⟨rfl, none, fun p t h => ⟨t, h, .inl rfl⟩⟩

/-! ### The end of the run -/

theorem write_whole (e : Disk) (q : Path) (text : Str) : (writeStates e q text).getLast? = some (Disk.write e q text) := by
  unfold writeStates
  rw [List.range_succ, List.map_append, List.map_singleton, List.getLast?_append]
  simp

/-- The last state, or the one before. -/
def endState (d : Disk) (l : List Disk) : Disk := (l.getLast?).getD d

theorem endState_append (d : Disk) (l l' : List Disk) : endState d (l ++ l') = endState (endState d l) l' := by
  unfold endState
  rw [List.getLast?_append]
  cases l'.getLast? <;> rfl

theorem updateStates_end (a : Advisory) (o : OsvRecord) (s s' : SyncState) (h : updateAdvisory L a o s = .ok s') :
    endState s.disk (updateStates L a o s) = s'.disk := by
  unfold updateAdvisory at h
  unfold updateStates
  simp only at h ⊢
  by_cases hm : (missingAliases a o).isEmpty = true
  · rw [if_pos hm] at h ⊢; cases h; rfl
  · rw [if_neg hm] at h ⊢
    cases hread : s.disk.read (advisoryPath a) with
    | none => rw [hread] at h; cases h
    | some content =>
      rw [hread] at h
      simp only at h ⊢
      cases hu : updateText L content (missingAliases a o) with
      | err => rw [hu] at h; cases h
      | panic => rw [hu] at h; cases h
      | ok text =>
        rw [hu] at h
        cases h
        unfold endState
        simp only
        rw [write_whole]
        rfl

theorem linkStates_end (o : OsvRecord) (s s' : SyncState) (id : Id) (h : syncLink L db o s id = .ok s') :
    endState s.disk (linkStates L db o s id) = s'.disk := by
  unfold syncLink at h
  unfold linkStates
  cases hg : db.get id with
  | none => rw [hg] at h; cases h
  | some a =>
    rw [hg] at h
    simp only at h ⊢
    split at h
    · rename_i hc
      rw [if_pos hc]
      exact updateStates_end a o s s' h
    · rename_i hc
      rw [if_neg hc]
      cases h; rfl

theorem linksStates_end (o : OsvRecord) (ids : List Id) : ∀ s s', syncLinks L db o s ids = .ok s' →
    endState s.disk (linksStates L db o s ids) = s'.disk := by
  induction ids with
  | nil => intro s s' h; cases h; rfl
  | cons id ids ih =>
    intro s s' h
    unfold syncLinks at h
    unfold linksStates
    cases hl : syncLink L db o s id with
    | err => rw [hl] at h; cases h
    | panic => rw [hl] at h; cases h
    | ok s1 =>
      rw [hl] at h
      simp only at h ⊢
      rw [endState_append, linkStates_end o s s1 id hl]
      exact ih s1 s' h

theorem recordsStates_end (osv : List OsvRecord) : ∀ s s' checks, syncRecords L db s osv = .ok (s', checks) →
    endState s.disk (recordsStates L db s osv) = s'.disk := by
  induction osv with
  | nil => intro s s' c h; cases h; rfl
  | cons o os ih =>
    intro s s' c h
    unfold syncRecords at h
    unfold recordsStates
    by_cases hw : o.withdrawn = true
    · rw [if_pos hw] at h ⊢
      exact ih s s' c h
    · rw [if_neg hw] at h ⊢
      cases hl : linked db o with
      | err => rw [hl] at h; cases h
      | panic => rw [hl] at h; cases h
      | ok ids =>
        rw [hl] at h
        cases ids with
        | nil =>
          simp only at h
          cases hs : syncRecords L db s os with
          | err => rw [hs] at h; cases h
          | panic => rw [hs] at h; cases h
          | ok r =>
            obtain ⟨s1, c1⟩ := r
            rw [hs] at h
            cases h
            simp only [linksStates, syncLinks, List.nil_append]
            exact ih s s' c1 hs
        | cons id ids =>
          simp only at h ⊢
          cases hs : syncLinks L db o s (id :: ids) with
          | err => rw [hs] at h; cases h
          | panic => rw [hs] at h; cases h
          | ok s1 =>
            rw [hs] at h
            simp only at h ⊢
            rw [endState_append, linksStates_end o _ s s1 hs]
            exact ih s1 s' c h

end

/-! ### The command -/

/-- **C75, the command.**  It ends with status 0 exactly if at most one path is given, the database opens and is not empty,
the export loads, the index opens, the synchronisation succeeds and cargo's package lock is free.  It then prints how many
records and advisories it has loaded, the missing advisories sorted, and how many advisories were updated; the last state of
the disk is the one `sync` leaves. -/
theorem C75_run (E : SyncEnv) (paths : List Str) (d : Disk) (lines : List SyncLine) :
    (E.run paths d).2 = .ok lines ↔
      paths.length ≤ 1 ∧ E.indexOk = true ∧ E.lockFree = true ∧
      ∃ db osv s missing, d.open E.lib.adv E.sev = .ok db ∧ db.iter ≠ [] ∧
        loadExport E.json E.exportDir E.entries = .ok osv ∧ sync E.lib E.sev d osv = .ok (s, missing) ∧
        (E.run paths d).1.getLast? = some s.disk ∧
        lines = [.loadedExport osv.length, .loadedDatabase db.iter.length] ++
          (if missing = [] then [.nothingMissing]
            else .missing missing.length :: (sortMissing missing).map OsvRecord.line) ++
          (if s.updated = 0 then [.upToDate] else [.updated s.updated]) := by
  unfold SyncEnv.run
  by_cases hp : paths.length > 1
  · rw [if_pos hp]
    exact iff_of_false nofun (fun h => by omega)
  rw [if_neg hp]
  cases ho : d.open E.lib.adv E.sev with
  | err => exact iff_of_false nofun (by rintro ⟨_, _, _, _, _, _, _, h, _⟩; cases h)
  | panic => exact iff_of_false nofun (by rintro ⟨_, _, _, _, _, _, _, h, _⟩; cases h)
  | ok db =>
    cases hl : loadExport E.json E.exportDir E.entries with
    | err => exact iff_of_false nofun (by rintro ⟨_, _, _, _, _, _, _, _, _, h, _⟩; cases h)
    | panic => exact iff_of_false nofun (by rintro ⟨_, _, _, _, _, _, _, _, _, h, _⟩; cases h)
    | ok osv =>
      simp only
      cases hi : E.indexOk with
      | false => exact iff_of_false nofun (by rintro ⟨_, h, _⟩; cases h)
      | true =>
        simp only [Bool.not_true, Bool.false_eq_true, if_false]
        by_cases he : db.iter = []
        · rw [he]
          refine iff_of_false nofun ?_
          rintro ⟨_, _, _, db', _, _, _, h, hne, _⟩
          cases h; exact hne he
        · have he' : db.iter.isEmpty = false := by simpa using he
          rw [he']
          simp only [Bool.false_eq_true, if_false]
          cases hs : sync E.lib E.sev d osv with
          | err =>
            refine iff_of_false nofun ?_
            rintro ⟨_, _, _, _, _, _, _, _, _, h, h', _⟩
            cases h; rw [hs] at h'; cases h'
          | panic =>
            refine iff_of_false nofun ?_
            rintro ⟨_, _, _, _, _, _, _, _, _, h, h', _⟩
            cases h; rw [hs] at h'; cases h'
          | ok r =>
            obtain ⟨s, missing⟩ := r
            simp only
            cases hf : E.lockFree with
            | false => exact iff_of_false nofun (by rintro ⟨_, _, h, _⟩; cases h)
            | true =>
              simp only [Bool.not_true, Bool.false_eq_true, if_false]
              have hend : (d :: recordsStates E.lib db { disk := d } osv).getLast? = some s.disk := by
                have hs' := hs
                unfold sync at hs'
                rw [ho] at hs'
                simp only [he', Bool.false_eq_true, if_false] at hs'
                cases hr : syncRecords E.lib db { disk := d } osv with
                | err => rw [hr] at hs'; cases hs'
                | panic => rw [hr] at hs'; cases hs'
                | ok r =>
                  obtain ⟨s1, c1⟩ := r
                  rw [hr] at hs'
                  cases hs'
                  have := recordsStates_end osv _ _ _ hr
                  rw [List.getLast?_cons]
                  exact congrArg some this
              have hlines : syncLines osv.length db.iter.length missing s.updated =
                  [.loadedExport osv.length, .loadedDatabase db.iter.length] ++
                  (if missing = [] then [.nothingMissing]
                    else .missing missing.length :: (sortMissing missing).map OsvRecord.line) ++
                  (if s.updated = 0 then [.upToDate] else [.updated s.updated]) := by
                unfold syncLines
                cases missing with
                | nil => rfl
                | cons m ms =>
                  simp only [List.isEmpty_cons, Bool.false_eq_true, if_false, reduceCtorEq]
              constructor
              · intro h
                rw [Outcome.ok.injEq] at h
                exact ⟨by omega, trivial, trivial, db, osv, s, missing, rfl, he, rfl, hs, hend, by rw [← h, hlines]⟩
              · rintro ⟨_, _, _, db', osv', s', missing', h1, _, h2, h3, _, h4⟩
                cases h1; cases h2
                rw [hs] at h3
                cases h3
                rw [h4, hlines]

/-- **C75, interruptions.**  Stopped at any moment, or failing on the way, the command leaves the same files, each with its
old text or a complete updated text whose new aliases all belong there; only one file may hold just the beginning of its
updated text. -/
theorem C75_interrupted (E : SyncEnv) (law : EditLaw E.lib) (paths : List Str) (d e : Disk) (db : Database)
    (hr : SyncReady E.lib E.sev d db) (osv : List OsvRecord) (hp : ∀ o ∈ osv, PlainRecord o)
    (hl : loadExport E.json E.exportDir E.entries = .ok osv) (he : e ∈ (E.run paths d).1) :
    Interrupted E.lib E.sev db osv d e := by
  have hone : ∀ {x : Disk}, x ∈ [d] → Interrupted E.lib E.sev db osv d x := by
    intro x hx
    rw [List.mem_singleton.mp hx]
    exact interrupted_refl osv d
  have hst : ∀ {x : Disk}, x ∈ d :: recordsStates E.lib db { disk := d } osv → Interrupted E.lib E.sev db osv d x := by
    intro x hx
    rcases List.mem_cons.mp hx with rfl | hx
    · exact interrupted_refl osv x
    · exact midRun_interrupted hr (recordsStates_mid law hr osv hp (syncInv_init E.lib.adv d) (fun _ _ h => h.elim)
        (fun p i h => addsAll_sub hr.opens p i h) hx)
  unfold SyncEnv.run at he
  rw [hr.opens, hl] at he
  simp only at he
  split at he
  · exact hone he
  · split at he
    · exact hone he
    · split at he
      · exact hone he
      · split at he
        · exact hst he
        · exact hst he
        · split at he
          · exact hst he
          · exact hst he

/-! ### A run that cannot be repeated -/

section

variable {L : SyncLib} {sev : Cvss.Cvss → Severity} {d : Disk} {db : Database}

/-- A state in which the file of an advisory is empty. -/
def EmptyFile (db : Database) (l : List Disk) : Prop :=
  ∃ e ∈ l, ∃ a ∈ db.iter, (fileOf a, []) ∈ e

theorem updateStates_empty {a : Advisory} {o : OsvRecord} {s : SyncState} (ha : a ∈ db.iter)
    (h : updateStates L a o s ≠ []) : EmptyFile db (updateStates L a o s) := by
  unfold updateStates at h ⊢
  simp only at h ⊢
  by_cases hm : (missingAliases a o).isEmpty = true
  · rw [if_pos hm] at h; exact absurd rfl h
  · rw [if_neg hm] at h ⊢
    cases hread : s.disk.read (advisoryPath a) with
    | none => rw [hread] at h; exact absurd rfl h
    | some content =>
      rw [hread] at h
      simp only at h ⊢
      cases hu : updateText L content (missingAliases a o) with
      | err => rw [hu] at h; exact absurd rfl h
      | panic => rw [hu] at h; exact absurd rfl h
      | ok text =>
        refine ⟨Disk.write s.disk (advisoryPath a) (text.take 0), List.mem_map.mpr ⟨0, by simp, rfl⟩, a, ha, ?_⟩
        have := mem_write (t := text.take 0) (q := advisoryPath a) (mem_of_read hread)
        rwa [if_pos rfl] at this

theorem linkStates_empty (ho : d.open L.adv sev = .ok db) {o : OsvRecord} {s : SyncState} {id : Id}
    (h : linkStates L db o s id ≠ []) : EmptyFile db (linkStates L db o s id) := by
  unfold linkStates at h ⊢
  cases hg : db.get id with
  | none => rw [hg] at h; exact absurd rfl h
  | some a =>
    rw [hg] at h
    simp only at h ⊢
    split at h
    · rename_i hc
      rw [if_pos hc]
      exact updateStates_empty ((C10_get_iff _ db ho id a).mp hg).1 h
    · exact absurd rfl h

theorem EmptyFile.left {l l' : List Disk} (h : EmptyFile db l) : EmptyFile db (l ++ l') := by
  obtain ⟨e, he, h⟩ := h
  exact ⟨e, List.mem_append_left _ he, h⟩

theorem EmptyFile.right {l l' : List Disk} (h : EmptyFile db l') : EmptyFile db (l ++ l') := by
  obtain ⟨e, he, h⟩ := h
  exact ⟨e, List.mem_append_right _ he, h⟩

theorem linksStates_empty (ho : d.open L.adv sev = .ok db) (o : OsvRecord) (ids : List Id) : ∀ s : SyncState,
    linksStates L db o s ids ≠ [] → EmptyFile db (linksStates L db o s ids) := by
  induction ids with
  | nil => intro s h; exact absurd rfl h
  | cons id ids ih =>
    intro s h
    unfold linksStates at h ⊢
    by_cases h1 : linkStates L db o s id = []
    · rw [h1, List.nil_append] at h ⊢
      cases hl : syncLink L db o s id with
      | err => rw [hl] at h; exact absurd rfl h
      | panic => rw [hl] at h; exact absurd rfl h
      | ok s' => rw [hl] at h; exact ih s' h
    · exact (linkStates_empty ho h1).left

theorem recordsStates_empty (ho : d.open L.adv sev = .ok db) (osv : List OsvRecord) : ∀ s : SyncState,
    recordsStates L db s osv ≠ [] → EmptyFile db (recordsStates L db s osv) := by
  induction osv with
  | nil => intro s h; exact absurd rfl h
  | cons o os ih =>
    intro s h
    unfold recordsStates at h ⊢
    by_cases hw : o.withdrawn = true
    · rw [if_pos hw] at h ⊢; exact ih s h
    · rw [if_neg hw] at h ⊢
      cases hl : linked db o with
      | err => rw [hl] at h; exact absurd rfl h
      | panic => rw [hl] at h; exact absurd rfl h
      | ok ids =>
        rw [hl] at h
        simp only at h ⊢
        by_cases h1 : linksStates L db o s ids = []
        · rw [h1, List.nil_append] at h ⊢
          cases hs : syncLinks L db o s ids with
          | err => rw [hs] at h; exact absurd rfl h
          | panic => rw [hs] at h; exact absurd rfl h
          | ok s' => rw [hs] at h; exact ih s' h
        · exact (linksStates_empty ho o ids s h1).left

theorem loadText_empty (L : AdvLib) (sev : Cvss.Cvss → Severity) (a : Advisory) : loadText L sev [] ≠ .ok a := by
  have : Parts.parse [] = .err := by decide +kernel
  unfold loadText AdvisoryFile.fromStr
  rw [this]
  nofun

/-- A database with an empty advisory file does not open. -/
theorem empty_not_open (hr : SyncReady L sev d db) {a : Advisory} (ha : a ∈ db.iter) {e : Disk}
    (he : (fileOf a, []) ∈ e) (db' : Database) : e.open L.adv sev ≠ .ok db' := by
  intro ho
  obtain ⟨⟨s, hs⟩, hne⟩ := loaded_id_parsed hr.opens ha
  have hstr : a.metadata.id.string = s := (C19_parsed_contents s _ hs).1
  rw [← hstr] at hs
  obtain ⟨Y, N, hy⟩ := rustSec_text hs (hr.rustsec a ha) hne
  have hloc := located_of_mem (L := L.adv) (sev := sev) he (rustSec_not_dot hy _)
  obtain ⟨a1, hw, _⟩ := C18_every_file_loaded _ db' ho _ _ _ hloc
  exact loadText_empty L.adv sev a1 hw.1

end

/-- **C75, violation.**  Files are overwritten in place.  Whenever a run of the command updates an advisory, there is a
moment at which the database on disk does not open; if the run is stopped then, every later run fails until the file is
restored by hand. -/
theorem C75_torn_database (E : SyncEnv) (paths : List Str) (d : Disk) (db : Database) (hr : SyncReady E.lib E.sev d db)
    (lines : List SyncLine) (n : Nat) (h : (E.run paths d).2 = .ok lines) (hn : .updated n ∈ lines)
    (law : EditLaw E.lib) (hp : ∀ osv, loadExport E.json E.exportDir E.entries = .ok osv → ∀ o ∈ osv, PlainRecord o) :
    ∃ e ∈ (E.run paths d).1, (∀ db', e.open E.lib.adv E.sev ≠ .ok db') ∧
      ∀ (E' : SyncEnv) (paths' : List Str) lines', E'.lib = E.lib → E'.sev = E.sev →
        (E'.run paths' e).2 ≠ .ok lines' := by
  obtain ⟨hpl, hi, hf, db', osv, s, missing, ho, hne, hl, hs, _, hlines⟩ := (C75_run E paths d lines).mp h
  rw [hr.opens] at ho
  cases ho
  have hu : s.updated ≠ 0 := by
    intro h0
    rw [hlines, h0] at hn
    simp only [if_true] at hn
    rcases List.mem_append.mp hn with hn | hn
    · rcases List.mem_append.mp hn with hn | hn
      · rcases List.mem_cons.mp hn with hn | hn
        · cases hn
        · rcases List.mem_cons.mp hn with hn | hn
          · cases hn
          · cases hn
      · split at hn
        · rcases List.mem_cons.mp hn with hn | hn
          · cases hn
          · cases hn
        · rcases List.mem_cons.mp hn with hn | hn
          · cases hn
          · obtain ⟨o, _, ho⟩ := List.mem_map.mp hn
            cases ho
    · rcases List.mem_cons.mp hn with hn | hn
      · cases hn
      · cases hn
  have hst : recordsStates E.lib db { disk := d } osv ≠ [] := by
    intro hnil
    have hs' := hs
    unfold sync at hs'
    have he' : db.iter.isEmpty = false := by simpa using hne
    rw [hr.opens] at hs'
    simp only [he', Bool.false_eq_true, if_false] at hs'
    cases hrec : syncRecords E.lib db { disk := d } osv with
    | err => rw [hrec] at hs'; cases hs'
    | panic => rw [hrec] at hs'; cases hs'
    | ok r =>
      obtain ⟨s1, c1⟩ := r
      rw [hrec] at hs'
      cases hs'
      have hend := recordsStates_end osv _ _ _ hrec
      rw [hnil] at hend
      have hd : s.disk = d := hend.symm
      exact hu (((C56_sync E.lib law E.sev d db osv hr (hp osv hl) s _ hs).2.1).mpr hd)
  obtain ⟨e, he, a, ha, hempty⟩ := recordsStates_empty hr.opens osv _ hst
  have hno := fun db' => empty_not_open hr ha hempty db'
  refine ⟨e, ?_, hno, ?_⟩
  · unfold SyncEnv.run
    rw [if_neg (by omega), hr.opens, hl]
    have he' : db.iter.isEmpty = false := by simpa using hne
    simp only [hi, Bool.not_true, Bool.false_eq_true, if_false, he', hs, hf]
    exact List.mem_cons_of_mem _ he
  · intro E' paths' lines' hlib hsev h'
    obtain ⟨_, _, _, db', _, _, _, ho', _⟩ := (C75_run E' paths' e lines').mp h'
    rw [hlib, hsev] at ho'
    exact hno db' ho'

/-! ### Not vacuous -/

/-- Surroundings: the files hold the number of the record of `syncOsv`. -/
def syncEnv : SyncEnv where
  lib := syncLib
  sev := noSev
  json := fun t => (syncOsv ++ [{ osvOf "GHSA-o" [] ["new"] [] with published := "2019-01-01T00:00:00Z".toList }])[t.length]?
  exportDir := "/tmp/osv".toList
  entries := some [⟨"GHSA-a.json".toList, some "".toList⟩, ⟨"all.zip".toList, none⟩, ⟨"RUSTSEC-2021-0001.json".toList, none⟩,
    ⟨"GHSA-n.json".toList, some "xx".toList⟩, ⟨"GHSA-o.json".toList, some "xxxx".toList⟩, ⟨".json".toList, none⟩]
  indexOk := true
  lockFree := true

example : (match (syncEnv.run [] syncDisk).2 with
    | .ok lines => decide (lines = [.loadedExport 3, .loadedDatabase 2, .missing 2,
        .item [] "https://github.com/advisories/GHSA-n".toList ["new".toList, "unknown".toList],
        .item "2019-01-01".toList "https://github.com/advisories/GHSA-o".toList ["new".toList], .updated 1])
    | _ => false) = true := by decide +kernel

/-- The same export in a directory called `RUSTSEC-osv`: nothing is missing, nothing is updated. -/
example : (match ({ syncEnv with exportDir := "/tmp/RUSTSEC-osv".toList }.run [] syncDisk).2 with
    | .ok lines => decide (lines = [.loadedExport 0, .loadedDatabase 2, .nothingMissing, .upToDate])
    | _ => false) = true := by decide +kernel

/-- Two paths make the program panic. -/
example : (syncEnv.run ["a".toList, "b".toList] syncDisk).2 = .panic := rfl

theorem syncEnv_plain (osv : List OsvRecord) (h : loadExport syncEnv.json syncEnv.exportDir syncEnv.entries = .ok osv) :
    ∀ o ∈ osv, PlainRecord o := by
  have hb : (match loadExport syncEnv.json syncEnv.exportDir syncEnv.entries with
    | .ok l => l.all plainB | _ => true) = true := by decide +kernel
  rw [h] at hb
  exact fun o ho => plain_of (List.all_eq_true.mp hb o ho)

/-- The hypotheses of `C75_torn_database` and `C75_interrupted` hold of it. -/
example : ∃ e ∈ (syncEnv.run [] syncDisk).1, ∀ db', e.open syncEnv.lib.adv syncEnv.sev ≠ .ok db' := by
  have hb : (match (syncEnv.run [] syncDisk).2 with
    | .ok lines => lines.contains (.updated 1) | _ => false) = true := by decide +kernel
  obtain ⟨db, hr⟩ := sync_example.2.1
  cases hrun : (syncEnv.run [] syncDisk).2 with
  | err => rw [hrun] at hb; cases hb
  | panic => rw [hrun] at hb; cases hb
  | ok lines =>
    rw [hrun] at hb
    obtain ⟨e, he, h, _⟩ := C75_torn_database syncEnv [] syncDisk db hr lines 1 hrun (List.contains_iff_mem.mp hb)
      syncLib_law syncEnv_plain
    exact ⟨e, he, h⟩

end Verif.Props
