import Verif.Props.SyncRun

/-!
# C56: alias synchronisation
-/

namespace Verif.Props

open Verif.Adv Verif.Db Verif.Assign Verif.Sync Verif.Spec Verif.Lock

theorem fileState_refl (L : AdvLib) (t : Str) {P : Id → Prop} (h : ∀ i, ¬ P i) : FileState L t t P :=
  ⟨fun _ => rfl, fun _ _ ⟨i, hi⟩ => absurd hi (h i)⟩

theorem syncInv_init (L : AdvLib) (d : Disk) : SyncInv L d { disk := d } (fun _ _ => False) := by
  refine ⟨?_, by simp, fun _ => rfl⟩
  show List.Forall₂ _ d d
  induction d with
  | nil => exact .nil
  | cons x d ih => exact .cons ⟨rfl, fileState_refl L _ (by simp)⟩ ih

section

variable {L : SyncLib} {sev : Cvss.Cvss → Severity} {d : Disk} {db : Database} {osv : List OsvRecord}

theorem mem_linked {o : OsvRecord} {ids : List Id} (hl : linked db o = .ok ids)
    (ho : d.open L.adv sev = .ok db) {a : Advisory} (ha : a ∈ db.iter) :
    a.metadata.id ∈ ids ↔ LinkedTo o a := by
  rw [(linked_spec db o).2 ids hl]
  unfold LinkedTo
  refine or_congr_right ?_
  constructor
  · rintro ⟨b, hb, he, hm⟩
    have h1 := (C10_get_iff _ db ho _ _).mpr ⟨hb, he⟩
    have h2 := (C10_get_iff _ db ho _ _).mpr ⟨ha, rfl⟩
    rw [h1] at h2
    cases h2
    exact hm
  · intro h
    exact ⟨a, ha, rfl, h⟩

theorem addsAll_iff (ho : d.open L.adv sev = .ok db) (hok : ∀ o ∈ osv, recordOk d db o) (p : Path) (i : Id) :
    addsAll db osv p i ↔ ∃ a ∈ db.iter, p = fileOf a ∧ ToAdd osv a i := by
  unfold addsAll addsVia ToAdd
  constructor
  · rintro ⟨o, hom, hw, ids, hl, id, hid, a, hg, hn, e, hm⟩
    obtain ⟨ids', hl', hids⟩ := hok o hom hw
    rw [hl] at hl'; cases hl'
    obtain ⟨ha, rfl⟩ := (C10_get_iff _ db ho id a).mp hg
    have hlink := (mem_linked hl ho ha).mp hid
    obtain ⟨h1, h2, h3, h4⟩ := mem_missingAliases.mp hm
    exact ⟨a, ha, e, o, hom, hw, hlink, hn, h1, h2, h3, h4⟩
  · rintro ⟨a, ha, e, o, hom, hw, hlink, hn, h1, h2, h3, h4⟩
    obtain ⟨ids, hl, hids⟩ := hok o hom hw
    have hid := (mem_linked hl ho ha).mpr hlink
    exact ⟨o, hom, hw, ids, hl, _, hid, a, (C10_get_iff _ db ho _ _).mpr ⟨ha, rfl⟩, hn, e,
      mem_missingAliases.mpr ⟨h1, h2, h3, h4⟩⟩

theorem records_ok_iff (ho : d.open L.adv sev = .ok db) :
    (∀ o ∈ osv, recordOk d db o) ↔ (∀ o ∈ osv, o.withdrawn = false → GoodReferences db o) ∧
      ∀ a ∈ db.iter, (∃ i, ToAdd osv a i) → ∃ t, (fileOf a, t) ∈ d := by
  constructor
  · intro hok
    refine ⟨?_, ?_⟩
    · intro o hom hw url hu rest hr
      obtain ⟨ids, hl, hids⟩ := hok o hom hw
      obtain ⟨i, hi⟩ := (rustsecRefs_spec o).1.mp ((linked_spec db o).1.mp ⟨ids, hl⟩) url hu rest hr
      obtain ⟨h17, hf⟩ := (refId_iff hr i).mp hi
      refine ⟨h17, ?_⟩
      have hmem : i ∈ ids := ((linked_spec db o).2 ids hl i).mpr (.inl ⟨url, hu, rest, hr, h17, hf⟩)
      obtain ⟨a, hg, -⟩ := hids i hmem
      obtain ⟨ha, rfl⟩ := (C10_get_iff _ db ho i a).mp hg
      exact ⟨a, ha, hf⟩
    · rintro a ha ⟨i, hadd⟩
      obtain ⟨o, hom, hw, ids, hl, id, hid, b, hg, hn, e, hm⟩ :=
        (addsAll_iff ho hok (fileOf a) i).mpr ⟨a, ha, rfl, hadd⟩
      obtain ⟨ids', hl', hids⟩ := hok o hom hw
      rw [hl] at hl'; cases hl'
      obtain ⟨b', hg', h⟩ := hids id hid
      rw [hg] at hg'; cases hg'
      rw [e]
      exact h hn (List.ne_nil_of_mem hm)
  · rintro ⟨hgood, hfile⟩ o hom hw
    obtain ⟨ids, hl⟩ := (linked_spec db o).1.mpr ((rustsecRefs_spec o).1.mpr (by
      intro url hu rest hr
      obtain ⟨h17, a, -, hf⟩ := hgood o hom hw url hu rest hr
      exact ⟨_, (refId_iff hr _).mpr ⟨h17, hf⟩⟩))
    refine ⟨ids, hl, ?_⟩
    intro id hid
    have hmem := ((linked_spec db o).2 ids hl id).mp hid
    obtain ⟨a, ha, rfl⟩ : ∃ a ∈ db.iter, a.metadata.id = id := by
      rcases hmem with ⟨url, hu, rest, hr, h17, hf⟩ | ⟨a, ha, e, -⟩
      · obtain ⟨-, a, ha, hf'⟩ := hgood o hom hw url hu rest hr
        rw [hf] at hf'
        exact ⟨a, ha, (Outcome.ok.inj hf').symm⟩
      · exact ⟨a, ha, e⟩
    have hget := (C10_get_iff _ db ho _ _).mpr ⟨ha, rfl⟩
    refine ⟨a, hget, ?_⟩
    intro hn hne
    obtain ⟨i, hi⟩ := List.exists_mem_of_ne_nil _ hne
    obtain ⟨h1, h2, h3, h4⟩ := mem_missingAliases.mp hi
    refine hfile a ha ⟨i, o, hom, hw, ?_, hn, h1, h2, h3, h4⟩
    rcases hmem with h | ⟨b, hb, e, h⟩
    · exact .inl h
    · have := (C10_get_iff _ db ho _ _).mpr ⟨hb, e⟩
      rw [hget] at this
      cases this
      exact .inr h

/-- The run, step by step. -/
theorem sync_ok (law : EditLaw L) (hr : SyncReady L sev d db) (hp : ∀ o ∈ osv, PlainRecord o) :
    ((∃ r, sync L sev d osv = .ok r) ↔ db.iter ≠ [] ∧ ∀ o ∈ osv, recordOk d db o) ∧
    ∀ s missing, sync L sev d osv = .ok (s, missing) →
      SyncInv L.adv d s (fun p i => ∃ a ∈ db.iter, p = fileOf a ∧ ToAdd osv a i) ∧
      missing = ((osv.flatMap (checksOf L db)).filter fun c => L.known c.1).map Prod.snd := by
  obtain ⟨h1, h2⟩ := syncRecords_spec law hr osv hp (syncInv_init L.adv d)
  unfold sync
  rw [hr.opens]
  simp only
  by_cases he : db.iter = []
  · simp [he]
  · have he' : db.iter.isEmpty = false := by simpa using he
    rw [he']
    simp only [Bool.false_eq_true, if_false]
    cases hs : syncRecords L db { disk := d } osv with
    | err =>
      rw [hs] at h1
      refine ⟨⟨fun ⟨_, h⟩ => (by cases h), fun h => ?_⟩, fun _ _ h => (by cases h)⟩
      obtain ⟨_, h'⟩ := h1.mpr h.2; cases h'
    | panic =>
      rw [hs] at h1
      refine ⟨⟨fun ⟨_, h⟩ => (by cases h), fun h => ?_⟩, fun _ _ h => (by cases h)⟩
      obtain ⟨_, h'⟩ := h1.mpr h.2; cases h'
    | ok r =>
      obtain ⟨s1, c1⟩ := r
      rw [hs] at h1
      have hok := h1.mp ⟨_, rfl⟩
      refine ⟨⟨fun _ => ⟨he, hok⟩, fun _ => ⟨_, rfl⟩⟩, ?_⟩
      intro s missing h
      cases h
      obtain ⟨h3, h4⟩ := h2 s1 c1 hs
      refine ⟨h3.congr ?_, by rw [h4]⟩
      intro p i
      rw [false_or, addsAll_iff hr.opens hok]

end

/-- **C56, when it succeeds.**  `sync` succeeds iff the database is not empty, every RustSec URL in a record
that is not withdrawn carries, in the 17 characters after the prefix, the ID of an advisory of the database, and
every advisory that gets an alias has its file in the `crates` collection under its ID. -/
theorem C56_succeeds (L : SyncLib) (law : EditLaw L) (sev : Cvss.Cvss → Severity) (d : Disk) (db : Database)
    (osv : List OsvRecord) (hr : SyncReady L sev d db) (hp : ∀ o ∈ osv, PlainRecord o) :
    (∃ r, sync L sev d osv = .ok r) ↔
      db.iter ≠ [] ∧ (∀ o ∈ osv, o.withdrawn = false → GoodReferences db o) ∧
      ∀ a ∈ db.iter, (∃ i, ToAdd osv a i) → ∃ t, (fileOf a, t) ∈ d := by
  rw [(sync_ok law hr hp).1, records_ok_iff hr.opens]

/-- **C56, what it does.**  After a successful run the disk has the same files.  The text of a file changes only
if it is the file of an advisory that gets an alias; then the text still parses, to the same advisory except that
its aliases are the old ones and the ones to be added, sorted without duplicates (the related IDs are the same,
sorted), and the Markdown is unchanged.  The program says that nothing was updated iff the disk is unchanged. -/
theorem C56_sync (L : SyncLib) (law : EditLaw L) (sev : Cvss.Cvss → Severity) (d : Disk) (db : Database)
    (osv : List OsvRecord) (hr : SyncReady L sev d db) (hp : ∀ o ∈ osv, PlainRecord o) (s : SyncState)
    (missing : List OsvRecord) (h : sync L sev d osv = .ok (s, missing)) :
    s.disk.map Prod.fst = d.map Prod.fst ∧
    (s.updated = 0 ↔ s.disk = d) ∧
    (∀ a ∈ db.iter, (∃ i, ToAdd osv a i) → ∃ t, (fileOf a, t) ∈ d) ∧
    ∀ p t, (p, t) ∈ d → ∃ t', (p, t') ∈ s.disk ∧
      ((t' = t ∧ ∀ a ∈ db.iter, p = fileOf a → ∀ i, ¬ ToAdd osv a i) ∨
       ∃ a f f', a ∈ db.iter ∧ p = fileOf a ∧ (∃ i, ToAdd osv a i) ∧
         EditableFile L.adv t f ∧ a = stored .crates (toAdvisory sev f) ∧ EditableFile L.adv t' f' ∧
         SameButAliases f f' ∧ SortedIds f'.metadata.aliases ∧ SortedIds f'.metadata.related ∧
         (∀ i, i ∈ f'.metadata.aliases ↔ i ∈ f.metadata.aliases ∨ ToAdd osv a i) ∧
         ∃ p p', Parts.parse t = .ok p ∧ Parts.parse t' = .ok p' ∧ p'.markdown = p.markdown) := by
  obtain ⟨hinv, -⟩ := (sync_ok law hr hp).2 s missing h
  have hcond := ((C56_succeeds L law sev d db osv hr hp).mp ⟨_, h⟩).2.2
  -- an advisory is determined by its path
  have hinj : ∀ a ∈ db.iter, ∀ b ∈ db.iter, fileOf a = fileOf b → a = b := by
    intro a ha b hb e
    obtain ⟨⟨s1, h1⟩, -⟩ := loaded_id_parsed hr.opens ha
    obtain ⟨⟨s2, h2⟩, -⟩ := loaded_id_parsed hr.opens hb
    have e1 : a.metadata.id.string = b.metadata.id.string :=
      List.append_cancel_right (congrArg Path.file e)
    have h1s : a.metadata.id.string = s1 := (C19_parsed_contents s1 _ h1).1
    have h2s : b.metadata.id.string = s2 := (C19_parsed_contents s2 _ h2).1
    have : a.metadata.id = b.metadata.id := by
      rw [← h1s, e1, h2s, h2] at h1
      exact (Outcome.ok.inj h1).symm
    have g1 := (C10_get_iff _ db hr.opens _ _).mpr ⟨ha, rfl⟩
    have g2 := (C10_get_iff _ db hr.opens _ _).mpr ⟨hb, this.symm⟩
    rw [g1] at g2
    exact Option.some.inj g2
  have hfile : ∀ p t, (p, t) ∈ d → ∃ t', (p, t') ∈ s.disk ∧
      ((t' = t ∧ ∀ a ∈ db.iter, p = fileOf a → ∀ i, ¬ ToAdd osv a i) ∨
       ∃ a f f', a ∈ db.iter ∧ p = fileOf a ∧ (∃ i, ToAdd osv a i) ∧
         EditableFile L.adv t f ∧ a = stored .crates (toAdvisory sev f) ∧ EditableFile L.adv t' f' ∧
         SameButAliases f f' ∧ SortedIds f'.metadata.aliases ∧ SortedIds f'.metadata.related ∧
         (∀ i, i ∈ f'.metadata.aliases ↔ i ∈ f.metadata.aliases ∨ ToAdd osv a i) ∧
         ∃ p p', Parts.parse t = .ok p ∧ Parts.parse t' = .ok p' ∧ p'.markdown = p.markdown) := by
    intro p t hpt
    obtain ⟨t', ht', hfs⟩ := files_left (P := fun p i => ∃ a ∈ db.iter, p = fileOf a ∧ ToAdd osv a i) hinv.files hpt
    refine ⟨t', ht', ?_⟩
    by_cases hex : ∃ i, ∃ a ∈ db.iter, p = fileOf a ∧ ToAdd osv a i
    · right
      obtain ⟨i, a, ha, rfl, hadd⟩ := hex
      obtain ⟨f, hE⟩ := hr.editable a ha t hpt
      obtain ⟨f', hE', hs, h1, h2, h3, h4⟩ := hfs.changed f hE ⟨i, a, ha, rfl, hadd⟩
      obtain ⟨f0, hf0, hst⟩ := own_file hr.opens ha (hr.rustsec a ha) hpt
      have : f0 = f := by
        have := hE.parses
        rw [hf0] at this
        exact Outcome.ok.inj this
      subst this
      refine ⟨a, f0, f', ha, rfl, ⟨i, hadd⟩, hE, hst, hE', hs, h1, h2, ?_, h4⟩
      intro j
      rw [h3]
      refine or_congr_right ?_
      constructor
      · rintro ⟨b, hb, e, h⟩
        rw [hinj a ha b hb e]; exact h
      · intro h
        exact ⟨a, ha, rfl, h⟩
    · left
      refine ⟨hfs.unchanged fun i h => hex ⟨i, h⟩, ?_⟩
      intro a ha e i h
      exact hex ⟨i, a, ha, e, h⟩
  refine ⟨files_fst (P := fun p i => ∃ a ∈ db.iter, p = fileOf a ∧ ToAdd osv a i) hinv.files, ⟨hinv.same, ?_⟩, hcond, hfile⟩
  intro hd
  rw [hinv.zero]
  rintro p i ⟨a, ha, rfl, hadd⟩
  obtain ⟨t, ht⟩ := hcond a ha ⟨i, hadd⟩
  obtain ⟨t', ht', h | ⟨b, f, f', hb, e, -, hE, hst, hE', -, -, -, hal, -⟩⟩ := hfile _ t ht
  · exact h.2 a ha rfl i hadd
  · have := hinj a ha b hb e
    subst this
    rw [hd] at ht'
    have h1 := read_of_mem ht hr.paths
    have h2 := read_of_mem ht' hr.paths
    rw [h1] at h2
    cases h2
    have hff : f = f' := by
      have := hE.parses
      rw [hE'.parses] at this
      exact (Outcome.ok.inj this).symm
    subst hff
    have := (hal i).mpr (.inr hadd)
    obtain ⟨-, -, -, -, -, -, -, -, h9⟩ := hadd
    refine h9 ?_
    rw [hst]
    exact this

/-! ### The records to import -/

theorem checks_one (L : SyncLib) (db : Database) (o : OsvRecord) :
    (((checksOf L db o).filter fun c => L.known c.1).map Prod.snd) =
      List.replicate ((checksOf L db o).filter fun c => L.known c.1).length o := by
  have hall : ∀ c ∈ (checksOf L db o).filter (fun c => L.known c.1), c.2 = o := by
    intro c hc
    have := (List.mem_filter.mp hc).1
    unfold checksOf at this
    split at this
    · cases this
    · split at this
      · obtain ⟨x, -, rfl⟩ := List.mem_map.mp this; rfl
      · cases this
  generalize (checksOf L db o).filter (fun c => L.known c.1) = l at hall
  induction l with
  | nil => rfl
  | cons c l ih =>
    rw [List.map_cons, List.length_cons, List.replicate_succ, ih fun x hx => hall x (List.mem_cons_of_mem _ hx),
      hall c List.mem_cons_self]

theorem flatMap_checks (L : SyncLib) (db : Database) (osv : List OsvRecord) :
    ((osv.flatMap (checksOf L db)).filter fun c => L.known c.1).map Prod.snd =
      osv.flatMap fun o => List.replicate ((checksOf L db o).filter fun c => L.known c.1).length o := by
  induction osv with
  | nil => rfl
  | cons o os ih =>
    rw [List.flatMap_cons, List.filter_append, List.map_append, ih, checks_one, List.flatMap_cons]

theorem crates_length (L : SyncLib) (o : OsvRecord) :
    (((o.crates.filter L.validName).map (·, o)).filter fun c => L.known c.1).length =
      (reportedCrates L o).length := by
  have hcmp : ∀ s : Str, strCmp s s ≠ .lt := fun s h => by
    rw [(strCmp_eq_iff s s).mpr rfl] at h; cases h
  have hnd : o.crates.Nodup := by
    have := sortDedup_sorted strCmp strCmp_eq_iff
      (o.affected.filterMap fun a => if a.1 = "crates.io".toList then some a.2 else none)
    refine List.Pairwise.imp (fun {a b} h => ?_) this
    rintro rfl
    exact hcmp _ h
  have hperm : o.crates.Perm (((o.affected.filter fun a => decide (a.1 = "crates.io".toList)).map Prod.snd).dedup) := by
    refine (List.perm_ext_iff_of_nodup hnd (List.nodup_dedup _)).mpr ?_
    intro c
    rw [mem_crates, List.mem_dedup, List.mem_map]
    constructor
    · intro h
      exact ⟨_, List.mem_filter.mpr ⟨h, decide_eq_true rfl⟩, rfl⟩
    · rintro ⟨⟨e, n⟩, h, rfl⟩
      obtain ⟨h1, h2⟩ := List.mem_filter.mp h
      have : e = "crates.io".toList := of_decide_eq_true h2
      exact this ▸ h1
  unfold reportedCrates
  rw [List.filter_map, List.length_map, List.filter_filter]
  refine (hperm.filter _).length_eq.trans (congrArg List.length (List.filter_congr ?_))
  intro c _
  simp only [Function.comp]
  exact Bool.and_comm _ _

/-- **C56, the records to import.**  The records reported as missing are those that are not withdrawn and linked
to no advisory, in the order of the export, once for every crate they name that is valid and on crates.io. -/
theorem C56_missing (L : SyncLib) (law : EditLaw L) (sev : Cvss.Cvss → Severity) (d : Disk) (db : Database)
    (osv : List OsvRecord) (hr : SyncReady L sev d db) (hp : ∀ o ∈ osv, PlainRecord o) (s : SyncState)
    (missing : List OsvRecord) (h : sync L sev d osv = .ok (s, missing)) :
    ∃ n : OsvRecord → Nat, missing = osv.flatMap (fun o => List.replicate (n o) o) ∧
      ∀ o ∈ osv,
        ((o.withdrawn = false ∧ ∀ a ∈ db.iter, ¬ LinkedTo o a) → n o = (reportedCrates L o).length) ∧
        (¬ (o.withdrawn = false ∧ ∀ a ∈ db.iter, ¬ LinkedTo o a) → n o = 0) := by
  obtain ⟨-, hmiss⟩ := (sync_ok law hr hp).2 s missing h
  have hok := ((sync_ok law hr hp).1.mp ⟨_, h⟩).2
  refine ⟨fun o => ((checksOf L db o).filter fun c => L.known c.1).length, by rw [hmiss, flatMap_checks], ?_⟩
  intro o hom
  by_cases hw : o.withdrawn = true
  · refine ⟨fun h' => (by rw [hw] at h'; cases h'.1), fun _ => ?_⟩
    simp only [checksOf, if_pos hw]
    rfl
  · have hw' : o.withdrawn = false := by simpa using hw
    obtain ⟨ids, hl, hids⟩ := hok o hom hw'
    have hnil : ids = [] ↔ ∀ a ∈ db.iter, ¬ LinkedTo o a := by
      constructor
      · rintro rfl a ha hla
        exact List.not_mem_nil ((mem_linked hl hr.opens ha).mpr hla)
      · intro hno
        rcases ids with _ | ⟨id, ids⟩
        · rfl
        · exfalso
          obtain ⟨a, hg, -⟩ := hids id List.mem_cons_self
          obtain ⟨ha, rfl⟩ := (C10_get_iff _ db hr.opens id a).mp hg
          exact hno a ha ((mem_linked hl hr.opens ha).mp List.mem_cons_self)
    simp only [hw', true_and, ← hnil]
    constructor
    · rintro rfl
      rw [checksOf, if_neg hw, hl]
      exact crates_length L o
    · intro hne
      rw [checksOf, if_neg hw, hl]
      cases ids with
      | nil => exact absurd rfl hne
      | cons _ _ => rfl

/-! ### A second run -/

theorem advisoryPaths_disk (L : AdvLib) (sev : Cvss.Cvss → Severity) (d : Disk) :
    advisoryPaths (d.tree L sev) = .ok (((d.collection .crates ++ d.collection .rust).filter
      fun f => !startsWith f.1.file ".").map fun f => ⟨f.1.collection, f.1.dir, ⟨f.1.file, loadText L sev f.2⟩⟩) := by
  have key : ∀ c : Collection, collectionPaths c (d.entries L sev c) =
      ((d.collection c).filter fun f => !startsWith f.1.file ".").map
        fun f => ⟨f.1.collection, f.1.dir, ⟨f.1.file, loadText L sev f.2⟩⟩ := by
    intro c
    unfold collectionPaths Disk.entries
    have hc : ∀ f ∈ d.collection c, f.1.collection = c := fun f hf => of_decide_eq_true (List.mem_filter.mp hf).2
    generalize d.collection c = l at hc
    induction l with
    | nil => rfl
    | cons f l ih =>
      rw [List.map_cons, List.flatMap_cons, ih fun x hx => hc x (List.mem_cons_of_mem _ hx), List.filter_cons]
      by_cases hs : startsWith f.1.file "." = true
      · simp [hs]
      · have hs' : startsWith f.1.file "." = false := by simpa using hs
        simp [hs', hc f List.mem_cons_self]
  unfold advisoryPaths Disk.tree
  simp only
  rw [key, key, List.filter_append, List.map_append]

/-- If every file still loads with the same ID, package and collection, the database still opens. -/
theorem reopen {L : AdvLib} {sev : Cvss.Cvss → Severity} {d d' : Disk} {db : Database}
    (h : d.open L sev = .ok db)
    (hf : List.Forall₂ (fun x y => y.1 = x.1 ∧ ∀ a, loadText L sev x.2 = .ok a → ∃ a',
      loadText L sev y.2 = .ok a' ∧ a'.metadata.id = a.metadata.id ∧ a'.metadata.package = a.metadata.package ∧
      a'.metadata.collection = a.metadata.collection) d d') : ∃ db', d'.open L sev = .ok db' := by
  obtain ⟨ps, hps, hwell, hpair⟩ := (C18_opens_iff _).1.mp ⟨db, h⟩
  rw [advisoryPaths_disk] at hps
  refine (C18_opens_iff _).1.mpr ⟨_, advisoryPaths_disk L sev d', ?_⟩
  have hfilter : ∀ (q : Path → Bool) (l l' : Disk), List.Forall₂ (fun x y => y.1 = x.1 ∧ ∀ a, loadText L sev x.2 = .ok a → ∃ a',
      loadText L sev y.2 = .ok a' ∧ a'.metadata.id = a.metadata.id ∧ a'.metadata.package = a.metadata.package ∧
      a'.metadata.collection = a.metadata.collection) l l' → List.Forall₂ (fun x y => y.1 = x.1 ∧ ∀ a, loadText L sev x.2 = .ok a → ∃ a',
      loadText L sev y.2 = .ok a' ∧ a'.metadata.id = a.metadata.id ∧ a'.metadata.package = a.metadata.package ∧
      a'.metadata.collection = a.metadata.collection) (l.filter fun f => q f.1) (l'.filter fun f => q f.1) := by
    intro q l l' hl
    induction hl with
    | nil => exact .nil
    | @cons x y _ _ hx _ ih =>
      rw [List.filter_cons, List.filter_cons, hx.1]
      cases q x.1
      · exact ih
      · exact .cons hx ih
  have hF := hfilter (fun p => !startsWith p.file ".") _ _
    (List.rel_append (hfilter (fun p => decide (p.collection = .crates)) _ _ hf)
      (hfilter (fun p => decide (p.collection = .rust)) _ _ hf))
  change List.Forall₂ _ ((d.collection .crates ++ d.collection .rust).filter fun f => !startsWith f.1.file ".")
    ((d'.collection .crates ++ d'.collection .rust).filter fun f => !startsWith f.1.file ".") at hF
  have hps' := (Outcome.ok.inj hps).symm
  subst hps'
  generalize (d.collection .crates ++ d.collection .rust).filter (fun f => !startsWith f.1.file ".") = l at hF hwell hpair
  generalize (d'.collection .crates ++ d'.collection .rust).filter (fun f => !startsWith f.1.file ".") = l' at hF ⊢
  have hback : ∀ y ∈ l', ∃ x ∈ l, y.1 = x.1 ∧ ∃ a a', loadText L sev x.2 = .ok a ∧ loadText L sev y.2 = .ok a' ∧
      a'.metadata.id = a.metadata.id ∧ a'.metadata.package = a.metadata.package ∧
      a'.metadata.collection = a.metadata.collection := by
    clear hpair
    induction hF with
    | nil => intro y hy; cases hy
    | @cons x y _ _ hx _ ih =>
      intro z hz
      rcases List.mem_cons.mp hz with rfl | hz
      · obtain ⟨a, hw⟩ := hwell _ List.mem_cons_self
        obtain ⟨a', h1, h2⟩ := hx.2 a hw.1
        exact ⟨x, List.mem_cons_self, hx.1, a, a', hw.1, h1, h2⟩
      · obtain ⟨x', hx', h⟩ := ih (fun p hp => hwell p (List.mem_cons_of_mem _ hp)) z hz
        exact ⟨x', List.mem_cons_of_mem _ hx', h⟩
  constructor
  · intro p hp
    obtain ⟨y, hy, rfl⟩ := List.mem_map.mp hp
    obtain ⟨x, hx, e, a, a', h1, h2, h3, h4, h5⟩ := hback y hy
    obtain ⟨b, hb1, hb2, hb3, hb4⟩ := hwell _ (List.mem_map_of_mem hx)
    simp only at hb1 hb2 hb3 hb4
    rw [h1] at hb1
    cases hb1
    refine ⟨a', h2, ?_, ?_, ?_⟩
    · simp only; rw [e, h4]; exact hb2
    · simp only; rw [e, h5]; exact hb3
    · simp only; rw [e, h3]; exact hb4
  · rw [List.pairwise_map] at hpair ⊢
    have hwell' : ∀ x ∈ l, ∃ a, loadText L sev x.2 = .ok a := fun x hx =>
      (hwell _ (List.mem_map_of_mem hx)).imp fun _ h => h.1
    clear hback hwell hps
    induction hF with
    | nil => exact .nil
    | @cons x y xs ys hx hxs ih =>
      rw [List.pairwise_cons] at hpair ⊢
      refine ⟨?_, ih hpair.2 fun z hz => hwell' z (List.mem_cons_of_mem _ hz)⟩
      intro z hz a1 a2 h1 h2 hid
      obtain ⟨a, ha⟩ := hwell' x List.mem_cons_self
      obtain ⟨a', ha', hi', -⟩ := hx.2 a ha
      simp only at h1 h2
      rw [ha'] at h1; cases h1
      obtain ⟨w, hw, b, b', hb, hb', hib⟩ : ∃ w ∈ xs, ∃ b b', loadText L sev w.2 = .ok b ∧
          loadText L sev z.2 = .ok b' ∧ b'.metadata.id = b.metadata.id := by
        clear ih hpair
        induction hxs with
        | nil => cases hz
        | @cons u v _ _ hu _ ih2 =>
          rcases List.mem_cons.mp hz with rfl | hz
          · obtain ⟨b, hb⟩ := hwell' u (List.mem_cons_of_mem _ List.mem_cons_self)
            obtain ⟨b', hb', hib, -⟩ := hu.2 b hb
            exact ⟨u, List.mem_cons_self, b, b', hb, hb', hib⟩
          · obtain ⟨w, hw, r⟩ := ih2 (by
              intro q hq
              rcases List.mem_cons.mp hq with rfl | hq
              · exact hwell' _ List.mem_cons_self
              · exact hwell' _ (List.mem_cons_of_mem _ (List.mem_cons_of_mem _ hq))) hz
            exact ⟨w, List.mem_cons_of_mem _ hw, r⟩
      rw [hb'] at h2; cases h2
      rw [hi', hib] at hid
      rw [hi']
      exact hpair.1 w hw a b ha hb hid

theorem toAdvisory_same {sev : Cvss.Cvss → Severity} {f f' : AdvisoryFile} (h : SameButAliases f f') :
    (toAdvisory sev f').metadata.id = (toAdvisory sev f).metadata.id ∧
    (toAdvisory sev f').metadata.package = (toAdvisory sev f).metadata.package ∧
    (toAdvisory sev f').metadata.collection = (toAdvisory sev f).metadata.collection := by
  rw [h.same]
  exact ⟨rfl, rfl, rfl⟩

theorem files_load {L : AdvLib} {sev : Cvss.Cvss → Severity} {d d' : Disk} {P : Path → Id → Prop}
    (hf : List.Forall₂ (fun x y => y.1 = x.1 ∧ FileState L x.2 y.2 (P x.1)) d d')
    (hE : ∀ p t, (p, t) ∈ d → (∃ i, P p i) → ∃ f, EditableFile L t f) :
    List.Forall₂ (fun x y => y.1 = x.1 ∧ ∀ a, loadText L sev x.2 = .ok a → ∃ a',
      loadText L sev y.2 = .ok a' ∧ a'.metadata.id = a.metadata.id ∧ a'.metadata.package = a.metadata.package ∧
      a'.metadata.collection = a.metadata.collection) d d' := by
  induction hf with
  | nil => exact .nil
  | @cons x y _ _ hx _ ih =>
    refine .cons ⟨hx.1, ?_⟩ (ih fun p t ht => hE p t (List.mem_cons_of_mem _ ht))
    intro a ha
    by_cases hP : ∃ i, P x.1 i
    · obtain ⟨f, hEf⟩ := hE x.1 x.2 List.mem_cons_self hP
      obtain ⟨f', hE', hs, -⟩ := hx.2.changed f hEf hP
      have : a = toAdvisory sev f := by
        unfold loadText at ha
        rw [hEf.parses] at ha
        exact (Outcome.ok.inj ha).symm
      subst this
      refine ⟨toAdvisory sev f', ?_, toAdvisory_same hs⟩
      unfold loadText
      rw [hE'.parses]
    · push Not at hP
      rw [hx.2.unchanged hP]
      exact ⟨a, ha, rfl, rfl, rfl⟩

theorem stored_id (c : Collection) (a : Advisory) : (stored c a).metadata.id = a.metadata.id := rfl

/-- Two files do not load with the same ID. -/
theorem load_unique {L : AdvLib} {sev : Cvss.Cvss → Severity} {d : Disk} {db : Database}
    (h : d.open L sev = .ok db) {p q : Path} {t u : Str} (hp : (p, t) ∈ d) (hq : (q, u) ∈ d)
    (hpd : ¬ ['.'] <+: p.file) (hqd : ¬ ['.'] <+: q.file) {a b : Advisory} (ha : loadText L sev t = .ok a)
    (hb : loadText L sev u = .ok b) (hid : a.metadata.id = b.metadata.id)
    (hn : a.metadata.id.string ≠ "RUSTSEC-0000-0000".toList) : p = q := by
  obtain ⟨ps, hps, -, hpair⟩ := (C18_opens_iff _).1.mp ⟨db, h⟩
  rw [advisoryPaths_disk] at hps
  have := (Outcome.ok.inj hps).symm
  subst this
  rw [List.pairwise_map] at hpair
  have hmem : ∀ (r : Path) (v : Str), (r, v) ∈ d → ¬ ['.'] <+: r.file →
      (r, v) ∈ (d.collection .crates ++ d.collection .rust).filter fun f => !startsWith f.1.file "." := by
    intro r v hv hr
    refine List.mem_filter.mpr ⟨mem_collections.mpr hv, ?_⟩
    have : startsWith r.file "." = false := by
      refine Bool.eq_false_iff.mpr fun hs => hr ?_
      obtain ⟨w, hw⟩ := startsWith_iff.mp hs
      exact ⟨w, hw.symm⟩
    simp [this]
  by_contra hne
  have hsymm : ∀ x y : Path × Str, (∀ a a', loadText L sev x.2 = .ok a → loadText L sev y.2 = .ok a' →
      a.metadata.id = a'.metadata.id → a.metadata.id.string = "RUSTSEC-0000-0000".toList) →
      (∀ a a', loadText L sev y.2 = .ok a → loadText L sev x.2 = .ok a' →
      a.metadata.id = a'.metadata.id → a.metadata.id.string = "RUSTSEC-0000-0000".toList) := by
    intro x y hxy a a' h1 h2 e
    rw [e]
    exact hxy a' a h2 h1 e.symm
  have hsy : Std.Symm (fun x y : Path × Str => ∀ a a', loadText L sev x.2 = .ok a →
    loadText L sev y.2 = .ok a' → a.metadata.id = a'.metadata.id →
    a.metadata.id.string = "RUSTSEC-0000-0000".toList) := ⟨hsymm⟩
  have hR := List.Pairwise.forall (R := fun x y : Path × Str => ∀ a a', loadText L sev x.2 = .ok a →
    loadText L sev y.2 = .ok a' → a.metadata.id = a'.metadata.id →
    a.metadata.id.string = "RUSTSEC-0000-0000".toList) hpair (hmem p t hp hpd) (hmem q u hq hqd)
    (fun e => hne (congrArg Prod.fst e))
  exact hn (hR a b ha hb hid)

/-- **C56, a second run.**  If no record becomes linked by an alias that the first run adds, then a second run
with the same export changes nothing.  (`C56_not_idempotent` shows that the hypothesis is needed.) -/
theorem C56_second_run (L : SyncLib) (law : EditLaw L) (sev : Cvss.Cvss → Severity) (d : Disk) (db : Database)
    (osv : List OsvRecord) (hr : SyncReady L sev d db) (hp : ∀ o ∈ osv, PlainRecord o) (s : SyncState)
    (missing : List OsvRecord) (h : sync L sev d osv = .ok (s, missing))
    (hno : ∀ o ∈ osv, o.withdrawn = false → ∀ a ∈ db.iter, NamesCrate o a.metadata.package →
      ToAdd osv a o.id → LinkedTo o a) :
    ∃ missing', sync L sev s.disk osv = .ok ({ disk := s.disk, updated := 0 }, missing') := by
  obtain ⟨hinv, -⟩ := (sync_ok law hr hp).2 s missing h
  obtain ⟨hne, hgood, hcond⟩ := (C56_succeeds L law sev d db osv hr hp).mp ⟨_, h⟩
  obtain ⟨hpaths, -, -, hfiles⟩ := C56_sync L law sev d db osv hr hp s missing h
  have hpaths' : (s.disk.map Prod.fst).Nodup := hpaths ▸ hr.paths
  obtain ⟨db', ho'⟩ := reopen hr.opens (files_load (P := fun p i => ∃ a ∈ db.iter, p = fileOf a ∧ ToAdd osv a i)
    hinv.files (by
      rintro p t ht ⟨i, a, ha, rfl, -⟩
      exact hr.editable a ha t ht))
  have hparsed : ∀ a ∈ db.iter, Id.fromStr a.metadata.id.string = .ok a.metadata.id ∧
      a.metadata.id.string ≠ "RUSTSEC-0000-0000".toList := by
    intro a ha
    obtain ⟨⟨s1, h1⟩, hn⟩ := loaded_id_parsed hr.opens ha
    have h1t : a.metadata.id.string = s1 := (C19_parsed_contents s1 _ h1).1
    rw [← h1t] at h1
    exact ⟨h1, hn⟩
  have hdotf : ∀ a ∈ db.iter, ¬ ['.'] <+: (fileOf a).file := by
    intro a ha
    obtain ⟨h1, hn⟩ := hparsed a ha
    obtain ⟨Y, N, hy⟩ := rustSec_text h1 (hr.rustsec a ha) hn
    exact rustSec_not_dot hy _
  -- every advisory of the new database is one of the old, with more aliases
  have hback : ∀ a' ∈ db'.iter, ∃ a ∈ db.iter, a'.metadata.id = a.metadata.id ∧
      a'.metadata.package = a.metadata.package ∧
      ∀ i, i ∈ a'.metadata.aliases ↔ i ∈ a.metadata.aliases ∨ ToAdd osv a i := by
    intro a' ha'
    obtain ⟨c, dir, fl, b', hloc, hw', rfl, hph⟩ := C18_loaded_well_placed _ db' ho' a' ha'
    obtain ⟨t', ht', hcont⟩ := mem_of_located hloc
    obtain ⟨t, ht, -⟩ := files_right (P := fun p i => ∃ a ∈ db.iter, p = fileOf a ∧ ToAdd osv a i) hinv.files ht'
    obtain ⟨-, -, -, -, -, hdot⟩ := hloc
    obtain ⟨b, hw, hin⟩ := C18_every_file_loaded _ db hr.opens _ _ _
      (located_of_mem (L := L.adv) (sev := sev) ht hdot)
    obtain ⟨t'', ht'', hcase⟩ := hfiles _ t ht
    have : t'' = t' := by
      have h1 := read_of_mem ht' hpaths'
      have h2 := read_of_mem ht'' hpaths'
      rw [h1] at h2
      exact (Option.some.inj h2).symm
    subst this
    have hc' := hw'.1
    rw [hcont] at hc'
    have hc := hw.1
    simp only at hc
    rcases hcase with ⟨rfl, hnone⟩ | ⟨a, f, f', ha, e, hadd, hE, hst, hE', hs, -, -, hal, -⟩
    · rw [hc] at hc'
      have := Outcome.ok.inj hc'
      subst this
      have hin' := hin hph
      refine ⟨_, hin', rfl, rfl, ?_⟩
      intro i
      refine ⟨.inl, ?_⟩
      rintro (h | h)
      · exact h
      · exfalso
        -- an advisory that gets an alias has its own file, and so this is it
        obtain ⟨u, hu⟩ := hcond _ hin' ⟨i, h⟩
        obtain ⟨f0, hf0, hst⟩ := own_file hr.opens hin' (hr.rustsec _ hin') hu
        have hload : loadText L.adv sev u = .ok (toAdvisory sev f0) := by unfold loadText; rw [hf0]
        have hid : b.metadata.id = (toAdvisory sev f0).metadata.id :=
          (congrArg (fun x : Advisory => x.metadata.id) hst :)
        have := load_unique hr.opens ht hu hdot (hdotf _ hin') hc hload hid hph
        exact hnone _ hin' this i h
    · have hE'' : loadText L.adv sev t'' = .ok (toAdvisory sev f') := by unfold loadText; rw [hE'.parses]
      rw [hE''] at hc'
      have := Outcome.ok.inj hc'
      subst this
      have hfid : a.metadata.id = (toAdvisory sev f).metadata.id :=
        (congrArg (fun x : Advisory => x.metadata.id) hst :)
      have hfpk : a.metadata.package = (toAdvisory sev f).metadata.package :=
        (congrArg (fun x : Advisory => x.metadata.package) hst :)
      have hfal : a.metadata.aliases = f.metadata.aliases :=
        congrArg (fun x : Advisory => x.metadata.aliases) hst
      obtain ⟨h1, h2, -⟩ := toAdvisory_same (sev := sev) hs
      refine ⟨a, ha, ?_, ?_, ?_⟩
      · rw [hfid]; exact h1
      · rw [hfpk]; exact h2
      · intro i
        rw [hfal]
        exact hal i
  have hfwd : ∀ a ∈ db.iter, ∃ a' ∈ db'.iter, a'.metadata.id = a.metadata.id := by
    intro a ha
    obtain ⟨c, dir, fl, b, hloc, hw, rfl, hph⟩ := C18_loaded_well_placed _ db hr.opens a ha
    obtain ⟨t, ht, hcont⟩ := mem_of_located hloc
    obtain ⟨-, -, -, -, -, hdot⟩ := hloc
    obtain ⟨t', ht', hcase⟩ := hfiles _ t ht
    obtain ⟨b', hw', hin'⟩ := C18_every_file_loaded _ db' ho' _ _ _
      (located_of_mem (L := L.adv) (sev := sev) ht' hdot)
    have hc := hw.1
    rw [hcont] at hc
    have hc' := hw'.1
    simp only at hc'
    have hid : b'.metadata.id = b.metadata.id := by
      rcases hcase with ⟨rfl, -⟩ | ⟨a2, f, f', -, -, -, hE, -, hE', hs, -⟩
      · rw [hc] at hc'
        rw [Outcome.ok.inj hc']
      · unfold loadText at hc hc'
        rw [hE.parses] at hc
        rw [hE'.parses] at hc'
        rw [← Outcome.ok.inj hc, ← Outcome.ok.inj hc']
        exact (toAdvisory_same (sev := sev) hs).1
    exact ⟨_, hin' (by rw [hid]; exact hph), hid⟩
  have hready : SyncReady L sev s.disk db' := by
    refine ⟨hpaths', ho', ?_, ?_⟩
    · intro a' ha'
      obtain ⟨a, ha, hid, -⟩ := hback a' ha'
      rw [hid]; exact hr.rustsec a ha
    · intro a' ha' t' ht'
      obtain ⟨a, ha, hid, hpk, -⟩ := hback a' ha'
      have hfo : fileOf a' = fileOf a := by unfold fileOf; rw [hid, hpk]
      rw [hfo] at ht'
      obtain ⟨t, ht, hfs⟩ := files_right (P := fun p i => ∃ a ∈ db.iter, p = fileOf a ∧ ToAdd osv a i) hinv.files ht'
      obtain ⟨f, hE⟩ := hr.editable a ha t ht
      by_cases hex : ∃ i, ∃ b ∈ db.iter, fileOf a = fileOf b ∧ ToAdd osv b i
      · obtain ⟨f', hE', -⟩ := hfs.changed f hE hex
        exact ⟨f', hE'⟩
      · rw [hfs.unchanged fun i h => hex ⟨i, h⟩]
        exact ⟨f, hE⟩
  -- nothing is left to add
  have hnone : ∀ a' ∈ db'.iter, ∀ i, ¬ ToAdd osv a' i := by
    rintro a' ha' i ⟨o, hom, hw, hlink, hn, h1, h2, h3, h4⟩
    obtain ⟨a, ha, hid, hpk, hal⟩ := hback a' ha'
    rw [hpk] at hn
    rw [hid] at h3
    rw [hal] at h4
    push Not at h4
    refine h4.2 ⟨o, hom, hw, ?_, hn, h1, h2, h3, h4.1⟩
    unfold LinkedTo at hlink
    rw [hid, hal] at hlink
    rcases hlink with h | h | h
    · exact .inl h
    · exact .inr h
    · exact hno o hom hw a ha hn h
  have hne' : db'.iter ≠ [] := by
    obtain ⟨a, ha⟩ := List.exists_mem_of_ne_nil _ hne
    obtain ⟨a', ha', -⟩ := hfwd a ha
    exact List.ne_nil_of_mem ha'
  obtain ⟨⟨s2, missing'⟩, h2⟩ := (C56_succeeds L law sev s.disk db' osv hready hp).mpr ⟨hne', by
      intro o hom hw url hu rest hre
      obtain ⟨h17, a, ha, hf⟩ := hgood o hom hw url hu rest hre
      obtain ⟨a', ha', hid⟩ := hfwd a ha
      exact ⟨h17, a', ha', by rw [hid]; exact hf⟩, by
      rintro a' ha' ⟨i, hadd⟩
      exact absurd hadd (hnone a' ha' i)⟩
  obtain ⟨hinv2, -⟩ := (sync_ok law hready hp).2 s2 missing' h2
  have hz : s2.updated = 0 := by
    rw [hinv2.zero]
    rintro p i ⟨a', ha', -, hadd⟩
    exact hnone a' ha' i hadd
  refine ⟨missing', ?_⟩
  rw [h2]
  have : s2 = { disk := s.disk, updated := 0 } := by
    have hd := hinv2.same hz
    obtain ⟨dk, n⟩ := s2
    simp only at hd hz
    rw [hd, hz]
  rw [this]

end Verif.Props
