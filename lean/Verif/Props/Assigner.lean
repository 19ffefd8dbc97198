import Verif.Props.AssignerIds

/-!
# ID assignment: fresh IDs (C51)
-/

namespace Verif.Props

open Verif.Adv Verif.Db Verif.Assign Verif.Spec

theorem draftYear_ok {L : AdvLib} {t : Str} {y : Nat} : draftYear L t = .ok y ↔ DraftDated L t y := by
  unfold draftYear DraftDated
  constructor
  · intro h
    obtain ⟨parts, h1, h⟩ := bindOk h
    obtain ⟨tb, h2, h⟩ := bindOk h
    obtain ⟨a, h3, h⟩ := bindOk h
    refine ⟨parts, tb, a, h1, ?_, h3, h⟩
    cases ht : L.toml parts.frontMatter with
    | none => rw [ht] at h2; cases h2
    | some x => rw [ht] at h2; cases h2; rfl
  · rintro ⟨parts, tb, a, h1, h2, h3, h4⟩
    rw [h1, Outcome.bind_ok, h2]
    show (AdvisoryFile.decode L tb >>= _) = _
    rw [h3]
    exact h4

theorem replaced_iff (t : Str) : replaced t = true ↔ HasPlaceholderLine t := by
  unfold replaced HasPlaceholderLine
  rw [List.any_eq_true]
  refine exists_congr fun l => and_congr_right fun _ => ?_
  unfold isPlaceholderLine placeholderLine
  exact decide_eq_true_iff

theorem isDraft_iff (s : Str) : Db.isDraft s = true ↔ "RUSTSEC-0000-0000.".toList <+: s := by
  unfold Db.isDraft
  rw [startsWith_iff]
  exact ⟨fun ⟨t, h⟩ => ⟨t, h.symm⟩, fun ⟨t, h⟩ => ⟨t, h.symm⟩⟩

theorem drafts_eq (d : Disk) :
    (d.collection .crates ++ d.collection .rust).filter (fun f => Db.isDraft f.1.file) = drafts d := by
  unfold drafts Disk.collection
  rw [List.filter_append, List.filter_filter, List.filter_filter]
  have key : ∀ f : Path × Str, Db.isDraft f.1.file = decide ("RUSTSEC-0000-0000.".toList <+: f.1.file) := by
    intro f
    rw [Bool.eq_iff_iff, isDraft_iff, decide_eq_true_iff]
  congr 1 <;>
  · apply List.filter_congr
    intro f _
    rw [key, Bool.and_comm]

theorem mem_collections {d : Disk} {f : Path × Str} :
    f ∈ d.collection .crates ++ d.collection .rust ↔ f ∈ d := by
  unfold Disk.collection
  rw [List.mem_append, List.mem_filter, List.mem_filter]
  cases hc : f.1.collection <;> simp

theorem mem_drafts {d : Disk} {f : Path × Str} :
    f ∈ drafts d ↔ f ∈ d ∧ "RUSTSEC-0000-0000.".toList <+: f.1.file := by
  rw [← drafts_eq, List.mem_filter, mem_collections, isDraft_iff]

/-! ### The database on disk -/

theorem located_of_mem {L : AdvLib} {sev : Cvss.Cvss → Severity} {d : Disk} {p : Path} {t : Str}
    (h : (p, t) ∈ d) (hdot : ¬ ['.'] <+: p.file) :
    Located (d.tree L sev) p.collection p.dir ⟨p.file, loadText L sev t⟩ := by
  refine ⟨d.entries L sev p.collection, [⟨p.file, loadText L sev t⟩], ?_, ?_, by simp, hdot⟩
  · cases p.collection <;> rfl
  · refine List.mem_map.mpr ⟨(p, t), ?_, rfl⟩
    exact List.mem_filter.mpr ⟨h, by simp⟩

theorem mem_of_located {L : AdvLib} {sev : Cvss.Cvss → Severity} {d : Disk} {c : Collection} {dir : Str}
    {f : Db.File} (h : Located (d.tree L sev) c dir f) :
    ∃ t, (⟨c, dir, f.name⟩, t) ∈ d ∧ f.content = loadText L sev t := by
  obtain ⟨listing, files, hl, hd, hf, -⟩ := h
  have : listing = d.entries L sev c := by
    cases c <;> exact (Option.some.inj hl).symm
  subst this
  obtain ⟨⟨p, t⟩, hm, e⟩ := List.mem_map.mp hd
  obtain ⟨hm', hc⟩ := List.mem_filter.mp hm
  simp only [DirEntry.dir.injEq] at e
  obtain ⟨e1, e2⟩ := e
  rw [← e2] at hf
  have := List.mem_singleton.mp hf
  subst this
  refine ⟨t, ?_, rfl⟩
  have hc' : p.collection = c := of_decide_eq_true hc
  subst e1 hc'
  exact hm'

theorem loaded_id_parsed {L : AdvLib} {sev : Cvss.Cvss → Severity} {d : Disk} {db : Database}
    (h : d.open L sev = .ok db) {a : Advisory} (ha : a ∈ db.iter) :
    (∃ s, Id.fromStr s = .ok a.metadata.id) ∧ a.metadata.id.string ≠ placeholder := by
  obtain ⟨c, dir, f, a0, hl, hw, rfl, hne⟩ := C18_loaded_well_placed _ db h a ha
  refine ⟨?_, hne⟩
  obtain ⟨t, -, hc⟩ := mem_of_located hl
  have := hw.1
  rw [hc] at this
  unfold loadText at this
  cases hf : AdvisoryFile.fromStr L t with
  | err => rw [hf] at this; cases this
  | panic => rw [hf] at this; cases this
  | ok af =>
    rw [hf] at this
    have := Outcome.ok.inj this
    obtain ⟨parts, tb, a1, h1, h2, h3, -, -, rfl⟩ := fromStr_ok hf
    obtain ⟨m, -, hm⟩ := (docFacts h3).metadata
    obtain ⟨s, -, hs⟩ := hm.id
    refine ⟨s, ?_⟩
    rw [hs, ← this]
    rfl

theorem rustSec_number {s : Str} {i : Id} (h : Id.fromStr s = .ok i) (hk : i.kind = .rustSec)
    (hn : i.string ≠ placeholder) : ∃ y n, i.year = some y ∧ i.numericalPart = some n := by
  have hs : i.string = s := (C19_parsed_contents s i h).1
  rw [hs] at hn
  rcases fromStr_cases s with ⟨e, _⟩ | ⟨_, k, Y, N, hy, e⟩ | ⟨_, _, e, hkk⟩ | ⟨_, _, _, e⟩
  · exact absurd e hn
  · have := (C19_parsed_contents s i h).2.1 hn k Y N hy
    exact ⟨Y, N, this.2.1, this.2.2⟩
  · rw [h] at e
    cases e
    rcases hkk with e | e <;> · rw [e] at hk; cases hk
  · rw [h] at e; cases e

theorem assignIds_eq {L : AdvLib} {sev : Cvss.Cvss → Severity} {d : Disk} {db : Database}
    (h : d.open L sev = .ok db) :
    (assignIds L sev d).effects = [] ∧ (∀ as, (assignIds L sev d).result ≠ .ok as) ∨
    ∃ hi, Highest.collect [] db.iter = .ok hi ∧ db.iter ≠ [] ∧
      (assignIds L sev d).effects = (assignFiles L hi (d.collection .crates ++ d.collection .rust)).effects ∧
      (∀ as, (assignIds L sev d).result = .ok as ↔
        ∃ h', (assignFiles L hi (d.collection .crates ++ d.collection .rust)).result = .ok (h', as)) := by
  unfold assignIds
  rw [h]
  simp only
  by_cases he : db.iter.isEmpty = true
  · rw [if_pos he]; exact .inl ⟨rfl, by simp⟩
  · rw [if_neg he]
    cases hc : Highest.collect [] db.iter with
    | err => exact .inl ⟨rfl, by simp⟩
    | panic => exact .inl ⟨rfl, by simp⟩
    | ok hi =>
      refine .inr ⟨hi, rfl, fun e => he (by rw [e]; rfl), ?_⟩
      simp only
      rcases assignFiles L hi (d.collection .crates ++ d.collection .rust) with ⟨es, r | _ | _⟩
      · exact ⟨rfl, fun as => ⟨fun e => ⟨r.1, by cases e; rfl⟩, fun ⟨_, e⟩ => by cases e; rfl⟩⟩
      · exact ⟨rfl, fun as => ⟨fun e => (by cases e), fun ⟨_, e⟩ => (by cases e)⟩⟩
      · exact ⟨rfl, fun as => ⟨fun e => (by cases e), fun ⟨_, e⟩ => (by cases e)⟩⟩

/-- The core of freshness: a created file does not have the ID of a loaded advisory. -/
theorem fresh_core {L : AdvLib} {sev : Cvss.Cvss → Severity} {d : Disk} {db : Database}
    (ho : d.open L sev = .ok db) (hy : YearsAgree db) {hi : Highest}
    (hc : Highest.collect [] db.iter = .ok hi) {y n : Nat} (hn : top hi y < n) {a : Advisory}
    (ha : a ∈ db.iter) :
    a.metadata.id.string ≠ newId y n ∧
      ¬ (a.metadata.id.kind = .rustSec ∧ a.metadata.id.year = some y ∧
        a.metadata.id.numericalPart = some n) := by
  have h2 : ¬ (a.metadata.id.kind = .rustSec ∧ a.metadata.id.year = some y ∧
      a.metadata.id.numericalPart = some n) := by
    rintro ⟨hk, hyr, hnum⟩
    obtain ⟨y', hy', hle⟩ := (collect_ok _ hc).2.1 a ha
    have e := hy a ha hk y y' hyr hy'
    subst e
    obtain ⟨m, hm, hle⟩ := hle hk
    rw [hnum] at hm
    cases hm
    omega
  refine ⟨fun e => h2 ?_, h2⟩
  obtain ⟨⟨s, hs⟩, -⟩ := loaded_id_parsed ho ha
  exact parsed_newId hs e

theorem fresh_path {L : AdvLib} {sev : Cvss.Cvss → Severity} {d : Disk} {db : Database}
    (ho : d.open L sev = .ok db) (hy : YearsAgree db) {hi : Highest}
    (hc : Highest.collect [] db.iter = .ok hi) {y n : Nat} (hn : top hi y < n) (p : Path) (t : Str) :
    (target p y n, t) ∉ d := by
  intro hm
  obtain ⟨a, hw, hst⟩ := C18_every_file_loaded _ db ho _ _ _
    (located_of_mem (L := L) (sev := sev) hm (newId_not_dot y n _))
  rcases hw.2.2.2 with e | ⟨e, -⟩
  · have e' : a.metadata.id.string = newId y n := (List.append_cancel_right e).symm
    have := hst (by rw [e']; exact newId_ne_placeholder y n)
    exact (fresh_core ho hy hc hn this).1 e'
  · exact newId_not_draft y n _ e

theorem read_none_iff (d : Disk) (p : Path) : d.read p = none ↔ ∀ t, (p, t) ∉ d := by
  unfold Disk.read
  induction d with
  | nil => simp
  | cons f d ih =>
    obtain ⟨q, u⟩ := f
    rw [List.lookup_cons]
    by_cases e : p = q
    · subst e; simp only [beq_self_eq_true, reduceCtorEq, List.mem_cons, not_or, false_iff]
      intro h; exact (h u).1 rfl
    · have : (p == q) = false := by simpa using e
      rw [this]
      simp only [ih, List.mem_cons, not_or, Prod.mk.injEq, e, false_and, not_false_eq_true, true_and]

/-- **C51 (fresh).**  If every RUSTSEC advisory has the year of its date in its ID, then the files that
`assign-id` creates have pairwise different names `RUSTSEC-<year>-<number>.md`; no advisory of the database has
such an ID, neither as text nor as year and number; and no such file existed. -/
theorem C51_fresh (L : AdvLib) (sev : Cvss.Cvss → Severity) (d : Disk) (db : Database)
    (ho : d.open L sev = .ok db) (hy : YearsAgree db) :
    ((created (assignIds L sev d).effects).map Path.file).Nodup ∧
    ∀ q ∈ created (assignIds L sev d).effects, ∃ id y n, q.file = id ++ ".md".toList ∧ RustSecId id y n ∧
      d.read q = none ∧
      ∀ a ∈ db.iter, a.metadata.id.string ≠ id ∧
        ¬ (a.metadata.id.kind = .rustSec ∧ a.metadata.id.year = some y ∧
          a.metadata.id.numericalPart = some n) := by
  rcases assignIds_eq ho with ⟨h, -⟩ | ⟨hi, hc, -, he, -⟩
  · rw [h]; exact ⟨List.nodup_nil, fun q hq => by cases hq⟩
  · rw [he]
    refine ⟨created_nodup _ _, fun q hq => ?_⟩
    obtain ⟨f, -, y, n, -, -, rfl, hn⟩ := created_above _ _ q hq
    exact ⟨newId y n, y, n, rfl, newId_shape y n,
      (read_none_iff _ _).mpr (fresh_path ho hy hc hn f.1), fun a ha => fresh_core ho hy hc hn ha⟩

/-! ### Every draft gets an ID -/

theorem forall2_left {α β : Type} {R : α → β → Prop} {l : List α} {m : List β} (h : List.Forall₂ R l m) {a : α}
    (ha : a ∈ l) : ∃ b ∈ m, R a b := by
  induction h with
  | nil => cases ha
  | cons hr _ ih =>
    rcases List.mem_cons.mp ha with rfl | ha
    · exact ⟨_, List.mem_cons_self, hr⟩
    · obtain ⟨b, hb, hr⟩ := ih ha
      exact ⟨b, List.mem_cons_of_mem _ hb, hr⟩

theorem assigned_all {L : AdvLib} (h : Highest) (fs : Disk) :
    ∀ h' as, (assignFiles L h fs).result = .ok (h', as) →
    List.Forall₂ (fun (f : Path × Str) (q : Path) => q.collection = f.1.collection ∧ q.dir = f.1.dir ∧
        (∃ y n, DraftDated L f.2 y ∧ q.file = newId y n ++ ".md".toList) ∧ HasPlaceholderLine f.2)
      (fs.filter fun f => Db.isDraft f.1.file) (created (assignFiles L h fs).effects) ∧
    List.Forall₂ (fun (a : Assignment) (q : Path) => q.file = a.id ++ ".md".toList ∧ q.dir = a.dir) as
      (created (assignFiles L h fs).effects) := by
  refine assignFiles_rec (L := L) (P := fun h fs es r => ∀ h' as, r = .ok (h', as) →
    List.Forall₂ (fun (f : Path × Str) (q : Path) => q.collection = f.1.collection ∧ q.dir = f.1.dir ∧
        (∃ y n, DraftDated L f.2 y ∧ q.file = newId y n ++ ".md".toList) ∧ HasPlaceholderLine f.2)
      (fs.filter fun f => Db.isDraft f.1.file) (created es) ∧
    List.Forall₂ (fun (a : Assignment) (q : Path) => q.file = a.id ++ ".md".toList ∧ q.dir = a.dir) as
      (created es)) ?_ ?_ ?_ ?_ ?_ ?_ h fs
  · intro h h' as e; cases e; exact ⟨.nil, .nil⟩
  · intro h p t fs es r hd ih h' as e
    rw [List.filter_cons_of_neg (by rw [hd]; simp)]
    exact ih h' as e
  · intro h p t fs _ _ h' as e; cases e
  · intro h p t fs _ _ h' as e; cases e
  · intro h p t fs y _ _ _ h' as e; cases e
  · intro h p t fs y es r hd hy hr ih h' as e
    rw [created_step, List.filter_cons_of_pos (by rw [hd])]
    rcases r with ⟨h1, as1⟩ | _ | _
    · obtain ⟨i1, i2⟩ := ih h1 as1 rfl
      cases e
      exact ⟨.cons ⟨rfl, rfl, ⟨y, _, draftYear_ok.mp hy, rfl⟩, (replaced_iff t).mp hr⟩ i1,
        .cons ⟨rfl, rfl⟩ i2⟩
    · cases e
    · cases e

/-- **C51 (complete).**  If `assign-id` succeeds, then the created files are, in order, one for each draft, in
the directory of the draft, with an ID of the year of the draft's date; and the reported assignments are
those IDs and directories. -/
theorem C51_each_draft (L : AdvLib) (sev : Cvss.Cvss → Severity) (d : Disk) (as : List Assignment)
    (h : (assignIds L sev d).result = .ok as) :
    List.Forall₂ (fun (f : Path × Str) (q : Path) => q.collection = f.1.collection ∧ q.dir = f.1.dir ∧
        ∃ id y n, DraftDated L f.2 y ∧ RustSecId id y n ∧ q.file = id ++ ".md".toList)
      (drafts d) (created (assignIds L sev d).effects) ∧
    List.Forall₂ (fun (a : Assignment) (q : Path) => q.file = a.id ++ ".md".toList ∧ q.dir = a.dir) as
      (created (assignIds L sev d).effects) := by
  cases ho : d.open L sev with
  | err => rw [assignIds, ho] at h; cases h
  | panic => rw [assignIds, ho] at h; cases h
  | ok db =>
    rcases assignIds_eq ho with ⟨-, hne⟩ | ⟨hi, hc, -, he, hr⟩
    · exact absurd h (hne as)
    · obtain ⟨h', e⟩ := (hr as).mp h
      obtain ⟨h1, h2⟩ := assigned_all hi _ h' as e
      rw [he, ← drafts_eq]
      refine ⟨h1.imp fun f q hq => ?_, h2⟩
      obtain ⟨a, b, ⟨y, n, c, e⟩, -⟩ := hq
      exact ⟨a, b, newId y n, y, n, c, newId_shape y n, e⟩

theorem collect_total (as : List Advisory) (h : ∀ a ∈ as, (∃ y, a.metadata.date.year = .ok y) ∧
    (a.metadata.id.kind = .rustSec → ∃ n, a.metadata.id.numericalPart = some n)) :
    ∀ hi, ∃ h', Highest.collect hi as = .ok h' := by
  induction as with
  | nil => intro hi; exact ⟨hi, rfl⟩
  | cons a as ih =>
    intro hi
    have : ∃ h1, hi.note a = .ok h1 := by
      obtain ⟨⟨y, hy⟩, hn⟩ := h a (by simp)
      unfold Highest.note
      rw [hy]
      simp only
      split
      · rename_i hk
        obtain ⟨n, hn⟩ := hn hk
        rw [hn]
        simp only
        split
        · split <;> exact ⟨_, rfl⟩
        · exact ⟨_, rfl⟩
      · exact ⟨_, rfl⟩
    obtain ⟨h1, e⟩ := this
    rw [Highest.collect, e]
    exact ih (fun b hb => h b (List.mem_cons_of_mem _ hb)) h1

theorem assigned_iff {L : AdvLib} (h : Highest) (fs : Disk) :
    (∀ f ∈ fs, Db.isDraft f.1.file = true → (∃ y, DraftDated L f.2 y) ∧ HasPlaceholderLine f.2) →
    ∃ r, (assignFiles L h fs).result = .ok r := by
  refine assignFiles_rec (L := L) (P := fun h fs es r =>
    (∀ f ∈ fs, Db.isDraft f.1.file = true → (∃ y, DraftDated L f.2 y) ∧ HasPlaceholderLine f.2) →
    ∃ x, r = .ok x) ?_ ?_ ?_ ?_ ?_ ?_ h fs
  · intro h _; exact ⟨_, rfl⟩
  · intro h p t fs es r _ ih hf
    exact ih fun f hm => hf f (List.mem_cons_of_mem _ hm)
  · intro h p t fs hd he hf
    obtain ⟨⟨y, hy⟩, -⟩ := hf (p, t) (by simp) hd
    have := draftYear_ok.mpr hy
    rw [he] at this; cases this
  · intro h p t fs hd he hf
    obtain ⟨⟨y, hy⟩, -⟩ := hf (p, t) (by simp) hd
    have := draftYear_ok.mpr hy
    rw [he] at this; cases this
  · intro h p t fs y hd he hr hf
    obtain ⟨-, hl⟩ := hf (p, t) (by simp) hd
    have := (replaced_iff t).mpr hl
    simp only [hr] at this; cases this
  · intro h p t fs y es r hd he hr ih hf
    obtain ⟨⟨h1, as⟩, e⟩ := ih fun f hm => hf f (List.mem_cons_of_mem _ hm)
    exact ⟨(h1, _), by rw [e]; rfl⟩

/-- **C51 (success).**  `assign-id` succeeds if and only if the database opens and is not empty, all dates are
readable, and every draft is in order and has a placeholder line. -/
theorem C51_succeeds (L : AdvLib) (sev : Cvss.Cvss → Severity) (d : Disk) :
    (∃ as, (assignIds L sev d).result = .ok as) ↔
      ∃ db, d.open L sev = .ok db ∧ db.iter ≠ [] ∧ (∀ a ∈ db.iter, ∃ y, a.metadata.date.year = .ok y) ∧
        ∀ f ∈ drafts d, (∃ y, DraftDated L f.2 y) ∧ HasPlaceholderLine f.2 := by
  constructor
  · rintro ⟨as, h⟩
    cases ho : d.open L sev with
    | err => rw [assignIds, ho] at h; cases h
    | panic => rw [assignIds, ho] at h; cases h
    | ok db =>
      rcases assignIds_eq ho with ⟨-, hne⟩ | ⟨hi, hc, hn, he, hr⟩
      · exact absurd h (hne as)
      · refine ⟨db, rfl, hn, fun a ha => ?_, fun f hf => ?_⟩
        · obtain ⟨y, hy, -⟩ := (collect_ok _ hc).2.1 a ha
          exact ⟨y, hy⟩
        · obtain ⟨h', e⟩ := (hr as).mp h
          obtain ⟨h1, -⟩ := assigned_all hi _ h' as e
          rw [drafts_eq] at h1
          obtain ⟨q, -, -, -, ⟨y, n, hy, -⟩, hl⟩ := forall2_left h1 hf
          exact ⟨⟨y, hy⟩, hl⟩
  · rintro ⟨db, ho, hn, hd, hf⟩
    obtain ⟨hi, hc⟩ := collect_total db.iter (fun a ha => ⟨hd a ha, fun hk => by
      obtain ⟨⟨s, hs⟩, hne⟩ := loaded_id_parsed ho ha
      obtain ⟨y, n, -, h⟩ := rustSec_number hs hk hne
      exact ⟨n, h⟩⟩) []
    obtain ⟨⟨h', as⟩, e⟩ := assigned_iff (L := L) hi (d.collection .crates ++ d.collection .rust) (by
      intro f hm hdr
      apply hf
      rw [← drafts_eq]
      exact List.mem_filter.mpr ⟨hm, hdr⟩)
    refine ⟨as, ?_⟩
    unfold assignIds
    rw [ho]
    simp only
    rw [if_neg (by simpa using hn), hc]
    simp only
    rcases hr : assignFiles L hi (d.collection .crates ++ d.collection .rust) with ⟨es, r | _ | _⟩
    · rw [hr] at e; cases e; rfl
    · rw [hr] at e; cases e
    · rw [hr] at e; cases e

/-! ### Numbers are consecutive -/

theorem consecutive {L : AdvLib} (h : Highest) (fs : Disk) :
    ∀ pre q post, created (assignFiles L h fs).effects = pre ++ q :: post →
    ∃ y n, q.file = newId y (n + 1) ++ ".md".toList ∧
      (n = top h y ∨ ∃ q' ∈ pre, q'.file = newId y n ++ ".md".toList) := by
  refine assignFiles_rec (L := L) (P := fun h fs es r => ∀ pre q post, created es = pre ++ q :: post →
    ∃ y n, q.file = newId y (n + 1) ++ ".md".toList ∧
      (n = top h y ∨ ∃ q' ∈ pre, q'.file = newId y n ++ ".md".toList)) ?_ ?_ ?_ ?_ ?_ ?_ h fs
  · intro h pre q post e; simp [created] at e
  · intro h p t fs es r _ ih; exact ih
  · intro h p t fs _ _ pre q post e; simp [created] at e
  · intro h p t fs _ _ pre q post e; simp [created] at e
  · intro h p t fs y _ _ _ pre q post e
    rw [created_writes] at e
    cases pre with
    | nil => cases e; exact ⟨y, top h y, rfl, .inl rfl⟩
    | cons a pre => simp at e
  · intro h p t fs y es r _ _ _ ih pre q post e
    rw [created_step] at e
    cases pre with
    | nil => cases e; exact ⟨y, top h y, rfl, .inl rfl⟩
    | cons a pre =>
      simp only [List.cons_append, List.cons.injEq] at e
      obtain ⟨rfl, e⟩ := e
      obtain ⟨y', n', h1, h2⟩ := ih pre q post e
      refine ⟨y', n', h1, ?_⟩
      rcases h2 with h2 | ⟨q', hq, h2⟩
      · rw [top_set] at h2
        split at h2
        · rename_i e
          right
          exact ⟨target p y (top h y + 1), List.mem_cons_self, by rw [h2, e]; rfl⟩
        · exact .inl h2
      · exact .inr ⟨q', List.mem_cons_of_mem _ hq, h2⟩

/-- **C51 (consecutive).**  A number is 1, or the number before it belongs to an advisory dated in the same
year or was given to an earlier draft. -/
theorem C51_consecutive (L : AdvLib) (sev : Cvss.Cvss → Severity) (d : Disk) (db : Database)
    (ho : d.open L sev = .ok db) (pre post : List Path) (q : Path)
    (h : created (assignIds L sev d).effects = pre ++ q :: post) :
    ∃ id y n, q.file = id ++ ".md".toList ∧ RustSecId id y (n + 1) ∧
      (n = 0 ∨
       (∃ a ∈ db.iter, a.metadata.id.kind = .rustSec ∧ a.metadata.date.year = .ok y ∧
          a.metadata.id.numericalPart = some n) ∨
       ∃ q' ∈ pre, ∃ id', q'.file = id' ++ ".md".toList ∧ RustSecId id' y n) := by
  rcases assignIds_eq ho with ⟨e, -⟩ | ⟨hi, hc, -, he, -⟩
  · rw [e] at h; simp [created] at h
  · rw [he] at h
    obtain ⟨y, n, h1, h2⟩ := consecutive hi _ pre q post h
    refine ⟨_, y, n, h1, newId_shape y (n + 1), ?_⟩
    rcases h2 with h2 | ⟨q', hq, h2⟩
    · by_cases h0 : n = 0
      · exact .inl h0
      · right; left
        have : top hi y ≠ top [] y := by
          show top hi y ≠ 0
          omega
        obtain ⟨a, ha, h3, h4, h5⟩ := (collect_ok _ hc).2.2 y this
        exact ⟨a, ha, h4, h3, by rw [h2]; exact h5⟩
    · exact .inr (.inr ⟨q', hq, _, h2, newId_shape y n⟩)

end Verif.Props
