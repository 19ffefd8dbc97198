import Verif.Props.SyncText
import Verif.Props.Assigner
import Verif.Props.AssignerCrash
import Mathlib.Data.List.Forall2

/-!
# C56: the run of `sync`
-/

namespace Verif.Props

open Verif.Adv Verif.Db Verif.Assign Verif.Sync Verif.Spec Verif.Lock

/-! ### The file of an advisory -/

theorem rustSec_text {i : Id} (h : Id.fromStr i.string = .ok i) (hk : i.kind = .rustSec)
    (hn : i.string ≠ placeholder) : ∃ Y N, IsYearId i.string .rustSec Y N := by
  rcases fromStr_cases i.string with ⟨e, _⟩ | ⟨_, k, Y, N, hy, e⟩ | ⟨_, _, e, hkk⟩ | ⟨_, _, _, e⟩
  · exact absurd e hn
  · have := (C19_parsed_contents _ i h).2.1 hn k Y N hy
    rw [hk] at this
    exact ⟨Y, N, this.1 ▸ hy⟩
  · rw [h] at e
    have e2 : i.kind = IdKind.detect i.string := congrArg Id.kind (Outcome.ok.inj e)
    rw [← e2, hk] at hkk
    rcases hkk with e | e <;> cases e
  · rw [h] at e; cases e

theorem rustSec_not_dot {s : Str} {Y N : Nat} (h : IsYearId s .rustSec Y N) (t : Str) : ¬ ['.'] <+: s ++ t := by
  obtain ⟨p, hp, y, m, rfl, -⟩ := h
  simp only [yearPrefixes, List.mem_cons, Prod.mk.injEq, List.not_mem_nil, or_false, reduceCtorEq, and_false,
    and_true] at hp
  subst hp
  rintro ⟨r, hr⟩
  simp at hr

theorem rustSec_not_draft {s : Str} {Y N : Nat} (h : IsYearId s .rustSec Y N) (t : Str) :
    ¬ "RUSTSEC-0000-0000.".toList <+: s ++ t := by
  obtain ⟨p, hp, y, m, rfl, hy, h2000, -⟩ := h
  simp only [yearPrefixes, List.mem_cons, Prod.mk.injEq, List.not_mem_nil, or_false, reduceCtorEq, and_false,
    and_true] at hp
  subst hp
  rintro ⟨r, hr⟩
  have hdash := isU32Text_no_dash hy
  have e : "0000".toList ++ '-' :: ("0000.".toList ++ r) = y ++ '-' :: (m ++ t) := by
    have : "RUSTSEC-".toList ++ ("0000".toList ++ '-' :: ("0000.".toList ++ r)) =
        "RUSTSEC-".toList ++ (y ++ '-' :: (m ++ t)) := by
      rw [show "RUSTSEC-".toList ++ ("0000".toList ++ '-' :: ("0000.".toList ++ r)) =
        "RUSTSEC-0000-0000.".toList ++ r from rfl, hr]
      simp only [List.append_assoc, List.cons_append]
    exact List.append_cancel_left this
  have e1 := splitC_append (c := '-') (s := "0000".toList) (by decide) ("0000.".toList ++ r)
  rw [e, splitC_append hdash] at e1
  have hy0 : y = "0000".toList := (List.cons.inj e1).1
  subst hy0
  obtain ⟨ds, hds, -, -, hn, -⟩ := hy
  rcases hds with rfl | hds
  · have : Y = 0 := hn
    omega
  · cases hds

/-- If the file of an advisory is there, it is the file that the advisory was loaded from. -/
theorem own_file {L : AdvLib} {sev : Cvss.Cvss → Severity} {d : Disk} {db : Database}
    (ho : d.open L sev = .ok db) {a : Advisory} (ha : a ∈ db.iter) (hk : a.metadata.id.kind = .rustSec)
    {t : Str} (ht : (fileOf a, t) ∈ d) :
    ∃ f, AdvisoryFile.fromStr L t = .ok f ∧ a = stored .crates (toAdvisory sev f) := by
  obtain ⟨⟨s, hs⟩, hne⟩ := loaded_id_parsed ho ha
  have hstr : a.metadata.id.string = s := (C19_parsed_contents s _ hs).1
  rw [← hstr] at hs
  obtain ⟨Y, N, hy⟩ := rustSec_text hs hk hne
  have hloc := located_of_mem (L := L) (sev := sev) ht (rustSec_not_dot hy _)
  obtain ⟨a1, hw, hin⟩ := C18_every_file_loaded _ db ho _ _ _ hloc
  obtain ⟨hc, hdir, -, hname⟩ := hw
  have hid : a1.metadata.id.string = a.metadata.id.string := by
    rcases hname with h | h
    · exact (List.append_cancel_right h).symm
    · exact absurd h.1 (rustSec_not_draft hy _)
  have hmem := hin (by rw [hid]; exact hne)
  obtain ⟨⟨s1, hs1⟩, -⟩ := loaded_id_parsed ho hmem
  have e1 : (stored Collection.crates a1).metadata.id = a.metadata.id := by
    have h3 : (stored Collection.crates a1).metadata.id.string = s1 := (C19_parsed_contents s1 _ hs1).1
    rw [← h3, show (stored Collection.crates a1).metadata.id.string = a.metadata.id.string from hid, hs] at hs1
    exact (Outcome.ok.inj hs1).symm
  have e2 : stored .crates a1 = a := by
    have h1 := (C10_get_iff _ db ho _ _).mpr ⟨hmem, e1⟩
    have h2 := (C10_get_iff _ db ho _ _).mpr ⟨ha, rfl⟩
    rw [h1] at h2
    exact Option.some.inj h2
  simp only [loadText] at hc
  cases hf : AdvisoryFile.fromStr L t with
  | err => rw [hf] at hc; cases hc
  | panic => rw [hf] at hc; cases hc
  | ok f =>
    rw [hf] at hc
    have := Outcome.ok.inj hc
    exact ⟨f, rfl, by rw [this, e2]⟩

/-! ### What happened to a file -/

/-- The text `t` became `t'` by adding the aliases in `P`. -/
structure FileState (L : AdvLib) (t t' : Str) (P : Id → Prop) : Prop where
  unchanged : (∀ i, ¬ P i) → t' = t
  changed : ∀ f, EditableFile L t f → (∃ i, P i) → ∃ f', EditableFile L t' f' ∧ SameButAliases f f' ∧
    SortedIds f'.metadata.aliases ∧ SortedIds f'.metadata.related ∧
    (∀ i, i ∈ f'.metadata.aliases ↔ i ∈ f.metadata.aliases ∨ P i) ∧
    (∃ p p', Parts.parse t = .ok p ∧ Parts.parse t' = .ok p' ∧ p'.markdown = p.markdown)

theorem FileState.step {L : SyncLib} (law : EditLaw L) {t t1 : Str} {P : Id → Prop}
    (h : FileState L.adv t t1 P) {f : AdvisoryFile} (hE : EditableFile L.adv t f) {m : List Id}
    (hm : ∀ i ∈ m, PlainId i) (hne : m ≠ []) :
    ∃ t2, updateText L t1 m = .ok t2 ∧ FileState L.adv t t2 (fun i => P i ∨ i ∈ m) := by
  have hex : ∃ i, i ∈ m := List.exists_mem_of_ne_nil m hne
  by_cases hP : ∃ i, P i
  · obtain ⟨f1, hE1, hs1, -, -, hm1, p, p1, hp, hp1, hmd1⟩ := h.changed f hE hP
    obtain ⟨t2, f2, hu, hE2, hs2, ha2, hr2, hm2, p1', p2, hp1', hp2, hmd2⟩ := updateText_ok law hE1 hm
    rw [hp1] at hp1'; cases hp1'
    refine ⟨t2, hu, ⟨fun hno => ?_, fun f0 hE0 _ => ?_⟩⟩
    · obtain ⟨i, hi⟩ := hex
      exact absurd (Or.inr hi) (hno i)
    · have : f0 = f := by
        have := hE0.parses
        rw [hE.parses] at this
        exact (Outcome.ok.inj this).symm
      subst this
      refine ⟨f2, hE2, ⟨?_, ?_⟩, ha2, hr2, ?_, p, p2, hp, hp2, by rw [hmd2, hmd1]⟩
      · rw [hs2.same, hs1.same]
      · intro i; rw [hs2.related, hs1.related]
      · intro i; rw [hm2, hm1, or_assoc]
  · push Not at hP
    have e := h.unchanged hP
    subst e
    obtain ⟨t2, f2, hu, hE2, hs2, ha2, hr2, hm2, hmd⟩ := updateText_ok law hE hm
    refine ⟨t2, hu, ⟨fun hno => ?_, fun f0 hE0 _ => ?_⟩⟩
    · obtain ⟨i, hi⟩ := hex
      exact absurd (Or.inr hi) (hno i)
    · have : f0 = f := by
        have := hE0.parses
        rw [hE.parses] at this
        exact (Outcome.ok.inj this).symm
      subst this
      refine ⟨f2, hE2, hs2, ha2, hr2, ?_, hmd⟩
      intro i; rw [hm2]; simp [hP i]

/-- The invariant of the run: every file is as it was, with the aliases in `P` added. -/
structure SyncInv (L : AdvLib) (d : Disk) (s : SyncState) (P : Path → Id → Prop) : Prop where
  files : List.Forall₂ (fun x y => y.1 = x.1 ∧ FileState L x.2 y.2 (P x.1)) d s.disk
  zero : s.updated = 0 ↔ ∀ p i, ¬ P p i
  same : s.updated = 0 → s.disk = d

theorem SyncInv.congr {L : AdvLib} {d : Disk} {s : SyncState} {P Q : Path → Id → Prop} (h : SyncInv L d s P)
    (hpq : ∀ p i, P p i ↔ Q p i) : SyncInv L d s Q := by
  have : P = Q := funext fun p => funext fun i => propext (hpq p i)
  exact this ▸ h

theorem files_fst {L : AdvLib} {d d' : Disk} {P : Path → Id → Prop}
    (h : List.Forall₂ (fun x y => y.1 = x.1 ∧ FileState L x.2 y.2 (P x.1)) d d') :
    d'.map Prod.fst = d.map Prod.fst := by
  induction h with
  | nil => rfl
  | cons hx _ ih => simp [hx.1, ih]

theorem files_right {L : AdvLib} {d d' : Disk} {P : Path → Id → Prop}
    (h : List.Forall₂ (fun x y => y.1 = x.1 ∧ FileState L x.2 y.2 (P x.1)) d d') {p : Path} {t' : Str}
    (hm : (p, t') ∈ d') : ∃ t, (p, t) ∈ d ∧ FileState L t t' (P p) := by
  induction h with
  | nil => cases hm
  | @cons x y _ _ hx _ ih =>
    rcases List.mem_cons.mp hm with e | hm
    · subst e
      obtain ⟨h1, h2⟩ := hx
      simp only at h1 h2
      subst h1
      exact ⟨x.2, List.mem_cons_self, h2⟩
    · obtain ⟨t, ht, hs⟩ := ih hm
      exact ⟨t, List.mem_cons_of_mem _ ht, hs⟩

theorem files_left {L : AdvLib} {d d' : Disk} {P : Path → Id → Prop}
    (h : List.Forall₂ (fun x y => y.1 = x.1 ∧ FileState L x.2 y.2 (P x.1)) d d') {p : Path} {t : Str}
    (hm : (p, t) ∈ d) : ∃ t', (p, t') ∈ d' ∧ FileState L t t' (P p) := by
  induction h with
  | nil => cases hm
  | @cons x y _ _ hx _ ih =>
    rcases List.mem_cons.mp hm with e | hm
    · subst e
      obtain ⟨h1, h2⟩ := hx
      simp only at h1 h2
      exact ⟨y.2, by rw [← h1]; exact List.mem_cons_self, h2⟩
    · obtain ⟨t, ht, hs⟩ := ih hm
      exact ⟨t, List.mem_cons_of_mem _ ht, hs⟩

/-- Writing one file. -/
theorem files_write {L : AdvLib} {d d' : Disk} {P : Path → Id → Prop} {q : Path} {t2 : Str} {m : List Id}
    (h : List.Forall₂ (fun x y => y.1 = x.1 ∧ FileState L x.2 y.2 (P x.1)) d d')
    (hq : ∀ t, (q, t) ∈ d → FileState L t t2 (fun i => P q i ∨ i ∈ m)) :
    List.Forall₂ (fun x y => y.1 = x.1 ∧ FileState L x.2 y.2 (fun i => P x.1 i ∨ (x.1 = q ∧ i ∈ m))) d
      (Sync.Disk.write d' q t2) := by
  unfold Sync.Disk.write Disk.modify
  induction h with
  | nil => exact .nil
  | @cons x y _ _ hx _ ih =>
    rw [List.map_cons]
    refine .cons ?_ (ih fun t ht => hq t (List.mem_cons_of_mem _ ht))
    by_cases e : y.1 = q
    · have e' : x.1 = q := by rw [← hx.1, e]
      rw [if_pos e]
      refine ⟨hx.1, ?_⟩
      have := hq x.2 (by rw [← e']; exact List.mem_cons_self)
      simpa [e'] using this
    · have e' : x.1 ≠ q := by rw [← hx.1]; exact e
      rw [if_neg e]
      refine ⟨hx.1, ?_⟩
      simpa [e'] using hx.2

/-! ### One update -/

theorem mem_missingAliases {a : Advisory} {o : OsvRecord} {i : Id} :
    i ∈ missingAliases a o ↔ (i = o.id ∨ i ∈ o.aliases) ∧ (i.kind = .cve ∨ i.kind = .ghsa) ∧
      i ≠ a.metadata.id ∧ i ∉ a.metadata.aliases := by
  unfold missingAliases
  rw [List.mem_filter]
  simp only [List.mem_append, List.mem_singleton, Bool.and_eq_true, Bool.or_eq_true, decide_eq_true_eq,
    Bool.not_eq_true', List.contains_iff_mem, ← Bool.not_eq_true]
  tauto

/-- One update. -/
theorem updateAdvisory_spec {L : SyncLib} {sev : Cvss.Cvss → Severity} {d : Disk} {db : Database}
    (law : EditLaw L) (hr : SyncReady L sev d db) {s : SyncState} {P : Path → Id → Prop}
    (hi : SyncInv L.adv d s P) {a : Advisory} (ha : a ∈ db.iter) {o : OsvRecord} (hp : PlainRecord o) :
    ((∃ s', updateAdvisory L a o s = .ok s') ↔ (missingAliases a o ≠ [] → ∃ t, (fileOf a, t) ∈ d)) ∧
    ∀ s', updateAdvisory L a o s = .ok s' →
      SyncInv L.adv d s' (fun p i => P p i ∨ (p = fileOf a ∧ i ∈ missingAliases a o)) := by
  unfold updateAdvisory
  simp only
  by_cases hm : missingAliases a o = []
  · rw [hm]
    simp only [List.isEmpty_nil, if_true]
    refine ⟨⟨fun _ h => absurd rfl h, fun _ => ⟨s, rfl⟩⟩, ?_⟩
    intro s' h
    cases h
    exact hi.congr (by simp)
  · have he : (missingAliases a o).isEmpty = false := by simpa using hm
    rw [he]
    have hpl : ∀ i ∈ missingAliases a o, PlainId i := by
      intro i h
      have := (mem_missingAliases.mp h).1
      exact hp i (by simp only [List.mem_append, List.mem_singleton]; tauto)
    have hpath : advisoryPath a = fileOf a := rfl
    rw [hpath]
    simp only [Bool.false_eq_true, if_false]
    have hnd : (s.disk.map Prod.fst).Nodup := by rw [files_fst hi.files]; exact hr.paths
    cases hread : s.disk.read (fileOf a) with
    | none =>
      refine ⟨⟨fun ⟨_, h⟩ => (by cases h), fun h => ?_⟩, fun _ h => (by cases h)⟩
      obtain ⟨t, ht⟩ := h hm
      obtain ⟨t', ht', -⟩ := files_left hi.files ht
      rw [read_of_mem ht' hnd] at hread
      cases hread
    | some t1 =>
      obtain ⟨t, ht, hfs⟩ := files_right hi.files (mem_of_read hread)
      obtain ⟨f, hf⟩ := hr.editable a ha t ht
      obtain ⟨t2, hu, hfs2⟩ := hfs.step law hf hpl hm
      simp only [hu]
      refine ⟨⟨fun _ _ => ⟨t, ht⟩, fun _ => ⟨_, rfl⟩⟩, ?_⟩
      intro s' h
      cases h
      refine ⟨files_write hi.files ?_, ?_, ?_⟩
      · intro t0 ht0
        have h1 := read_of_mem ht hr.paths
        have h2 := read_of_mem ht0 hr.paths
        rw [h1] at h2; cases h2
        exact hfs2
      · simp only [Nat.add_eq_zero_iff, Nat.one_ne_zero, and_false, false_iff]
        intro hno
        obtain ⟨i, hi'⟩ := List.exists_mem_of_ne_nil _ hm
        exact hno (fileOf a) i (.inr ⟨rfl, hi'⟩)
      · intro h0; simp at h0

/-! ### Links -/

theorem mem_crates {o : OsvRecord} {c : Str} : c ∈ o.crates ↔ NamesCrate o c := by
  unfold OsvRecord.crates NamesCrate
  rw [mem_sortDedup strCmp_eq_iff, List.mem_filterMap]
  constructor
  · rintro ⟨⟨e, n⟩, hm, h⟩
    simp only at h
    split at h
    · rename_i he
      cases h
      rw [← he]; exact hm
    · cases h
  · intro h
    exact ⟨_, h, if_pos rfl⟩

theorem url_split (url : Str) (h : rustsecUrl.isPrefixOf url = true) :
    ∃ rest, url = "https://rustsec.org/advisories/".toList ++ rest ∧
      (url.length < 48 ↔ ¬ 17 ≤ rest.length) ∧ (url.drop 31).take 17 = rest.take 17 := by
  obtain ⟨rest, hr⟩ := (isPrefixOf_iff _ _).mp h
  have gen : ∀ p : Str, p.length = 31 → ((p ++ rest).length < 48 ↔ ¬ 17 ≤ rest.length) ∧
      ((p ++ rest).drop 31).take 17 = rest.take 17 := by
    intro p hp
    refine ⟨by rw [List.length_append, hp]; omega, ?_⟩
    rw [← hp, List.drop_left]
  have hl : rustsecUrl.length = 31 := by decide
  rw [hr]
  exact ⟨rest, rfl, (gen _ hl).1, (gen _ hl).2⟩

theorem refId_iff {url rest : Str} (h : url = "https://rustsec.org/advisories/".toList ++ rest) (i : Id) :
    refId url = .ok i ↔ 17 ≤ rest.length ∧ Id.fromStr (rest.take 17) = .ok i := by
  obtain ⟨rest', hr, hlen, htake⟩ := url_split url ((isPrefixOf_iff _ _).mpr ⟨rest, h⟩)
  have e : rest' = rest := List.append_cancel_left (hr.symm.trans h)
  subst e
  unfold refId
  rw [htake]
  by_cases hl : url.length < 48
  · rw [if_pos hl]
    have := hlen.mp hl
    simp [this]
  · rw [if_neg hl]
    have h17 : 17 ≤ rest'.length := by
      by_contra h; exact hl (hlen.mpr h)
    cases hf : Id.fromStr (rest'.take 17) with
    | ok j => simp [h17]
    | err => simp
    | panic => simp

theorem mapList_total {α β : Type} {f : α → Outcome β} (l : List α) :
    (∃ r, Outcome.mapList f l = .ok r) ↔ ∀ x ∈ l, ∃ y, f x = .ok y := by
  induction l with
  | nil => simp [Outcome.mapList]
  | cons x l ih =>
    unfold Outcome.mapList
    cases hx : f x with
    | err => simp [hx]
    | panic => simp [hx]
    | ok y =>
      cases hl : Outcome.mapList f l with
      | ok ys =>
        rw [hl] at ih
        simp only [List.mem_cons, forall_eq_or_imp]
        exact ⟨fun _ => ⟨⟨y, hx⟩, ih.mp ⟨ys, rfl⟩⟩, fun _ => ⟨_, rfl⟩⟩
      | err =>
        rw [hl] at ih
        simp only [List.mem_cons, forall_eq_or_imp]
        exact ⟨fun ⟨_, h⟩ => (by cases h), fun h => by obtain ⟨_, h'⟩ := ih.mpr h.2; cases h'⟩
      | panic =>
        rw [hl] at ih
        simp only [List.mem_cons, forall_eq_or_imp]
        exact ⟨fun ⟨_, h⟩ => (by cases h), fun h => by obtain ⟨_, h'⟩ := ih.mpr h.2; cases h'⟩

theorem mem_mapList {α β : Type} {f : α → Outcome β} {l : List α} {r : List β}
    (h : Outcome.mapList f l = .ok r) (y : β) : y ∈ r ↔ ∃ x ∈ l, f x = .ok y := by
  induction l generalizing r with
  | nil => cases h; simp
  | cons x l ih =>
    unfold Outcome.mapList at h
    cases hx : f x with
    | err => rw [hx] at h; cases h
    | panic => rw [hx] at h; cases h
    | ok z =>
      rw [hx] at h
      cases hl : Outcome.mapList f l with
      | err => rw [hl] at h; cases h
      | panic => rw [hl] at h; cases h
      | ok zs =>
        rw [hl] at h
        cases h
        rw [List.mem_cons, ih hl]
        simp only [List.mem_cons, exists_eq_or_imp, hx, Outcome.ok.injEq]
        exact or_congr_left eq_comm

theorem rustsecRefs_spec (o : OsvRecord) :
    ((∃ r, o.rustsecRefs = .ok r) ↔ ∀ url ∈ o.references, ∀ rest,
      url = "https://rustsec.org/advisories/".toList ++ rest → ∃ i, refId url = .ok i) ∧
    ∀ r, o.rustsecRefs = .ok r → ∀ i, i ∈ r ↔ RefersTo o i := by
  unfold OsvRecord.rustsecRefs
  have htot := mapList_total (f := refId) (o.references.filter fun u => rustsecUrl.isPrefixOf u)
  have hmem : (∀ x ∈ o.references.filter (fun u => rustsecUrl.isPrefixOf u), ∃ y, refId x = .ok y) ↔
      ∀ url ∈ o.references, ∀ rest, url = "https://rustsec.org/advisories/".toList ++ rest →
        ∃ i, refId url = .ok i := by
    constructor
    · intro h url hu rest hr
      exact h url (List.mem_filter.mpr ⟨hu, (isPrefixOf_iff _ _).mpr ⟨rest, hr⟩⟩)
    · intro h url hu
      obtain ⟨hu, hp⟩ := List.mem_filter.mp hu
      obtain ⟨rest, hr⟩ := (isPrefixOf_iff _ _).mp hp
      exact h url hu rest hr
  rw [← hmem, ← htot]
  cases hl : Outcome.mapList refId (o.references.filter fun u => rustsecUrl.isPrefixOf u) with
  | err => simp
  | panic => simp
  | ok refs =>
    refine ⟨⟨fun _ => ⟨_, rfl⟩, fun _ => ⟨_, rfl⟩⟩, ?_⟩
    intro r h i
    have e : r = sortDedup idCmp refs := (Outcome.ok.inj h).symm
    rw [e, mem_sortDedup idCmp_eq_iff, mem_mapList hl]
    constructor
    · rintro ⟨url, hu, he⟩
      obtain ⟨hu, hp⟩ := List.mem_filter.mp hu
      obtain ⟨rest, hr⟩ := (isPrefixOf_iff _ _).mp hp
      exact ⟨url, hu, rest, hr, (refId_iff hr i).mp he⟩
    · rintro ⟨url, hu, rest, hr, he⟩
      exact ⟨url, List.mem_filter.mpr ⟨hu, (isPrefixOf_iff _ _).mpr ⟨rest, hr⟩⟩, (refId_iff hr i).mpr he⟩

theorem linked_spec (db : Database) (o : OsvRecord) :
    ((∃ ids, linked db o = .ok ids) ↔ ∃ r, o.rustsecRefs = .ok r) ∧
    ∀ ids, linked db o = .ok ids → ∀ i, i ∈ ids ↔
      RefersTo o i ∨ ∃ a ∈ db.iter, a.metadata.id = i ∧ o.id ∈ a.metadata.aliases := by
  unfold linked
  cases hr : o.rustsecRefs with
  | err => simp
  | panic => simp
  | ok refs =>
    refine ⟨⟨fun _ => ⟨_, rfl⟩, fun _ => ⟨_, rfl⟩⟩, ?_⟩
    intro ids h i
    have e := (Outcome.ok.inj h).symm
    rw [e, mem_sortDedup idCmp_eq_iff, List.mem_append, (rustsecRefs_spec o).2 refs hr]
    refine or_congr_right ?_
    rw [List.mem_map]
    constructor
    · rintro ⟨a, ha, he⟩
      obtain ⟨ha, hc⟩ := List.mem_filter.mp ha
      exact ⟨a, ha, he, List.contains_iff_mem.mp hc⟩
    · rintro ⟨a, ha, he, hc⟩
      exact ⟨a, List.mem_filter.mpr ⟨ha, List.contains_iff_mem.mpr hc⟩, he⟩

/-! ### The loops -/

section Loops

variable {L : SyncLib} {sev : Cvss.Cvss → Severity} {d : Disk} {db : Database}

/-- What one record adds through a list of linked IDs. -/
def addsVia (db : Database) (o : OsvRecord) (ids : List Id) (p : Path) (i : Id) : Prop :=
  ∃ id ∈ ids, ∃ a, db.get id = some a ∧ NamesCrate o a.metadata.package ∧ p = fileOf a ∧ i ∈ missingAliases a o

/-- One linked advisory can be handled. -/
def linkOk (d : Disk) (db : Database) (o : OsvRecord) (id : Id) : Prop :=
  ∃ a, db.get id = some a ∧ (NamesCrate o a.metadata.package → missingAliases a o ≠ [] → ∃ t, (fileOf a, t) ∈ d)

theorem syncLink_spec (law : EditLaw L) (hr : SyncReady L sev d db) {s : SyncState} {P : Path → Id → Prop}
    (hi : SyncInv L.adv d s P) {o : OsvRecord} (hp : PlainRecord o) (id : Id) :
    ((∃ s', syncLink L db o s id = .ok s') ↔ linkOk d db o id) ∧
    ∀ s', syncLink L db o s id = .ok s' → SyncInv L.adv d s' (fun p i => P p i ∨ addsVia db o [id] p i) := by
  unfold syncLink linkOk addsVia
  cases hg : db.get id with
  | none => simp
  | some a =>
    obtain ⟨ha, -⟩ := (C10_get_iff _ db hr.opens id a).mp hg
    simp only
    by_cases hc : o.crates.contains a.metadata.package = true
    · rw [if_pos hc]
      have hn : NamesCrate o a.metadata.package := mem_crates.mp (List.contains_iff_mem.mp hc)
      obtain ⟨h1, h2⟩ := updateAdvisory_spec law hr hi ha hp
      refine ⟨h1.trans ?_, fun s' h => (h2 s' h).congr ?_⟩
      · constructor
        · intro h; exact ⟨a, rfl, fun _ => h⟩
        · rintro ⟨b, hb, h⟩
          cases hb
          exact h hn
      · intro p i
        refine or_congr_right ?_
        constructor
        · rintro ⟨e, hm⟩
          exact ⟨id, List.mem_singleton.mpr rfl, a, hg, hn, e, hm⟩
        · rintro ⟨id', hid, b, hb, -, e, hm⟩
          rw [List.mem_singleton.mp hid, hg] at hb
          cases hb
          exact ⟨e, hm⟩
    · rw [if_neg hc]
      have hn : ¬ NamesCrate o a.metadata.package := fun h =>
        hc (List.contains_iff_mem.mpr (mem_crates.mpr h))
      refine ⟨⟨fun _ => ⟨a, rfl, fun h => absurd h hn⟩, fun _ => ⟨s, rfl⟩⟩, ?_⟩
      intro s' h
      cases h
      refine hi.congr fun p i => ⟨.inl, ?_⟩
      rintro (h | ⟨id', hid, b, hb, h, -⟩)
      · exact h
      · rw [List.mem_singleton.mp hid, hg] at hb
        cases hb
        exact absurd h hn

theorem syncLinks_spec (law : EditLaw L) (hr : SyncReady L sev d db) {o : OsvRecord} (hp : PlainRecord o)
    (ids : List Id) : ∀ {s : SyncState} {P : Path → Id → Prop}, SyncInv L.adv d s P →
    ((∃ s', syncLinks L db o s ids = .ok s') ↔ ∀ id ∈ ids, linkOk d db o id) ∧
    ∀ s', syncLinks L db o s ids = .ok s' → SyncInv L.adv d s' (fun p i => P p i ∨ addsVia db o ids p i) := by
  induction ids with
  | nil =>
    intro s P hi
    refine ⟨⟨fun _ => by simp, fun _ => ⟨s, rfl⟩⟩, ?_⟩
    intro s' h
    cases h
    exact hi.congr (by simp [addsVia])
  | cons id ids ih =>
    intro s P hi
    obtain ⟨h1, h2⟩ := syncLink_spec law hr hi hp id
    rw [syncLinks]
    cases hl : syncLink L db o s id with
    | err =>
      rw [hl] at h1
      refine ⟨⟨fun ⟨_, h⟩ => (by cases h), fun h => ?_⟩, fun _ h => (by cases h)⟩
      obtain ⟨_, h'⟩ := h1.mpr (h id List.mem_cons_self); cases h'
    | panic =>
      rw [hl] at h1
      refine ⟨⟨fun ⟨_, h⟩ => (by cases h), fun h => ?_⟩, fun _ h => (by cases h)⟩
      obtain ⟨_, h'⟩ := h1.mpr (h id List.mem_cons_self); cases h'
    | ok s1 =>
      simp only
      obtain ⟨h3, h4⟩ := ih (h2 s1 hl)
      refine ⟨h3.trans ?_, fun s' h => (h4 s' h).congr ?_⟩
      · rw [hl] at h1
        simp only [List.mem_cons, forall_eq_or_imp]
        exact ⟨fun h => ⟨h1.mp ⟨s1, rfl⟩, h⟩, fun h => h.2⟩
      · intro p i
        rw [or_assoc]
        refine or_congr_right ?_
        unfold addsVia
        simp only [List.mem_cons, exists_eq_or_imp, List.not_mem_nil, or_false, exists_eq_left]

/-- What the records add. -/
def addsAll (db : Database) (osv : List OsvRecord) (p : Path) (i : Id) : Prop :=
  ∃ o ∈ osv, o.withdrawn = false ∧ ∃ ids, linked db o = .ok ids ∧ addsVia db o ids p i

/-- What is to be checked for one record. -/
def checksOf (L : SyncLib) (db : Database) (o : OsvRecord) : List (Str × OsvRecord) :=
  if o.withdrawn then []
  else
    match linked db o with
    | .ok [] => (o.crates.filter L.validName).map (·, o)
    | _ => []

/-- A record can be handled. -/
def recordOk (d : Disk) (db : Database) (o : OsvRecord) : Prop :=
  o.withdrawn = false → ∃ ids, linked db o = .ok ids ∧ ∀ id ∈ ids, linkOk d db o id

theorem syncRecords_spec (law : EditLaw L) (hr : SyncReady L sev d db) (osv : List OsvRecord)
    (hp : ∀ o ∈ osv, PlainRecord o) : ∀ {s : SyncState} {P : Path → Id → Prop}, SyncInv L.adv d s P →
    ((∃ r, syncRecords L db s osv = .ok r) ↔ ∀ o ∈ osv, recordOk d db o) ∧
    ∀ s' checks, syncRecords L db s osv = .ok (s', checks) →
      SyncInv L.adv d s' (fun p i => P p i ∨ addsAll db osv p i) ∧ checks = osv.flatMap (checksOf L db) := by
  induction osv with
  | nil =>
    intro s P hi
    refine ⟨⟨fun _ => by simp, fun _ => ⟨_, rfl⟩⟩, ?_⟩
    intro s' checks h
    cases h
    exact ⟨hi.congr (by simp [addsAll]), rfl⟩
  | cons o os ih =>
    intro s P hi
    have ih := fun {s : SyncState} {P : Path → Id → Prop} (h : SyncInv L.adv d s P) =>
      ih (fun x hx => hp x (List.mem_cons_of_mem _ hx)) h
    have hpo := hp o List.mem_cons_self
    rw [syncRecords]
    simp only [List.mem_cons, forall_eq_or_imp, List.flatMap_cons]
    by_cases hw : o.withdrawn = true
    · rw [if_pos hw]
      obtain ⟨h1, h2⟩ := ih hi
      refine ⟨h1.trans ⟨fun h => ⟨fun h' => (by rw [hw] at h'; cases h'), h⟩, fun h => h.2⟩, ?_⟩
      intro s' checks h
      obtain ⟨h3, h4⟩ := h2 s' checks h
      refine ⟨h3.congr ?_, ?_⟩
      · intro p i
        refine or_congr_right ?_
        simp [addsAll, hw]
      · rw [h4, checksOf, if_pos hw, List.nil_append]
    · rw [if_neg hw]
      have hw' : o.withdrawn = false := by simpa using hw
      have hall : ∀ ids, linked db o = .ok ids → ∀ p i,
          addsAll db (o :: os) p i ↔ addsVia db o ids p i ∨ addsAll db os p i := by
        intro ids hl p i
        unfold addsAll
        simp only [List.mem_cons, exists_eq_or_imp, hw', true_and, hl, Outcome.ok.injEq, exists_eq_left']
      cases hl : linked db o with
      | err =>
        refine ⟨⟨fun ⟨_, h⟩ => (by cases h), fun h => ?_⟩, fun _ _ h => (by cases h)⟩
        obtain ⟨ids, h', -⟩ := h.1 hw'
        rw [hl] at h'; cases h'
      | panic =>
        refine ⟨⟨fun ⟨_, h⟩ => (by cases h), fun h => ?_⟩, fun _ _ h => (by cases h)⟩
        obtain ⟨ids, h', -⟩ := h.1 hw'
        rw [hl] at h'; cases h'
      | ok ids =>
        have hrec : recordOk d db o ↔ ∀ id ∈ ids, linkOk d db o id := by
          unfold recordOk
          simp only [hw', true_implies, hl, Outcome.ok.injEq, exists_eq_left']
        cases ids with
        | nil =>
          obtain ⟨h1, h2⟩ := ih hi
          simp only
          cases hs : syncRecords L db s os with
          | err =>
            rw [hs] at h1
            refine ⟨⟨fun ⟨_, h⟩ => (by cases h), fun h => ?_⟩, fun _ _ h => (by cases h)⟩
            obtain ⟨_, h'⟩ := h1.mpr h.2; cases h'
          | panic =>
            rw [hs] at h1
            refine ⟨⟨fun ⟨_, h⟩ => (by cases h), fun h => ?_⟩, fun _ _ h => (by cases h)⟩
            obtain ⟨_, h'⟩ := h1.mpr h.2; cases h'
          | ok r =>
            obtain ⟨s1, c1⟩ := r
            rw [hs] at h1
            simp only
            refine ⟨⟨fun _ => ⟨hrec.mpr (by simp), h1.mp ⟨_, rfl⟩⟩, fun _ => ⟨_, rfl⟩⟩, ?_⟩
            intro s' checks h
            cases h
            obtain ⟨h3, h4⟩ := h2 s1 c1 hs
            refine ⟨h3.congr fun p i => or_congr_right ?_, ?_⟩
            · rw [hall [] hl]; simp [addsVia]
            · rw [h4, checksOf, if_neg hw, hl]
        | cons id0 ids0 =>
          simp only
          obtain ⟨h1, h2⟩ := syncLinks_spec law hr hpo (id0 :: ids0) hi
          cases hs : syncLinks L db o s (id0 :: ids0) with
          | err =>
            rw [hs] at h1
            refine ⟨⟨fun ⟨_, h⟩ => (by cases h), fun h => ?_⟩, fun _ _ h => (by cases h)⟩
            obtain ⟨_, h'⟩ := h1.mpr (hrec.mp h.1); cases h'
          | panic =>
            rw [hs] at h1
            refine ⟨⟨fun ⟨_, h⟩ => (by cases h), fun h => ?_⟩, fun _ _ h => (by cases h)⟩
            obtain ⟨_, h'⟩ := h1.mpr (hrec.mp h.1); cases h'
          | ok s1 =>
            rw [hs] at h1
            simp only
            obtain ⟨h3, h4⟩ := ih (h2 s1 hs)
            refine ⟨h3.trans ⟨fun h => ⟨hrec.mpr (h1.mp ⟨_, rfl⟩), h⟩, fun h => h.2⟩, ?_⟩
            intro s' checks h
            obtain ⟨h5, h6⟩ := h4 s' checks h
            refine ⟨h5.congr fun p i => ?_, ?_⟩
            · rw [hall _ hl, or_assoc]
            · rw [h6, checksOf, if_neg hw, hl]; rfl

end Loops

end Verif.Props
