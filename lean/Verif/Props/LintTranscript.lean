import Verif.Props.AdminLint
import Verif.Props.LintMentions
import Verif.Props.SourceCmp

/-!
# C95: what `rustsec-admin lint` prints
-/

namespace Verif.Props

open Verif.Adv Verif.Db Verif.Lock Verif.Lint Verif.AdminLint Verif.Spec

/-! ## The verdict is that of C69 -/

/-- The outcome, without the reason. -/
def haltOutcome {α : Type} : Halt → Outcome α
  | .stopped _ => .err
  | .panicked => .panic

/-- The outcome, without the reason. -/
def sumOutcome {α : Type} : α ⊕ Halt → Outcome α
  | .inl a => .ok a
  | .inr h => haltOutcome h

/-- The outcome, without the reason. -/
def endOutcome : End → Outcome Nat
  | .counted n => .ok n
  | .halted h => haltOutcome h

theorem lintItem_outcome (L : AdvLib) (c : Collection) (dir : Str) (i : Item) :
    AdminLint.lintAdvisory L i = (match lintItem L c dir i with
      | .inl (a, fs) => .ok (a, !fs.isEmpty)
      | .inr h => haltOutcome h) := by
  unfold AdminLint.lintAdvisory lintItem
  cases i with
  | other n => rfl
  | file name text =>
    cases text with
    | none => rfl
    | some text =>
      dsimp only
      cases AdvisoryFile.fromStr L text with
      | err => rfl
      | panic => rfl
      | ok a =>
        dsimp only
        cases lintFile L name (some text) with
        | err => rfl
        | panic => rfl
        | ok q => rfl

theorem sayItems_outcome (L : AdvLib) (v : Bool) (c : Collection) (dir : Str) (is : List Item) :
    sumOutcome (sayItems L v c dir is).2 = Outcome.mapList (AdminLint.lintAdvisory L) is := by
  induction is with
  | nil => rfl
  | cons i is ih =>
    rw [sayItems, Outcome.mapList, lintItem_outcome L c dir i]
    cases lintItem L c dir i with
    | inr h => cases h <;> rfl
    | inl q =>
      obtain ⟨a, fs⟩ := q
      dsimp only
      rw [← ih]
      cases (sayItems L v c dir is).2 with
      | inl as => rfl
      | inr h => cases h <;> rfl

theorem sayEntries_outcome (L : AdvLib) (v : Bool) (c : Collection) (es : List Entry) :
    sumOutcome (sayEntries L v c es).2 = (match Outcome.mapList (lintEntry L) es with
      | .ok rs => .ok rs.flatten
      | .err => .err
      | .panic => .panic) := by
  induction es with
  | nil => rfl
  | cons e es ih =>
    cases e with
    | other n => rfl
    | dir dir items =>
      rw [sayEntries, Outcome.mapList, lintEntry, ← sayItems_outcome L v c dir]
      dsimp only
      cases (sayItems L v c dir (sortedBy Item.name items)).2 with
      | inr h => cases h <;> rfl
      | inl as =>
        dsimp only
        simp only [sumOutcome] at ih ⊢
        cases hr : Outcome.mapList (lintEntry L) es with
        | ok rs =>
          rw [hr] at ih
          cases hq : (sayEntries L v c es).2 with
          | inl bs => rw [hq] at ih; dsimp only at ih; cases ih; rfl
          | inr h => rw [hq] at ih; cases h <;> cases ih
        | err =>
          rw [hr] at ih
          cases hq : (sayEntries L v c es).2 with
          | inl bs => rw [hq] at ih; cases ih
          | inr h => rw [hq] at ih; cases h with | stopped b => rfl | panicked => cases ih
        | panic =>
          rw [hr] at ih
          cases hq : (sayEntries L v c es).2 with
          | inl bs => rw [hq] at ih; cases ih
          | inr h => rw [hq] at ih; cases h with | stopped b => cases ih | panicked => rfl

theorem blameNames_outcome (lookup : Str → Lookup) (as : List AdvisoryFile) :
    checkNames lookup as = (match blameNames lookup as with | none => .ok () | some _ => .err) := by
  induction as with
  | nil => rfl
  | cons a as ih =>
    rw [checkNames, blameNames, checkName]
    by_cases hd : a.metadata.expectDeleted = true
    · rw [if_pos hd, if_pos hd]; exact ih
    · rw [if_neg hd, if_neg hd]
      cases lookup a.metadata.package with
      | failed => rfl
      | missing => rfl
      | found name =>
        dsimp only
        by_cases hn : name ≠ a.metadata.package
        · rw [if_pos hn, if_pos hn]
        · rw [if_neg hn, if_neg hn]; exact ih

theorem sayCollection_outcome (E : LintEnv) (v : Bool) (lookup : Str → Lookup) (c : Collection)
    (listing : Option (List Entry)) :
    sumOutcome (sayCollection E v lookup c listing).2 = lintCollection E lookup c listing := by
  unfold sayCollection lintCollection
  cases listing with
  | none => rfl
  | some entries =>
    dsimp only
    have h := sayEntries_outcome E.adv v c (sortedBy Entry.name entries)
    cases hr : Outcome.mapList (lintEntry E.adv) (sortedBy Entry.name entries) with
    | err =>
      rw [hr] at h
      cases hq : (sayEntries E.adv v c (sortedBy Entry.name entries)).2 with
      | inl bs => rw [hq] at h; cases h
      | inr x => rw [hq] at h; cases x with | stopped b => rfl | panicked => cases h
    | panic =>
      rw [hr] at h
      cases hq : (sayEntries E.adv v c (sortedBy Entry.name entries)).2 with
      | inl bs => rw [hq] at h; cases h
      | inr x => rw [hq] at h; cases x with | stopped b => cases h | panicked => rfl
    | ok rs =>
      rw [hr] at h
      cases hq : (sayEntries E.adv v c (sortedBy Entry.name entries)).2 with
      | inr x => rw [hq] at h; cases x <;> cases h
      | inl bs =>
        rw [hq] at h
        dsimp only at h
        cases h
        dsimp only
        unfold cratesIoLints
        rw [blameNames_outcome]
        by_cases hc : c = .crates
        · by_cases hl : E.lockFree = true
          · rw [if_pos ⟨hc, hl⟩, if_pos hc, if_pos hl]
            cases blameNames lookup (rs.flatten.map Prod.fst) <;> rfl
          · rw [if_neg (by tauto), if_pos hc, if_neg hl]; rfl
        · rw [if_neg (by tauto), if_neg hc]; rfl

/-- **Property C95** (verdict): what is printed goes with the verdict of C69. -/
theorem C95_verdict (E : LintEnv) (verbose : Bool) (lookup : Str → Lookup) (ch : Checkout) :
    endOutcome (sayLint E verbose lookup ch).2 = lint E lookup ch := by
  unfold sayLint lint
  rw [← sayCollection_outcome E verbose, ← sayCollection_outcome E verbose]
  dsimp only
  cases (sayCollection E verbose lookup .crates ch.crates).2 with
  | inr h => cases h <;> rfl
  | inl n =>
    dsimp only [sumOutcome]
    cases (sayCollection E verbose lookup .rust ch.rust).2 with
    | inr h => cases h <;> rfl
    | inl m => rfl

/-! ## Each file has its notice -/

theorem lintItem_ok {L : AdvLib} {c : Collection} {dir : Str} {i : Item} {a : AdvisoryFile} {fs : List Finding}
    (h : lintItem L c dir i = .inl (a, fs)) :
    ∃ name text, i = .file name (some text) ∧ AdvisoryOf L text a ∧ ProblemsOf L ⟨c, dir, name⟩ text fs := by
  unfold lintItem at h
  cases i with
  | other n => cases h
  | file name text =>
    cases text with
    | none => cases h
    | some text =>
      dsimp only at h
      cases hf : AdvisoryFile.fromStr L text with
      | err => rw [hf] at h; cases h
      | panic => rw [hf] at h; cases h
      | ok a' =>
        rw [hf] at h
        dsimp only at h
        cases hl : lintFile L name (some text) with
        | err => rw [hl] at h; cases h
        | panic => rw [hl] at h; cases h
        | ok q =>
          rw [hl] at h
          obtain ⟨b, gs⟩ := q
          cases h
          have ha := (C68_parsed_iff _ _ _).mp hf
          refine ⟨name, text, rfl, ha, ?_⟩
          unfold lintFile at hl
          split at hl
          · cases hl
          · obtain ⟨parts, t, hp, ht, hf', hx, -⟩ := C24_findings_exact L text _ b fs hl
            rw [hf] at hf'
            cases hf'
            rw [lintDraftName_iff] at hx
            exact ⟨a, parts, t, ha, (C22_parse_iff _ _).mp hp, ht, hx⟩

/-- What a list of notices says about files. -/
structure Covers' (L : AdvLib) (verbose : Bool) (files : Place → Str → Prop) (ns : List Notice) : Prop where
  every : ∀ p text, files p text → ∃ fs, ProblemsOf L p text fs ∧
    ((fs = [] ∧ (verbose = true → .linted p ∈ ns)) ∨ (fs ≠ [] ∧ .faulty p fs ∈ ns))
  only : ∀ x ∈ ns, ∃ text fs, files (placeOf x) text ∧ ProblemsOf L (placeOf x) text fs ∧
    ((fs = [] ∧ verbose = true ∧ x = .linted (placeOf x)) ∨ (fs ≠ [] ∧ x = .faulty (placeOf x) fs))

theorem Covers'.append {L : AdvLib} {v : Bool} {f g : Place → Str → Prop} {ns ms : List Notice} (h : Covers' L v f ns)
    (h' : Covers' L v g ms) : Covers' L v (fun p t => f p t ∨ g p t) (ns ++ ms) := by
  constructor
  · rintro p text (hp | hp)
    · obtain ⟨fs, h1, h2⟩ := h.every p text hp
      exact ⟨fs, h1, h2.imp (fun x => ⟨x.1, fun y => List.mem_append_left _ (x.2 y)⟩)
        (fun x => ⟨x.1, List.mem_append_left _ x.2⟩)⟩
    · obtain ⟨fs, h1, h2⟩ := h'.every p text hp
      exact ⟨fs, h1, h2.imp (fun x => ⟨x.1, fun y => List.mem_append_right _ (x.2 y)⟩)
        (fun x => ⟨x.1, List.mem_append_right _ x.2⟩)⟩
  · intro x hx
    rcases List.mem_append.mp hx with hx | hx
    · obtain ⟨text, fs, h1, h2⟩ := h.only x hx
      exact ⟨text, fs, .inl h1, h2⟩
    · obtain ⟨text, fs, h1, h2⟩ := h'.only x hx
      exact ⟨text, fs, .inr h1, h2⟩

theorem Covers'.congr {L : AdvLib} {v : Bool} {f g : Place → Str → Prop} {ns : List Notice} (h : Covers' L v f ns)
    (hfg : ∀ p t, f p t ↔ g p t) : Covers' L v g ns := by
  have : f = g := by funext p t; exact propext (hfg p t)
  rw [← this]; exact h

theorem covers_notice {L : AdvLib} {v : Bool} {p : Place} {text : Str} {fs : List Finding} (h : ProblemsOf L p text fs) :
    Covers' L v (fun q t => q = p ∧ t = text) (noticeOf v p fs) := by
  unfold noticeOf
  cases fs with
  | nil =>
    cases v with
    | true =>
      constructor
      · rintro q t ⟨rfl, rfl⟩
        exact ⟨[], h, .inl ⟨rfl, fun _ => by simp⟩⟩
      · intro x hx
        simp only [List.isEmpty_nil, if_true, List.mem_singleton] at hx
        subst hx
        exact ⟨text, [], ⟨rfl, rfl⟩, h, .inl ⟨rfl, rfl, rfl⟩⟩
    | false =>
      constructor
      · rintro q t ⟨rfl, rfl⟩
        exact ⟨[], h, .inl ⟨rfl, (fun e => by cases e)⟩⟩
      · intro x hx
        simp at hx
  | cons f fs =>
    constructor
    · rintro q t ⟨rfl, rfl⟩
      exact ⟨f :: fs, h, .inr ⟨by simp, by simp⟩⟩
    · intro x hx
      simp only [List.isEmpty_cons, Bool.false_eq_true, if_false, List.mem_singleton] at hx
      subst hx
      exact ⟨text, f :: fs, ⟨rfl, rfl⟩, h, .inr ⟨by simp, rfl⟩⟩

theorem sayItems_covers {L : AdvLib} {v : Bool} {c : Collection} {dir : Str} {is : List Item} {as : List (AdvisoryFile × Bool)}
    (h : (sayItems L v c dir is).2 = .inl as) :
    Covers' L v (fun p t => p.collection = c ∧ p.dir = dir ∧ .file p.file (some t) ∈ is) (sayItems L v c dir is).1 := by
  induction is generalizing as with
  | nil => exact ⟨(fun p t hp => by simp at hp), (fun x hx => by simp [sayItems] at hx)⟩
  | cons i is ih =>
    rw [sayItems] at h ⊢
    cases hi : lintItem L c dir i with
    | inr e => rw [hi] at h; cases h
    | inl q =>
      obtain ⟨a, fs⟩ := q
      rw [hi] at h
      dsimp only at h ⊢
      cases hr : (sayItems L v c dir is).2 with
      | inr e => rw [hr] at h; cases h
      | inl bs =>
        obtain ⟨name, text, rfl, -, hp⟩ := lintItem_ok hi
        refine ((covers_notice hp).append (ih hr)).congr ?_
        intro p t
        obtain ⟨pc, pd, pf⟩ := p
        simp only [Place.mk.injEq, List.mem_cons, Item.file.injEq, Option.some.injEq, Item.name]
        tauto

theorem sayEntries_covers {L : AdvLib} {v : Bool} {c : Collection} {es : List Entry} {as : List (AdvisoryFile × Bool)}
    (h : (sayEntries L v c es).2 = .inl as) :
    Covers' L v (fun p t => p.collection = c ∧ ∃ items, .dir p.dir items ∈ es ∧ .file p.file (some t) ∈ items)
      (sayEntries L v c es).1 := by
  induction es generalizing as with
  | nil => exact ⟨(fun p t hp => by simp at hp), (fun x hx => by simp [sayEntries] at hx)⟩
  | cons e es ih =>
    cases e with
    | other n => cases h
    | dir dir items =>
      rw [sayEntries] at h ⊢
      dsimp only at h ⊢
      cases hr : (sayItems L v c dir (sortedBy Item.name items)).2 with
      | inr e => rw [hr] at h; cases h
      | inl bs =>
        rw [hr] at h
        dsimp only at h ⊢
        cases hq : (sayEntries L v c es).2 with
        | inr e => rw [hq] at h; cases h
        | inl cs =>
          refine ((sayItems_covers hr).append (ih hq)).congr ?_
          intro p t
          obtain ⟨pc, pd, pf⟩ := p
          simp only [mem_sortedBy, List.mem_cons, Entry.dir.injEq]
          constructor
          · rintro (⟨h1, h2, h3⟩ | ⟨h1, items', h2, h3⟩)
            · exact ⟨h1, items, .inl ⟨h2, rfl⟩, h3⟩
            · exact ⟨h1, items', .inr h2, h3⟩
          · rintro ⟨h1, items', ⟨h2, rfl⟩ | h2, h3⟩
            · exact .inl ⟨h1, h2, h3⟩
            · exact .inr ⟨h1, items', h2, h3⟩

theorem sayCollection_covers {E : LintEnv} {v : Bool} {lookup : Str → Lookup} {c : Collection}
    {listing : Option (List Entry)} {n : Nat} (h : (sayCollection E v lookup c listing).2 = .inl n) :
    Covers' E.adv v (fun p t => p.collection = c ∧ ∃ entries items, listing = some entries ∧ .dir p.dir items ∈ entries ∧
      .file p.file (some t) ∈ items) (sayCollection E v lookup c listing).1 := by
  unfold sayCollection at h ⊢
  cases listing with
  | none => cases h
  | some entries =>
    dsimp only at h ⊢
    cases hr : (sayEntries E.adv v c (sortedBy Entry.name entries)).2 with
    | inr e => rw [hr] at h; cases h
    | inl as =>
      rw [hr] at h
      dsimp only at h ⊢
      have hc := (sayEntries_covers hr).congr (g := fun p t => p.collection = c ∧ ∃ entries' items,
        some entries = some entries' ∧ .dir p.dir items ∈ entries' ∧ .file p.file (some t) ∈ items) (by
          intro p t
          simp only [mem_sortedBy]
          constructor
          · rintro ⟨h1, items, h2, h3⟩; exact ⟨h1, entries, items, rfl, h2, h3⟩
          · rintro ⟨h1, entries', items, e, h2, h3⟩; cases e; exact ⟨h1, items, h2, h3⟩)
      split at h
      · cases h
      · exact hc

theorem sayLint_covers {E : LintEnv} {v : Bool} {lookup : Str → Lookup} {ch : Checkout} {n : Nat}
    (h : (sayLint E v lookup ch).2 = .counted n) :
    Covers' E.adv v (FileAt ch) (sayLint E v lookup ch).1 := by
  unfold sayLint at h ⊢
  dsimp only at h ⊢
  cases hr : (sayCollection E v lookup .crates ch.crates).2 with
  | inr e => rw [hr] at h; cases h
  | inl k =>
    rw [hr] at h
    dsimp only at h ⊢
    cases hq : (sayCollection E v lookup .rust ch.rust).2 with
    | inr e => rw [hq] at h; cases h
    | inl m =>
      dsimp only
      refine ((sayCollection_covers hr).append (sayCollection_covers hq)).congr ?_
      intro p t
      obtain ⟨pc, pd, pf⟩ := p
      unfold FileAt
      dsimp only
      constructor
      · rintro (⟨rfl, entries, items, h1, h2, h3⟩ | ⟨rfl, entries, items, h1, h2, h3⟩)
        · exact ⟨entries, items, h1, h2, h3⟩
        · exact ⟨entries, items, h1, h2, h3⟩
      · rintro ⟨entries, items, h1, h2, h3⟩
        cases pc with
        | crates => exact .inl ⟨rfl, entries, items, h1, h2, h3⟩
        | rust => exact .inr ⟨rfl, entries, items, h1, h2, h3⟩

/-- **Property C95** (notices): if the run goes through, every file with problems (C24) is printed with them, every other file
is printed if that was asked for, and nothing else is printed. -/
theorem C95_notices (E : LintEnv) (verbose : Bool) (lookup : Str → Lookup) (ch : Checkout) (n : Nat)
    (h : (sayLint E verbose lookup ch).2 = .counted n) :
    (∀ p text, FileAt ch p text → ∃ errors, ProblemsOf E.adv p text errors ∧
      ((errors = [] ∧ (verbose = true → .linted p ∈ (sayLint E verbose lookup ch).1)) ∨
       (errors ≠ [] ∧ .faulty p errors ∈ (sayLint E verbose lookup ch).1))) ∧
    (∀ x ∈ (sayLint E verbose lookup ch).1, ∃ text errors, FileAt ch (placeOf x) text ∧
      ProblemsOf E.adv (placeOf x) text errors ∧
      ((errors = [] ∧ verbose = true ∧ x = .linted (placeOf x)) ∨ (errors ≠ [] ∧ x = .faulty (placeOf x) errors))) :=
  ⟨(sayLint_covers h).every, (sayLint_covers h).only⟩

/-! ## The count -/

/-- Is it about a file with problems? -/
def isFaulty : Notice → Bool
  | .faulty _ _ => true
  | .linted _ => false

theorem noticeOf_count (v : Bool) (p : Place) (fs : List Finding) :
    (noticeOf v p fs).countP isFaulty = if fs.isEmpty then 0 else 1 := by
  unfold noticeOf
  cases fs <;> cases v <;> rfl

theorem sayItems_count {L : AdvLib} {v : Bool} {c : Collection} {dir : Str} {is : List Item} {as : List (AdvisoryFile × Bool)}
    (h : (sayItems L v c dir is).2 = .inl as) : (sayItems L v c dir is).1.countP isFaulty = as.countP Prod.snd := by
  induction is generalizing as with
  | nil => cases h; rfl
  | cons i is ih =>
    rw [sayItems] at h ⊢
    cases hi : lintItem L c dir i with
    | inr e => rw [hi] at h; cases h
    | inl q =>
      obtain ⟨a, fs⟩ := q
      rw [hi] at h
      dsimp only at h ⊢
      cases hr : (sayItems L v c dir is).2 with
      | inr e => rw [hr] at h; cases h
      | inl bs =>
        rw [hr] at h
        cases h
        rw [List.countP_append, noticeOf_count, ih hr, List.countP_cons]
        cases fs with
        | nil => simp
        | cons f fs => simp; omega

theorem sayEntries_count {L : AdvLib} {v : Bool} {c : Collection} {es : List Entry} {as : List (AdvisoryFile × Bool)}
    (h : (sayEntries L v c es).2 = .inl as) : (sayEntries L v c es).1.countP isFaulty = as.countP Prod.snd := by
  induction es generalizing as with
  | nil => cases h; rfl
  | cons e es ih =>
    cases e with
    | other n => cases h
    | dir dir items =>
      rw [sayEntries] at h ⊢
      dsimp only at h ⊢
      cases hr : (sayItems L v c dir (sortedBy Item.name items)).2 with
      | inr e => rw [hr] at h; cases h
      | inl bs =>
        rw [hr] at h
        dsimp only at h ⊢
        cases hq : (sayEntries L v c es).2 with
        | inr e => rw [hq] at h; cases h
        | inl cs =>
          rw [hq] at h
          cases h
          rw [List.countP_append, List.countP_append, sayItems_count hr, ih hq]

theorem sayCollection_count {E : LintEnv} {v : Bool} {lookup : Str → Lookup} {c : Collection}
    {listing : Option (List Entry)} {n : Nat} (h : (sayCollection E v lookup c listing).2 = .inl n) :
    (sayCollection E v lookup c listing).1.countP isFaulty = n := by
  unfold sayCollection at h ⊢
  cases listing with
  | none => cases h
  | some entries =>
    dsimp only at h ⊢
    cases hr : (sayEntries E.adv v c (sortedBy Entry.name entries)).2 with
    | inr e => rw [hr] at h; cases h
    | inl as =>
      rw [hr] at h
      dsimp only at h ⊢
      split at h
      · cases h
      · cases h; exact sayEntries_count hr

/-- **Property C95** (count): the number of advisories said to contain errors is that of the files printed with errors. -/
theorem C95_count (E : LintEnv) (verbose : Bool) (lookup : Str → Lookup) (ch : Checkout) (n : Nat)
    (h : (sayLint E verbose lookup ch).2 = .counted n) : n = (sayLint E verbose lookup ch).1.countP isFaulty := by
  unfold sayLint at h ⊢
  dsimp only at h ⊢
  cases hr : (sayCollection E verbose lookup .crates ch.crates).2 with
  | inr e => rw [hr] at h; cases h
  | inl k =>
    rw [hr] at h
    dsimp only at h ⊢
    cases hq : (sayCollection E verbose lookup .rust ch.rust).2 with
    | inr e => rw [hq] at h; cases h
    | inl m =>
      rw [hq] at h
      cases h
      dsimp only
      rw [List.countP_append, sayCollection_count hr, sayCollection_count hq]

/-! ## The order -/

theorem strLe_trans {α : Type} (name : α → Str) :
    IsTrans α (fun a b => strCmp (name a) (name b) ≠ .gt) where
  trans a b c h1 h2 := by
    have h1' : (strCmp (name a) (name b)).isLE = true := Ordering.isLE_iff_ne_gt.mpr h1
    have h2' : (strCmp (name b) (name c)).isLE = true := Ordering.isLE_iff_ne_gt.mpr h2
    exact Ordering.isLE_iff_ne_gt.mp (Std.TransCmp.isLE_trans (cmp := strCmp) h1' h2')

theorem strLe_total {α : Type} (name : α → Str) : Std.Total (fun a b : α => strCmp (name a) (name b) ≠ .gt) where
  total a b := by
    by_contra h
    simp only [not_or, not_not] at h
    have := Std.OrientedCmp.eq_swap (cmp := strCmp) (a := name a) (b := name b)
    rw [h.1, h.2] at this
    cases this

theorem strCmp_eq_same {a b : Str} (h : strCmp a b = .eq) : a = b :=
  Std.LawfulEqCmp.eq_of_compare (cmp := List.compareLex compare) h

/-- Sorted by name, strictly if the names are distinct. -/
theorem sortedBy_lt {α : Type} (name : α → Str) (l : List α) (h : (l.map name).Nodup) :
    (sortedBy name l).Pairwise fun a b => strCmp (name a) (name b) = .lt := by
  have := strLe_trans name
  have := strLe_total name
  have h1 : (sortedBy name l).Pairwise fun a b => strCmp (name a) (name b) ≠ .gt := List.pairwise_insertionSort _ l
  have h2 : (sortedBy name l).Pairwise fun a b => name a ≠ name b := by
    have hp : ((sortedBy name l).map name).Nodup := ((List.perm_insertionSort _ l).map name).nodup_iff.mpr h
    exact List.pairwise_map.mp hp
  refine (h1.and h2).imp ?_
  rintro a b ⟨h3, h4⟩
  cases hc : strCmp (name a) (name b) with
  | lt => rfl
  | eq => exact absurd (strCmp_eq_same hc) h4
  | gt => exact absurd hc h3

/-- The order of the listing does not matter. -/
theorem sortedBy_perm {α : Type} (name : α → Str) {l m : List α} (h : l.Perm m) (hd : (l.map name).Nodup) :
    sortedBy name l = sortedBy name m := by
  have hd' : (m.map name).Nodup := (h.map name).nodup_iff.mp hd
  refine List.Perm.eq_of_pairwise (le := fun a b => strCmp (name a) (name b) = .lt) ?_ (sortedBy_lt name l hd)
    (sortedBy_lt name m hd') (((List.perm_insertionSort _ l).trans h).trans (List.perm_insertionSort _ m).symm)
  intro a b _ _ h1 h2
  have := Std.OrientedCmp.eq_swap (cmp := strCmp) (a := name a) (b := name b)
  rw [h1, h2] at this
  cases this

theorem sayItems_places {L : AdvLib} {v : Bool} {c : Collection} {dir : Str} {is : List Item} :
    ∀ x ∈ (sayItems L v c dir is).1, (placeOf x).collection = c ∧ (placeOf x).dir = dir ∧
      ∃ i ∈ is, i.name = (placeOf x).file := by
  induction is with
  | nil => intro x hx; simp [sayItems] at hx
  | cons i is ih =>
    rw [sayItems]
    cases hi : lintItem L c dir i with
    | inr e => intro x hx; simp at hx
    | inl q =>
      obtain ⟨a, fs⟩ := q
      dsimp only
      intro x hx
      rcases List.mem_append.mp hx with hx | hx
      · have : placeOf x = ⟨c, dir, i.name⟩ := by
          unfold noticeOf at hx
          split at hx
          · split at hx
            · cases List.mem_singleton.mp hx; rfl
            · cases hx
          · cases List.mem_singleton.mp hx; rfl
        rw [this]
        exact ⟨rfl, rfl, i, by simp, rfl⟩
      · obtain ⟨h1, h2, j, hj, h3⟩ := ih x hx
        exact ⟨h1, h2, j, List.mem_cons_of_mem _ hj, h3⟩

theorem sayItems_ordered {L : AdvLib} {v : Bool} {c : Collection} {dir : Str} {is : List Item}
    (h : is.Pairwise fun a b => strCmp a.name b.name = .lt) :
    (sayItems L v c dir is).1.Pairwise fun x y => PathBefore (placeOf x) (placeOf y) := by
  induction is with
  | nil => simp [sayItems]
  | cons i is ih =>
    rw [sayItems]
    cases hi : lintItem L c dir i with
    | inr e => simp
    | inl q =>
      obtain ⟨a, fs⟩ := q
      dsimp only
      rw [List.pairwise_cons] at h
      have hn : noticeOf v ⟨c, dir, i.name⟩ fs = [] ∨ ∃ x, noticeOf v ⟨c, dir, i.name⟩ fs = [x] ∧ placeOf x = ⟨c, dir, i.name⟩ := by
        unfold noticeOf
        split
        · split
          · exact .inr ⟨_, rfl, rfl⟩
          · exact .inl rfl
        · exact .inr ⟨_, rfl, rfl⟩
      rcases hn with hn | ⟨x, hn, hx⟩
      · rw [hn]; exact ih h.2
      · rw [hn]
        refine List.pairwise_cons.mpr ⟨fun y hy => ?_, ih h.2⟩
        obtain ⟨h1, h2, j, hj, h3⟩ := sayItems_places y hy
        refine .inr ⟨by rw [hx, h1], .inr ⟨by rw [hx, h2], ?_⟩⟩
        rw [hx, ← h3]
        exact h.1 j hj

theorem sayEntries_places {L : AdvLib} {v : Bool} {c : Collection} {es : List Entry} :
    ∀ x ∈ (sayEntries L v c es).1, (placeOf x).collection = c ∧ ∃ e ∈ es, e.name = (placeOf x).dir := by
  induction es with
  | nil => intro x hx; simp [sayEntries] at hx
  | cons e es ih =>
    cases e with
    | other n => intro x hx; simp [sayEntries] at hx
    | dir dir items =>
      rw [sayEntries]
      dsimp only
      have first : ∀ x ∈ (sayItems L v c dir (sortedBy Item.name items)).1,
          (placeOf x).collection = c ∧ ∃ e ∈ Entry.dir dir items :: es, e.name = (placeOf x).dir := by
        intro x hx
        obtain ⟨h1, h2, -⟩ := sayItems_places x hx
        exact ⟨h1, .dir dir items, by simp, h2.symm⟩
      cases (sayItems L v c dir (sortedBy Item.name items)).2 with
      | inr e => exact first
      | inl as =>
        dsimp only
        intro x hx
        rcases List.mem_append.mp hx with hx | hx
        · exact first x hx
        · obtain ⟨h1, e, he, h2⟩ := ih x hx
          exact ⟨h1, e, List.mem_cons_of_mem _ he, h2⟩

theorem sayEntries_ordered {L : AdvLib} {v : Bool} {c : Collection} {es : List Entry}
    (h : es.Pairwise fun a b => strCmp a.name b.name = .lt)
    (hf : ∀ dir items, .dir dir items ∈ es → (items.map Item.name).Nodup) :
    (sayEntries L v c es).1.Pairwise fun x y => PathBefore (placeOf x) (placeOf y) := by
  induction es with
  | nil => simp [sayEntries]
  | cons e es ih =>
    cases e with
    | other n => simp [sayEntries]
    | dir dir items =>
      rw [sayEntries]
      dsimp only
      rw [List.pairwise_cons] at h
      have h1 := sayItems_ordered (L := L) (v := v) (c := c) (dir := dir) (sortedBy_lt Item.name items (hf dir items (by simp)))
      cases (sayItems L v c dir (sortedBy Item.name items)).2 with
      | inr e => exact h1
      | inl as =>
        dsimp only
        refine List.pairwise_append.mpr ⟨h1, ih h.2 fun d i hi => hf d i (by simp [hi]), ?_⟩
        intro x hx y hy
        obtain ⟨a1, a2, -⟩ := sayItems_places x hx
        obtain ⟨b1, e, he, b2⟩ := sayEntries_places y hy
        refine .inr ⟨by rw [a1, b1], .inl ?_⟩
        rw [a2, ← b2]
        exact h.1 e he

theorem sayCollection_shape {E : LintEnv} {v : Bool} {lookup : Str → Lookup} {c : Collection}
    {listing : Option (List Entry)} : (sayCollection E v lookup c listing).1 = [] ∨ ∃ entries, listing = some entries ∧
      (sayCollection E v lookup c listing).1 = (sayEntries E.adv v c (sortedBy Entry.name entries)).1 := by
  unfold sayCollection
  cases listing with
  | none => exact .inl rfl
  | some entries =>
    right
    refine ⟨entries, rfl, ?_⟩
    dsimp only
    cases (sayEntries E.adv v c (sortedBy Entry.name entries)).2 with
    | inr e => rfl
    | inl as => dsimp only; split <;> rfl

theorem sayCollection_ordered {E : LintEnv} {v : Bool} {lookup : Str → Lookup} {c : Collection} {ch : Checkout}
    (hd : NamesDistinct ch) : ((sayCollection E v lookup c (ch.listing c)).1.Pairwise fun x y =>
      PathBefore (placeOf x) (placeOf y)) ∧ ∀ x ∈ (sayCollection E v lookup c (ch.listing c)).1, (placeOf x).collection = c := by
  rcases sayCollection_shape (E := E) (v := v) (lookup := lookup) (c := c) (listing := ch.listing c) with h | ⟨entries, he, h⟩
  · rw [h]; simp
  · rw [h]
    refine ⟨sayEntries_ordered (sortedBy_lt _ _ (hd.dirs c entries he)) fun dir items hi =>
      hd.files c entries dir items he ((mem_sortedBy _ _ _).mp hi), fun x hx => (sayEntries_places x hx).1⟩

/-- **Property C95** (order): the notices are in the order of the paths, and there is at most one for each file, also if the
run is cut short. -/
theorem C95_ordered (E : LintEnv) (verbose : Bool) (lookup : Str → Lookup) (ch : Checkout) (hd : NamesDistinct ch) :
    (sayLint E verbose lookup ch).1.Pairwise fun x y => PathBefore (placeOf x) (placeOf y) := by
  have h1 := sayCollection_ordered (E := E) (v := verbose) (lookup := lookup) (c := .crates) hd
  have h2 := sayCollection_ordered (E := E) (v := verbose) (lookup := lookup) (c := .rust) hd
  change (((sayCollection E verbose lookup .crates ch.crates).1.Pairwise _) ∧ _) at h1
  change (((sayCollection E verbose lookup .rust ch.rust).1.Pairwise _) ∧ _) at h2
  have h12 : ((sayCollection E verbose lookup .crates ch.crates).1 ++ (sayCollection E verbose lookup .rust ch.rust).1).Pairwise
      fun x y => PathBefore (placeOf x) (placeOf y) :=
    List.pairwise_append.mpr ⟨h1.1, h2.1, fun x hx y hy => .inl ⟨h1.2 x hx, h2.2 y hy⟩⟩
  unfold sayLint
  dsimp only
  cases (sayCollection E verbose lookup .crates ch.crates).2 with
  | inr e => exact h1.1
  | inl k =>
    dsimp only
    cases (sayCollection E verbose lookup .rust ch.rust).2 with
    | inr e => exact h12
    | inl m => exact h12

/-! ## Listings -/

theorem sameEntry_name {e e' : Entry} (h : SameEntry e e') : e.name = e'.name := by cases h <;> rfl

theorem forall₂_names {l l' : List Entry} (h : List.Forall₂ SameEntry l l') : l.map Entry.name = l'.map Entry.name := by
  induction h with
  | nil => rfl
  | cons h _ ih => simp [sameEntry_name h, ih]

theorem orderedInsert_same {e e' : Entry} (he : SameEntry e e') {l l' : List Entry} (h : List.Forall₂ SameEntry l l') :
    List.Forall₂ SameEntry (List.orderedInsert (fun a b : Entry => strCmp a.name b.name ≠ .gt) e l)
      (List.orderedInsert (fun a b : Entry => strCmp a.name b.name ≠ .gt) e' l') := by
  induction h with
  | nil => exact .cons he .nil
  | cons h ht ih =>
    simp only [List.orderedInsert_cons]
    rw [sameEntry_name he, sameEntry_name h]
    split
    · exact .cons he (.cons h ht)
    · exact .cons h ih

theorem sortedBy_same {l l' : List Entry} (h : List.Forall₂ SameEntry l l') :
    List.Forall₂ SameEntry (sortedBy Entry.name l) (sortedBy Entry.name l') := by
  unfold sortedBy
  induction h with
  | nil => exact .nil
  | cons h ht ih =>
    rw [List.insertionSort_cons, List.insertionSort_cons]
    exact orderedInsert_same h ih

theorem sayEntries_same {L : AdvLib} {v : Bool} {c : Collection} {es es' : List Entry} (h : List.Forall₂ SameEntry es es')
    (hf : ∀ dir items, .dir dir items ∈ es → (items.map Item.name).Nodup) : sayEntries L v c es = sayEntries L v c es' := by
  induction h with
  | nil => rfl
  | cons h ht ih =>
    have ih' := ih fun d i hi => hf d i (by simp [hi])
    cases h with
    | other name => rfl
    | dir name hp =>
      rw [sayEntries, sayEntries, sortedBy_perm Item.name hp (hf name _ (by simp)), ih']

theorem sayCollection_same {E : LintEnv} {v : Bool} {lookup : Str → Lookup} {c : Collection} {a b : Option (List Entry)}
    (h : SameListing a b) (hd : ∀ entries, a = some entries → (entries.map Entry.name).Nodup)
    (hf : ∀ entries dir items, a = some entries → .dir dir items ∈ entries → (items.map Item.name).Nodup) :
    sayCollection E v lookup c a = sayCollection E v lookup c b := by
  cases h with
  | none => rfl
  | @some l l' m hp hs =>
    unfold sayCollection
    dsimp only
    have h1 : sortedBy Entry.name l = sortedBy Entry.name m := sortedBy_perm _ hp (hd l rfl)
    rw [h1, sayEntries_same (sortedBy_same hs)]
    intro dir items hi
    exact hf l dir items rfl (hp.mem_iff.mpr ((mem_sortedBy _ _ _).mp hi))

/-- **Property C95** (listings): what is printed, the verdict and its reason do not depend on the order in which the
directories are listed. -/
theorem C95_listing_order (E : LintEnv) (verbose : Bool) (lookup : Str → Lookup) (ch ch' : Checkout) (hd : NamesDistinct ch)
    (h : SameFiles ch ch') : sayLint E verbose lookup ch = sayLint E verbose lookup ch' := by
  have h1 : sayCollection E verbose lookup .crates ch.crates = sayCollection E verbose lookup .crates ch'.crates :=
    sayCollection_same (h .crates) (fun e he => hd.dirs .crates e he) (fun e d i he => hd.files .crates e d i he)
  have h2 : sayCollection E verbose lookup .rust ch.rust = sayCollection E verbose lookup .rust ch'.rust :=
    sayCollection_same (h .rust) (fun e he => hd.dirs .rust e he) (fun e d i he => hd.files .rust e d i he)
  unfold sayLint
  rw [h1, h2]

/-! ## Blame -/

theorem lintString_ne_err {L : AdvLib} {text : Str} {draft : Option Bool} {a : AdvisoryFile} {parts : Parts} {t : TomlTable}
    (ha : AdvisoryFile.fromStr L text = .ok a) (hp : Parts.parse text = .ok parts) (ht : L.toml parts.frontMatter = some t) :
    lintString L text draft ≠ .err := by
  unfold lintString
  rw [ha, Outcome.bind_ok, hp, Outcome.bind_ok, ht]
  show (Lint.lintAdvisory a draft t >>= _) ≠ _
  have : Lint.lintAdvisory a draft t ≠ .err := concatMap_ne_err _ fun x _ => lintTopKey_ne_err a draft x
  cases h : Lint.lintAdvisory a draft t with
  | ok fs => intro e; cases e
  | err => exact absurd h this
  | panic => intro e; cases e

theorem lintItem_blame {E : LintEnv} {lookup : Str → Lookup} {ch : Checkout} {c : Collection} {dir : Str} {entries : List Entry}
    {items : List Item} (hl : ch.listing c = some entries) (he : .dir dir items ∈ entries) {i : Item} (hi : i ∈ items) {b : Blame}
    (h : lintItem E.adv c dir i = .inr (.stopped b)) : Blamed E lookup ch b := by
  unfold lintItem at h
  cases i with
  | other n => cases h; exact .strayEntry (p := ⟨c, dir, n⟩) hl he hi
  | file name text =>
    cases text with
    | none => cases h; exact .unreadable (p := ⟨c, dir, name⟩) hl he hi
    | some text =>
      have hfile : FileAt ch ⟨c, dir, name⟩ text := ⟨entries, items, hl, he, hi⟩
      dsimp only at h
      cases hf : AdvisoryFile.fromStr E.adv text with
      | panic => rw [hf] at h; cases h
      | err =>
        rw [hf] at h
        cases h
        refine .rejected hfile ?_
        rintro ⟨-, errors, a, parts, t, ha, -⟩
        rw [(C68_parsed_iff _ _ _).mpr ha] at hf
        cases hf
      | ok a =>
        rw [hf] at h
        dsimp only at h
        cases hlf : lintFile E.adv name (some text) with
        | panic => rw [hlf] at h; cases h
        | ok q => rw [hlf] at h; cases h
        | err =>
          rw [hlf] at h
          cases h
          refine .rejected hfile ?_
          rintro ⟨hmd, errors, a', parts, t, ha, hp, ht, -⟩
          unfold lintFile at hlf
          rw [if_neg (by simpa using (extension_md name).mpr hmd)] at hlf
          exact lintString_ne_err ((C68_parsed_iff _ _ _).mpr ha) ((C22_parse_iff _ _).mpr hp) ht hlf

theorem sayItems_blame {E : LintEnv} {v : Bool} {lookup : Str → Lookup} {ch : Checkout} {c : Collection} {dir : Str}
    {entries : List Entry} {items : List Item} (hl : ch.listing c = some entries) (he : .dir dir items ∈ entries)
    {is : List Item} (hi : ∀ i ∈ is, i ∈ items) {b : Blame} (h : (sayItems E.adv v c dir is).2 = .inr (.stopped b)) :
    Blamed E lookup ch b := by
  induction is with
  | nil => cases h
  | cons i is ih =>
    rw [sayItems] at h
    cases hx : lintItem E.adv c dir i with
    | inr e =>
      rw [hx] at h
      cases h
      exact lintItem_blame hl he (hi i (by simp)) hx
    | inl q =>
      obtain ⟨a, fs⟩ := q
      rw [hx] at h
      dsimp only at h
      cases hr : (sayItems E.adv v c dir is).2 with
      | inl bs => rw [hr] at h; cases h
      | inr e =>
        rw [hr] at h
        cases h
        exact ih (fun j hj => hi j (by simp [hj])) hr

theorem sayItems_from {L : AdvLib} {v : Bool} {c : Collection} {dir : Str} {is : List Item} {as : List (AdvisoryFile × Bool)}
    (h : (sayItems L v c dir is).2 = .inl as) :
    ∀ x ∈ as, ∃ name text, .file name (some text) ∈ is ∧ AdvisoryOf L text x.1 := by
  induction is generalizing as with
  | nil => cases h; intro x hx; cases hx
  | cons i is ih =>
    rw [sayItems] at h
    cases hi : lintItem L c dir i with
    | inr e => rw [hi] at h; cases h
    | inl q =>
      obtain ⟨a, fs⟩ := q
      rw [hi] at h
      dsimp only at h
      cases hr : (sayItems L v c dir is).2 with
      | inr e => rw [hr] at h; cases h
      | inl bs =>
        rw [hr] at h
        cases h
        obtain ⟨name, text, rfl, ha, -⟩ := lintItem_ok hi
        intro x hx
        rcases List.mem_cons.mp hx with rfl | hx
        · exact ⟨name, text, by simp, ha⟩
        · obtain ⟨n, t, h1, h2⟩ := ih hr x hx
          exact ⟨n, t, List.mem_cons_of_mem _ h1, h2⟩

theorem sayEntries_from {L : AdvLib} {v : Bool} {c : Collection} {es : List Entry} {as : List (AdvisoryFile × Bool)}
    (h : (sayEntries L v c es).2 = .inl as) :
    ∀ x ∈ as, ∃ dir items name text, .dir dir items ∈ es ∧ .file name (some text) ∈ items ∧ AdvisoryOf L text x.1 := by
  induction es generalizing as with
  | nil => cases h; intro x hx; cases hx
  | cons e es ih =>
    cases e with
    | other n => cases h
    | dir dir items =>
      rw [sayEntries] at h
      dsimp only at h
      cases hr : (sayItems L v c dir (sortedBy Item.name items)).2 with
      | inr e => rw [hr] at h; cases h
      | inl bs =>
        rw [hr] at h
        dsimp only at h
        cases hq : (sayEntries L v c es).2 with
        | inr e => rw [hq] at h; cases h
        | inl cs =>
          rw [hq] at h
          cases h
          intro x hx
          rcases List.mem_append.mp hx with hx | hx
          · obtain ⟨n, t, h1, h2⟩ := sayItems_from hr x hx
            exact ⟨dir, items, n, t, by simp, (mem_sortedBy _ _ _).mp h1, h2⟩
          · obtain ⟨d, i, n, t, h1, h2⟩ := ih hq x hx
            exact ⟨d, i, n, t, List.mem_cons_of_mem _ h1, h2⟩

theorem sayEntries_blame {E : LintEnv} {v : Bool} {lookup : Str → Lookup} {ch : Checkout} {c : Collection}
    {entries : List Entry} (hl : ch.listing c = some entries) {es : List Entry} (hs : ∀ e ∈ es, e ∈ entries) {b : Blame}
    (h : (sayEntries E.adv v c es).2 = .inr (.stopped b)) : Blamed E lookup ch b := by
  induction es with
  | nil => cases h
  | cons e es ih =>
    cases e with
    | other n => cases h; exact .strayFile hl (hs _ (by simp))
    | dir dir items =>
      rw [sayEntries] at h
      dsimp only at h
      cases hr : (sayItems E.adv v c dir (sortedBy Item.name items)).2 with
      | inr e =>
        rw [hr] at h
        cases h
        exact sayItems_blame hl (hs _ (by simp)) (fun i hi => (mem_sortedBy _ _ _).mp hi) hr
      | inl bs =>
        rw [hr] at h
        dsimp only at h
        cases hq : (sayEntries E.adv v c es).2 with
        | inl cs => rw [hq] at h; cases h
        | inr e =>
          rw [hq] at h
          cases h
          exact ih (fun j hj => hs j (by simp [hj])) hq

theorem blameNames_some {lookup : Str → Lookup} {as : List AdvisoryFile} {b : Blame} (h : blameNames lookup as = some b) :
    ∃ a ∈ as, a.metadata.expectDeleted = false ∧
      ((∃ n, lookup a.metadata.package = .found n ∧ n ≠ a.metadata.package ∧ b = .otherName a.metadata.package a.metadata.id) ∨
       (lookup a.metadata.package = .missing ∧ b = .noCrate a.metadata.package a.metadata.id) ∨
       (lookup a.metadata.package = .failed ∧ b = .noAnswer a.metadata.package a.metadata.id)) := by
  induction as with
  | nil => cases h
  | cons a as ih =>
    rw [blameNames] at h
    have later : ∀ {Q : AdvisoryFile → Prop}, (∃ x ∈ as, Q x) → ∃ x ∈ a :: as, Q x :=
      fun ⟨x, hx, r⟩ => ⟨x, List.mem_cons_of_mem _ hx, r⟩
    by_cases hd : a.metadata.expectDeleted = true
    · rw [if_pos hd] at h; exact later (ih h)
    · rw [if_neg hd] at h
      have hd' : a.metadata.expectDeleted = false := by simpa using hd
      cases hl : lookup a.metadata.package with
      | failed => rw [hl] at h; cases h; exact ⟨a, by simp, hd', .inr (.inr ⟨hl, rfl⟩)⟩
      | missing => rw [hl] at h; cases h; exact ⟨a, by simp, hd', .inr (.inl ⟨hl, rfl⟩)⟩
      | found n =>
        rw [hl] at h
        dsimp only at h
        by_cases hn : n ≠ a.metadata.package
        · rw [if_pos hn] at h; cases h; exact ⟨a, by simp, hd', .inl ⟨n, hl, hn, rfl⟩⟩
        · rw [if_neg hn] at h; exact later (ih h)

theorem sayCollection_blame {E : LintEnv} {v : Bool} {lookup : Str → Lookup} {ch : Checkout} {c : Collection} {b : Blame}
    (h : (sayCollection E v lookup c (ch.listing c)).2 = .inr (.stopped b)) : Blamed E lookup ch b := by
  unfold sayCollection at h
  cases hl : ch.listing c with
  | none => rw [hl] at h; cases h; exact .unlisted hl
  | some entries =>
    rw [hl] at h
    dsimp only at h
    cases hr : (sayEntries E.adv v c (sortedBy Entry.name entries)).2 with
    | inr e =>
      rw [hr] at h
      cases h
      exact sayEntries_blame hl (fun e he => (mem_sortedBy _ _ _).mp he) hr
    | inl as =>
      rw [hr] at h
      dsimp only at h
      by_cases hc : c = .crates ∧ E.lockFree = true
      · rw [if_pos hc] at h
        cases hb : blameNames lookup (as.map Prod.fst) with
        | none => rw [hb] at h; cases h
        | some b' =>
          rw [hb] at h
          cases h
          obtain ⟨a, ha, hd, hcase⟩ := blameNames_some hb
          obtain ⟨x, hx, rfl⟩ := List.mem_map.mp ha
          obtain ⟨dir, items, name, text, h1, h2, h3⟩ := sayEntries_from hr x hx
          have hfile : FileAt ch ⟨c, dir, name⟩ text := ⟨entries, items, hl, (mem_sortedBy _ _ _).mp h1, h2⟩
          rcases hcase with ⟨n, e1, e2, rfl⟩ | ⟨e1, rfl⟩ | ⟨e1, rfl⟩
          · exact .otherName hfile hc.1 h3 hd e1 e2
          · exact .noCrate hfile hc.1 h3 hd e1
          · exact .noAnswer hfile hc.1 h3 hd e1
      · rw [if_neg hc] at h; cases h

/-- **Property C95** (blame): if the run is given up, there is the reason that is named. -/
theorem C95_blame (E : LintEnv) (verbose : Bool) (lookup : Str → Lookup) (ch : Checkout) (b : Blame)
    (h : (sayLint E verbose lookup ch).2 = .halted (.stopped b)) : Blamed E lookup ch b := by
  unfold sayLint at h
  dsimp only at h
  cases hr : (sayCollection E verbose lookup .crates ch.crates).2 with
  | inr e =>
    rw [hr] at h
    cases h
    exact sayCollection_blame (c := .crates) hr
  | inl k =>
    rw [hr] at h
    dsimp only at h
    cases hq : (sayCollection E verbose lookup .rust ch.rust).2 with
    | inl m => rw [hq] at h; cases h
    | inr e =>
      rw [hq] at h
      cases h
      exact sayCollection_blame (c := .rust) hq

end Verif.Props
