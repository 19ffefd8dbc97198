import Verif.Spec.AdminLint
import Verif.Props.AdvisoryDecode
import Verif.Props.LinterGate
import Verif.Props.SyncRun
import Verif.Props.Assigner

/-!
# C69: `rustsec-admin lint`
-/

namespace Verif.Props

open Verif.Adv Verif.Db Verif.Assign Verif.Lint Verif.AdminLint Verif.Spec

/-! ### One file -/

theorem extension_md (name : Str) : extension name = some "md".toList ↔ MdName name := by
  unfold extension MdName
  have hj := joinC_splitC '.' name.reverse
  constructor
  · intro h
    split at h
    · cases h
    · cases h
    · cases h
    · rename_i ext rest h1 h2 he
      have hext : ext = ['d', 'm'] := by
        have := congrArg List.reverse (Option.some.inj h)
        rw [List.reverse_reverse] at this
        rw [this]; decide
      rw [he, hext] at hj
      cases rest with
      | nil => exact absurd rfl h1
      | cons x xs =>
        have hne : joinC '.' (x :: xs) ≠ [] := by
          intro e
          cases xs with
          | nil =>
            have : x = [] := e
            exact h2 (by rw [this])
          | cons y ys =>
            have : x ++ '.' :: joinC '.' (y :: ys) = [] := e
            simp at this
        refine ⟨(joinC '.' (x :: xs)).reverse, by simpa using hne, ?_⟩
        have e : ['d', 'm'] ++ '.' :: joinC '.' (x :: xs) = name.reverse := hj
        have := congrArg List.reverse e
        rw [List.reverse_reverse] at this
        rw [← this]
        simp
  · rintro ⟨stem, hs, rfl⟩
    have e : (stem ++ ".md".toList).reverse = ['d', 'm'] ++ '.' :: stem.reverse := by simp
    rw [e, splitC_append (by decide)]
    have hne : splitC '.' stem.reverse ≠ [[]] := by
      intro h
      have := joinC_splitC '.' stem.reverse
      rw [h] at this
      have e : ([] : Str) = stem.reverse := this
      exact hs (List.reverse_eq_nil_iff.mp e.symm)
    have hn := splitC_ne_nil '.' stem.reverse
    cases hsp : splitC '.' stem.reverse with
    | nil => exact absurd hsp hn
    | cons x xs =>
      rw [hsp] at hne
      cases x with
      | nil =>
        cases xs with
        | nil => exact absurd rfl hne
        | cons y ys => rfl
      | cons c cs => rfl

theorem lintDraftName_iff (name : Str) : Adv.isDraft name = decide (DraftName name) := by
  unfold Adv.isDraft startsWith
  rw [Bool.eq_iff_iff, decide_eq_true_eq]
  exact List.isPrefixOf_iff_prefix

/-- A document without the header is never clean. -/
theorem clean_has_header {L : AdvLib} (hl : HeaderLaw L.toml) {s : Str} {draft : Option Bool} {a : AdvisoryFile}
    (h : lintString L s draft = .ok (a, [])) {parts : Parts} (hp : Parts.parse s = .ok parts) :
    "[advisory]".toList <+: parts.frontMatter := by
  by_contra hn
  obtain ⟨parts', t, hp', ht, hf, -, -⟩ := C24_findings_exact L s draft a [] h
  rw [hp] at hp'; cases hp'
  obtain ⟨parts', t', m, md, v, hp', ht', hm, hd, -⟩ := fromStr_inv hf
  rw [hp] at hp'; cases hp'
  have e : withHeader parts.frontMatter = "[advisory]\n".toList ++ parts.frontMatter :=
    (withHeader_iff _ _).mpr (.inr ⟨hn, rfl⟩)
  rw [e] at ht'
  obtain ⟨x, hx, -⟩ := ((metadata_iff L m md).mp hd).1.id
  have hk := hl _ _ _ _ hn ht ht' hm "id" x hx
  have := C24_headerless_never_clean L s draft a [] parts t h hp ht "id" (by decide) hk
  cases this

/-- The linter is content with a file exactly if it is clean. -/
theorem lintFile_clean (L : AdvLib) (hd : DistinctKeys L.toml) (hl : HeaderLaw L.toml) (name text : Str)
    (a : AdvisoryFile) : lintFile L name (some text) = .ok (a, []) ↔ CleanFile L name text a := by
  unfold lintFile
  rw [lintDraftName_iff]
  by_cases he : extension name = some "md".toList
  · rw [if_neg (by simp [he])]
    dsimp only
    constructor
    · intro h
      obtain ⟨parts, t, hp, ht, hf, -, hex⟩ := C24_findings_exact L text _ a [] h
      have hh := clean_has_header hl h hp
      obtain ⟨rest, hrest⟩ := hh
      refine ⟨(extension_md name).mp he, (C68_parsed_iff _ _ _).mp hf,
        ⟨parts, t, (C22_parse_iff _ _).mp hp, ⟨rest, hrest⟩, ht, hex.mp rfl⟩, fun hy => ?_⟩
      have := (C24_panics_iff L text (some (decide (DraftName name))) parts rest hd hp hrest.symm).mpr
        (.inr ⟨a, hf, hy⟩)
      rw [h] at this
      cases this
    · rintro ⟨-, hf, ⟨parts, t, hp, ⟨rest, hrest⟩, ht, hno⟩, hy⟩
      have hf' := (C68_parsed_iff _ _ _).mpr hf
      have hp' := (C22_parse_iff _ _).mpr hp
      obtain ⟨fs, hfs⟩ := C24_returns L text (some (decide (DraftName name))) a parts rest hf' hp' hd hrest.symm hy
      obtain ⟨parts2, t2, hp2, ht2, -, -, hex⟩ := C24_findings_exact L text _ a fs hfs
      rw [hp'] at hp2; cases hp2
      rw [ht] at ht2; cases ht2
      rw [hfs, hex.mpr hno]
  · rw [if_pos he]
    constructor
    · intro h; cases h
    · intro h; exact absurd ((extension_md name).mpr h.md) he

theorem lintAdvisory_ok {L : AdvLib} {i : Item} {p : AdvisoryFile × Bool} (h : AdminLint.lintAdvisory L i = .ok p) :
    ∃ name text fs, i = .file name (some text) ∧ AdvisoryFile.fromStr L text = .ok p.1 ∧
      lintFile L name (some text) = .ok (p.1, fs) ∧ p.2 = !fs.isEmpty := by
  cases i with
  | other n => cases h
  | file name text =>
    cases text with
    | none => cases h
    | some text =>
      unfold AdminLint.lintAdvisory at h
      dsimp only at h
      cases hf : AdvisoryFile.fromStr L text with
      | err => rw [hf] at h; cases h
      | panic => rw [hf] at h; cases h
      | ok a =>
        rw [hf] at h
        dsimp only at h
        cases hl : lintFile L name (some text) with
        | err => rw [hl] at h; cases h
        | panic => rw [hl] at h; cases h
        | ok q =>
          rw [hl] at h
          cases h
          have : q.1 = a := by
            have hl' := hl
            unfold lintFile at hl'
            split at hl'
            · cases hl'
            · obtain ⟨parts, t, -, -, hf', -⟩ := C24_findings_exact L text _ q.1 q.2 hl'
              rw [hf] at hf'
              exact (Outcome.ok.inj hf').symm
          refine ⟨name, text, q.2, rfl, hf, ?_, rfl⟩
          rw [hl, ← this]

theorem lintAdvisory_clean (L : AdvLib) (hd : DistinctKeys L.toml) (hl : HeaderLaw L.toml) (i : Item)
    (a : AdvisoryFile) : AdminLint.lintAdvisory L i = .ok (a, false) ↔
      ∃ name text, i = .file name (some text) ∧ CleanFile L name text a := by
  constructor
  · intro h
    obtain ⟨name, text, fs, rfl, -, h2, h3⟩ := lintAdvisory_ok h
    have : fs = [] := by cases fs with | nil => rfl | cons _ _ => cases h3
    rw [this] at h2
    exact ⟨name, text, rfl, (lintFile_clean L hd hl _ _ _).mp h2⟩
  · rintro ⟨name, text, rfl, hc⟩
    have h := (lintFile_clean L hd hl _ _ _).mpr hc
    unfold AdminLint.lintAdvisory
    dsimp only
    rw [(C68_parsed_iff _ _ _).mpr hc.parsed, h]
    rfl

/-! ### One collection -/

theorem mem_sortedBy {α : Type} (name : α → Str) (l : List α) (x : α) : x ∈ sortedBy name l ↔ x ∈ l :=
  (List.perm_insertionSort _ l).mem_iff

theorem checkNames_ok (lookup : Str → Lookup) (as : List AdvisoryFile) :
    checkNames lookup as = .ok () ↔ ∀ a ∈ as, a.metadata.expectDeleted = false →
      lookup a.metadata.package = .found a.metadata.package := by
  induction as with
  | nil => simp [checkNames]
  | cons a as ih =>
    have h1 : checkName lookup a = .ok () ↔ (a.metadata.expectDeleted = false →
        lookup a.metadata.package = .found a.metadata.package) := by
      unfold checkName
      cases a.metadata.expectDeleted with
      | true => simp
      | false =>
        cases hk : lookup a.metadata.package with
        | failed => simp
        | missing => simp
        | found n => by_cases e : n = a.metadata.package <;> simp [e]
    unfold checkNames
    cases hc : checkName lookup a with
    | ok u =>
      have h1' := h1.mp hc
      dsimp only
      rw [ih, List.forall_mem_cons]
      exact ⟨fun h => ⟨h1', h⟩, fun h => h.2⟩
    | err =>
      have : ¬ (a.metadata.expectDeleted = false → lookup a.metadata.package = .found a.metadata.package) := by
        rw [← h1, hc]; simp
      simp only [reduceCtorEq, false_iff]
      exact fun h => this (h a List.mem_cons_self)
    | panic =>
      have : ¬ (a.metadata.expectDeleted = false → lookup a.metadata.package = .found a.metadata.package) := by
        rw [← h1, hc]; simp
      simp only [reduceCtorEq, false_iff]
      exact fun h => this (h a List.mem_cons_self)

theorem lintEntry_ok {L : AdvLib} {e : Entry} {r : List (AdvisoryFile × Bool)} (h : lintEntry L e = .ok r) :
    ∃ dir items, e = .dir dir items ∧
      (∀ p, p ∈ r ↔ ∃ i ∈ items, AdminLint.lintAdvisory L i = .ok p) ∧
      ∀ i ∈ items, ∃ p, AdminLint.lintAdvisory L i = .ok p := by
  cases e with
  | other n => cases h
  | dir d items =>
    have h' : Outcome.mapList (AdminLint.lintAdvisory L) (sortedBy Item.name items) = .ok r := h
    refine ⟨d, items, rfl, fun p => ?_, fun i hi => ?_⟩
    · rw [mem_mapList h']
      simp only [mem_sortedBy]
    · exact (mapList_total _).mp ⟨r, h'⟩ i ((mem_sortedBy _ _ _).mpr hi)

theorem lintCollection_clean (E : LintEnv) (hd : DistinctKeys E.adv.toml) (hl : HeaderLaw E.adv.toml)
    (lookup : Str → Lookup) (c : Collection) (listing : Option (List Entry)) :
    lintCollection E lookup c listing = .ok 0 ↔ ∃ entries, listing = some entries ∧ Tidy entries ∧
      (∀ e ∈ entries, ∀ name text, FileIn e name (some text) → ∃ a, CleanFile E.adv name text a) ∧
      (c = .crates → E.lockFree = true → ∀ e ∈ entries, ∀ name text a, FileIn e name (some text) →
        AdvisoryOf E.adv text a → a.metadata.expectDeleted = false →
        lookup a.metadata.package = .found a.metadata.package) := by
  cases listing with
  | none => simp [lintCollection]
  | some entries =>
    simp only [Option.some.injEq, exists_eq_left']
    -- the advisories of a successful pass
    have hmem : ∀ rs, Outcome.mapList (lintEntry E.adv) (sortedBy Entry.name entries) = .ok rs →
        (∀ p, p ∈ rs.flatten ↔ ∃ e ∈ entries, ∃ d items, e = .dir d items ∧ ∃ i ∈ items,
          AdminLint.lintAdvisory E.adv i = .ok p) ∧
        ∀ e ∈ entries, ∃ d items, e = .dir d items ∧ ∀ i ∈ items, ∃ p, AdminLint.lintAdvisory E.adv i = .ok p := by
      intro rs hrs
      constructor
      · intro p
        rw [List.mem_flatten]
        constructor
        · rintro ⟨r, hr, hp⟩
          obtain ⟨e, he, her⟩ := (mem_mapList hrs r).mp hr
          obtain ⟨d, items, rfl, h1, -⟩ := lintEntry_ok her
          obtain ⟨i, hi, hip⟩ := (h1 p).mp hp
          exact ⟨_, (mem_sortedBy _ _ _).mp he, d, items, rfl, i, hi, hip⟩
        · rintro ⟨e, he, d, items, rfl, i, hi, hip⟩
          obtain ⟨r, hr⟩ := (mapList_total _).mp ⟨rs, hrs⟩ _ ((mem_sortedBy Entry.name _ _).mpr he)
          obtain ⟨d', items', he', h1, -⟩ := lintEntry_ok hr
          cases he'
          exact ⟨r, (mem_mapList hrs r).mpr ⟨_, (mem_sortedBy _ _ _).mpr he, hr⟩, (h1 p).mpr ⟨i, hi, hip⟩⟩
      · intro e he
        obtain ⟨r, hr⟩ := (mapList_total _).mp ⟨rs, hrs⟩ _ ((mem_sortedBy Entry.name _ _).mpr he)
        obtain ⟨d, items, rfl, -, h2⟩ := lintEntry_ok hr
        exact ⟨d, items, rfl, h2⟩
    constructor
    · intro h
      unfold lintCollection at h
      dsimp only at h
      cases hrs : Outcome.mapList (lintEntry E.adv) (sortedBy Entry.name entries) with
      | err => rw [hrs] at h; cases h
      | panic => rw [hrs] at h; cases h
      | ok rs =>
        rw [hrs] at h
        dsimp only at h
        obtain ⟨m1, m2⟩ := hmem rs hrs
        have hok : (if c = .crates then cratesIoLints E lookup (rs.flatten.map Prod.fst) else .ok ()) = .ok () ∧
            rs.flatten.countP Prod.snd = 0 := by
          split at h
          · cases h
          · cases h
          · rename_i hx; exact ⟨hx, Outcome.ok.inj h⟩
        have hfalse : ∀ p ∈ rs.flatten, p.2 = false := by
          intro p hp
          have := List.countP_eq_zero.mp hok.2 p hp
          simpa using this
        refine ⟨fun e he => ?_, fun e he name text hfi => ?_, fun hc hlk e he name text a hfi ha hx => ?_⟩
        · obtain ⟨d, items, rfl, hi⟩ := m2 e he
          refine ⟨d, items, rfl, fun i hmi => ?_⟩
          obtain ⟨p, hp⟩ := hi i hmi
          obtain ⟨name, text, fs, hi', -⟩ := lintAdvisory_ok hp
          exact ⟨name, text, hi'⟩
        · obtain ⟨d, items, rfl, hmi⟩ := hfi
          obtain ⟨d', items', he', hi⟩ := m2 _ he
          cases he'
          obtain ⟨p, hp⟩ := hi _ hmi
          have hpf := hfalse p ((m1 p).mpr ⟨_, he, d, items, rfl, _, hmi, hp⟩)
          have : p = (p.1, false) := by rw [← hpf]
          rw [this] at hp
          obtain ⟨n2, t2, he2, hc2⟩ := (lintAdvisory_clean E.adv hd hl _ _).mp hp
          cases he2
          exact ⟨p.1, hc2⟩
        · obtain ⟨d, items, rfl, hmi⟩ := hfi
          obtain ⟨d', items', he', hi⟩ := m2 _ he
          cases he'
          obtain ⟨p, hp⟩ := hi _ hmi
          obtain ⟨n2, t2, fs, he2, hf2, -⟩ := lintAdvisory_ok hp
          cases he2
          have ha' := (C68_parsed_iff _ _ _).mpr ha
          rw [ha'] at hf2
          cases hf2
          have hmem' : p.1 ∈ rs.flatten.map Prod.fst :=
            List.mem_map.mpr ⟨p, (m1 p).mpr ⟨_, he, d, items, rfl, _, hmi, hp⟩, rfl⟩
          have h1 := hok.1
          rw [if_pos hc] at h1
          unfold cratesIoLints at h1
          rw [if_pos hlk] at h1
          exact (checkNames_ok lookup _).mp h1 _ hmem' hx
    · rintro ⟨htidy, hclean, hnames⟩
      have hitem : ∀ e ∈ entries, ∃ d items, e = .dir d items ∧ ∀ i ∈ items, ∃ a,
          AdminLint.lintAdvisory E.adv i = .ok (a, false) := by
        intro e he
        obtain ⟨d, items, rfl, hi⟩ := htidy e he
        refine ⟨d, items, rfl, fun i hmi => ?_⟩
        obtain ⟨name, text, rfl⟩ := hi i hmi
        obtain ⟨a, ha⟩ := hclean _ he name text ⟨d, items, rfl, hmi⟩
        exact ⟨a, (lintAdvisory_clean E.adv hd hl _ _).mpr ⟨name, text, rfl, ha⟩⟩
      have htot : ∃ rs, Outcome.mapList (lintEntry E.adv) (sortedBy Entry.name entries) = .ok rs := by
        rw [mapList_total]
        intro e he
        obtain ⟨d, items, rfl, hi⟩ := hitem e ((mem_sortedBy _ _ _).mp he)
        show ∃ y, Outcome.mapList (AdminLint.lintAdvisory E.adv) (sortedBy Item.name items) = .ok y
        rw [mapList_total]
        intro i hmi
        obtain ⟨a, ha⟩ := hi i ((mem_sortedBy _ _ _).mp hmi)
        exact ⟨_, ha⟩
      obtain ⟨rs, hrs⟩ := htot
      obtain ⟨m1, m2⟩ := hmem rs hrs
      have hcount : rs.flatten.countP Prod.snd = 0 := by
        rw [List.countP_eq_zero]
        intro p hp
        obtain ⟨e, he, d, items, rfl, i, hmi, hip⟩ := (m1 p).mp hp
        obtain ⟨d', items', he', hi⟩ := hitem _ he
        cases he'
        obtain ⟨a, ha⟩ := hi i hmi
        rw [hip] at ha
        cases ha
        simp
      have hn : (if c = .crates then cratesIoLints E lookup (rs.flatten.map Prod.fst) else .ok ()) = .ok () := by
        by_cases hc : c = .crates
        · rw [if_pos hc]
          unfold cratesIoLints
          by_cases hlk : E.lockFree = true
          · rw [if_pos hlk, checkNames_ok]
            intro a ha hx
            obtain ⟨p, hp, rfl⟩ := List.mem_map.mp ha
            obtain ⟨e, he, d, items, rfl, i, hmi, hip⟩ := (m1 p).mp hp
            obtain ⟨name, text, fs, rfl, hf, -⟩ := lintAdvisory_ok hip
            exact hnames hc hlk _ he name text p.1 ⟨d, items, rfl, hmi⟩ ((C68_parsed_iff _ _ _).mp hf) hx
          · rw [if_neg hlk]
        · rw [if_neg hc]
      unfold lintCollection
      dsimp only
      rw [hrs]
      dsimp only
      rw [hn, hcount]

/-! ### The command -/

theorem lint_zero (E : LintEnv) (lookup : Str → Lookup) (c : Checkout) :
    lint E lookup c = .ok 0 ↔
      lintCollection E lookup .crates c.crates = .ok 0 ∧ lintCollection E lookup .rust c.rust = .ok 0 := by
  unfold lint
  cases lintCollection E lookup .crates c.crates with
  | err => simp
  | panic => simp
  | ok n =>
    cases lintCollection E lookup .rust c.rust with
    | err => simp
    | panic => simp
    | ok m => simp [Nat.add_eq_zero_iff]

/-- **C69.**  `rustsec-admin lint` exits with status 0 exactly if at most one path is given, the index can be opened,
and the checkout at that path (by default the current directory) passes. -/
theorem C69_exit_zero_iff (E : LintEnv) (hd : DistinctKeys E.adv.toml) (hl : HeaderLaw E.adv.toml)
    (at_ : Str → Checkout) (paths : List Str) :
    lintCommand E at_ paths = .ok () ↔ ∃ path lookup, (paths = [] ∧ path = ".".toList ∨ paths = [path]) ∧
      E.index = some lookup ∧ LintPasses E lookup (at_ path) := by
  have main : ∀ c : Checkout,
      ((match Database.open (c.tree E.adv E.sev) with
        | .err => (.err : Outcome Unit)
        | .panic => .panic
        | .ok db =>
          match E.index with
          | none => .err
          | some lookup =>
            if db.iter.isEmpty then .err
            else
              match lint E lookup c with
              | .err => .err
              | .panic => .panic
              | .ok n => if n = 0 then .ok () else .err) = .ok ()) ↔
        ∃ lookup, E.index = some lookup ∧ LintPasses E lookup c := by
    intro c
    have hpass : ∀ lookup, LintPasses E lookup c ↔
        (∃ db, Database.open (c.tree E.adv E.sev) = .ok db ∧ db.iter ≠ []) ∧ lint E lookup c = .ok 0 := by
      intro lookup
      rw [lint_zero, lintCollection_clean E hd hl, lintCollection_clean E hd hl]
      constructor
      · rintro ⟨h1, h2, h3, h4⟩
        refine ⟨h1, ?_, ?_⟩
        · obtain ⟨es, e1, e2⟩ := h2 .crates
          have e1' : c.crates = some es := e1
          exact ⟨es, e1', e2, h3 .crates es e1, fun _ hlk => h4 hlk es e1'⟩
        · obtain ⟨es, e1, e2⟩ := h2 .rust
          exact ⟨es, e1, e2, h3 .rust es e1, fun hc => by cases hc⟩
      · rintro ⟨h1, ⟨es, e1, e2, e3, e4⟩, fs, f1, f2, f3, -⟩
        refine ⟨h1, fun col => ?_, fun col entries he => ?_, fun hlk entries he => ?_⟩
        · cases col
          · exact ⟨es, e1, e2⟩
          · exact ⟨fs, f1, f2⟩
        · cases col
          · have : c.crates = some entries := he
            rw [e1] at this; cases this
            exact e3
          · have : c.rust = some entries := he
            rw [f1] at this; cases this
            exact f3
        · rw [e1] at he; cases he
          exact e4 rfl hlk
    simp only [hpass]
    cases ho : Database.open (c.tree E.adv E.sev) with
    | err => simp
    | panic => simp
    | ok db =>
      cases hi : E.index with
      | none => simp
      | some lookup =>
        simp only [Outcome.ok.injEq, exists_eq_left', Option.some.injEq]
        by_cases hdb : db.iter = []
        · simp [hdb]
        · rw [if_neg (by simpa using hdb)]
          cases hL : lint E lookup c with
          | err => simp
          | panic => simp
          | ok n => by_cases hn : n = 0 <;> simp [hn, hdb]
  match paths with
  | [] =>
    refine (main (at_ ".".toList)).trans ?_
    constructor
    · rintro ⟨lookup, h1, h2⟩
      exact ⟨".".toList, lookup, .inl ⟨rfl, rfl⟩, h1, h2⟩
    · rintro ⟨path, lookup, ⟨-, rfl⟩ | h, h1, h2⟩
      · exact ⟨lookup, h1, h2⟩
      · cases h
  | [p] =>
    refine (main (at_ p)).trans ?_
    constructor
    · rintro ⟨lookup, h1, h2⟩
      exact ⟨p, lookup, .inr rfl, h1, h2⟩
    · rintro ⟨path, lookup, ⟨h, -⟩ | h, h1, h2⟩
      · cases h
      · cases h; exact ⟨lookup, h1, h2⟩
  | p :: q :: r =>
    constructor
    · intro h; cases h
    · rintro ⟨path, lookup, ⟨h, -⟩ | h, -⟩ <;> cases h

/-- **C69, violation.**  Two paths make the command panic. -/
theorem C69_two_paths_panic (E : LintEnv) (at_ : Str → Checkout) (p q : Str) (r : List Str) :
    lintCommand E at_ (p :: q :: r) = .panic := rfl

/-! ### What a passing checkout vouches for -/

/-- A loaded advisory comes from a file of the checkout. -/
theorem loaded_from_file {L : AdvLib} {sev : Cvss.Cvss → Severity} {c : Checkout} {db : Database}
    (ho : Database.open (c.tree L sev) = .ok db) {a : Advisory} (ha : a ∈ db.iter) :
    ∃ col entries e name text af, c.listing col = some entries ∧ e ∈ entries ∧ FileIn e name (some text) ∧
      AdvisoryFile.fromStr L text = .ok af ∧ a = stored col (toAdvisory sev af) := by
  obtain ⟨col, dir, f, a0, ⟨listing, files, hl, hdir, hf, -⟩, hw, rfl, -⟩ := C18_loaded_well_placed _ db ho a ha
  have hl' : (c.listing col).map (List.map (Entry.toDir L sev)) = some listing := by cases col <;> exact hl
  obtain ⟨entries, he, rfl⟩ := Option.map_eq_some_iff.mp hl'
  obtain ⟨e, hem, hed⟩ := List.mem_map.mp hdir
  cases e with
  | other n => cases hed
  | dir d items =>
    cases hed
    obtain ⟨i, hi, rfl⟩ := List.mem_map.mp hf
    have hc := hw.1
    cases i with
    | other n => cases hc
    | file name text =>
      cases text with
      | none => cases hc
      | some text =>
        have hc' : loadText L sev text = .ok a0 := hc
        unfold loadText at hc'
        cases hfs : AdvisoryFile.fromStr L text with
        | err => rw [hfs] at hc'; cases hc'
        | panic => rw [hfs] at hc'; cases hc'
        | ok af =>
          rw [hfs] at hc'
          exact ⟨col, entries, _, name, text, af, he, hem, ⟨_, items, rfl, hi⟩, hfs, by rw [← Outcome.ok.inj hc']⟩

/-- **C69.**  After a successful `rustsec-admin lint` the database opens, its IDs are unique and of known kinds, their
years are those of the dates, informational advisories are of known kinds, and, if cargo's lock was free, every crate
exists on crates.io under the name given, or its advisory says that it is expected to be deleted. -/
theorem C69_vouches (E : LintEnv) (hd : DistinctKeys E.adv.toml) (hl : HeaderLaw E.adv.toml)
    (at_ : Str → Checkout) (path : Str) (h : lintCommand E at_ [path] = .ok ()) :
    ∃ db, Database.open ((at_ path).tree E.adv E.sev) = .ok db ∧ db.iter ≠ [] ∧
      (db.iter.map fun a => a.metadata.id).Nodup ∧ YearsAgree db ∧
      (∀ a ∈ db.iter, a.metadata.id.kind ≠ .other ∧ ∀ x, a.metadata.informational ≠ some (.other x)) ∧
      (E.lockFree = true → ∃ lookup, E.index = some lookup ∧ ∀ a ∈ db.iter, a.metadata.collection = some .crates →
        lookup a.metadata.package = .found a.metadata.package ∨
        ∃ col entries e name text af, (at_ path).listing col = some entries ∧ e ∈ entries ∧
          FileIn e name (some text) ∧ AdvisoryOf E.adv text af ∧ af.metadata.id = a.metadata.id ∧
          af.metadata.expectDeleted = true) := by
  obtain ⟨path', lookup, hp | hp, hi, hpass⟩ := (C69_exit_zero_iff E hd hl at_ [path]).mp h
  · cases hp.1
  cases hp
  obtain ⟨⟨db, ho, hne⟩, -, hclean, hnames⟩ := hpass
  refine ⟨db, ho, hne, C10_ids_unique _ _ ho, ?_, ?_, fun hlk => ⟨lookup, hi, fun a ha hcol => ?_⟩⟩
  all_goals
    have gate : ∀ a ∈ db.iter, ∃ af col, a = stored col (toAdvisory E.sev af) ∧ af.metadata.id.kind ≠ .other ∧
        (∀ y1 y2, af.metadata.id.kind ≠ .cve → af.metadata.id.year = some y1 → af.metadata.date.year = .ok y2 →
          y1 = y2) ∧ (∀ x, af.metadata.informational ≠ some (.other x)) := by
      intro a ha
      obtain ⟨col, entries, e, name, text, af, hen, he, hfi, hfs, rfl⟩ := loaded_from_file ho ha
      obtain ⟨af', hcf⟩ := hclean col entries hen e he name text hfi
      have hfs' := (C68_parsed_iff _ _ _).mpr hcf.parsed
      rw [hfs] at hfs'; cases hfs'
      have hlf := (lintFile_clean E.adv hd hl _ _ _).mpr hcf
      obtain ⟨parts, t, hwf, ⟨rest, hrest⟩, -⟩ := hcf.clean
      unfold lintFile at hlf
      rw [if_neg (by simp [(extension_md name).mpr hcf.md])] at hlf
      have g := C24_gate E.adv text _ af parts rest hlf ((C22_parse_iff _ _).mpr hwf) hrest.symm
      exact ⟨af, col, rfl, g.2.1, g.2.2.1, g.2.2.2.2.2.1⟩
  · intro a ha hk y1 y2 h1 h2
    obtain ⟨af, col, rfl, -, g, -⟩ := gate a ha
    have hk' : af.metadata.id.kind = .rustSec := hk
    exact g y1 y2 (by rw [hk']; decide) h1 h2
  · intro a ha
    obtain ⟨af, col, rfl, g1, -, g2⟩ := gate a ha
    exact ⟨g1, g2⟩
  · obtain ⟨col, entries, e, name, text, af, hen, he, hfi, hfs, rfl⟩ := loaded_from_file ho ha
    have hc : col = .crates := Option.some.inj hcol
    subst hc
    have hao := (C68_parsed_iff _ _ _).mp hfs
    cases hx : af.metadata.expectDeleted with
    | true => exact .inr ⟨.crates, entries, e, name, text, af, hen, he, hfi, hao, rfl, hx⟩
    | false => exact .inl (hnames hlk entries hen e he name text af hfi hao hx)

/-- A checkout with these files. -/
def checkoutOf (d : Disk) : Checkout :=
  { crates := some ((d.collection .crates).map fun f => .dir f.1.dir [.file f.1.file (some f.2)]),
    rust := some ((d.collection .rust).map fun f => .dir f.1.dir [.file f.1.file (some f.2)]) }

theorem checkoutOf_tree (L : AdvLib) (sev : Cvss.Cvss → Severity) (d : Disk) :
    (checkoutOf d).tree L sev = d.tree L sev := by
  unfold Checkout.tree checkoutOf Disk.tree Disk.entries
  simp only [Option.map_some, List.map_map, Tree.mk.injEq]
  exact ⟨rfl, rfl⟩

/-- **C69 and C51.**  After a successful `rustsec-admin lint`, `rustsec-admin assign-id` gives fresh IDs: the files it
creates have different names `RUSTSEC-<year>-<number>.md`, none of them existed, and no advisory has such an ID. -/
theorem C69_then_assign (E : LintEnv) (hd : DistinctKeys E.adv.toml) (hl : HeaderLaw E.adv.toml) (d : Disk)
    (path : Str) (h : lintCommand E (fun _ => checkoutOf d) [path] = .ok ()) :
    ∃ db, d.open E.adv E.sev = .ok db ∧
    ((created (assignIds E.adv E.sev d).effects).map Path.file).Nodup ∧
    ∀ q ∈ created (assignIds E.adv E.sev d).effects, ∃ id y n, q.file = id ++ ".md".toList ∧ RustSecId id y n ∧
      d.read q = none ∧
      ∀ a ∈ db.iter, a.metadata.id.string ≠ id ∧
        ¬ (a.metadata.id.kind = .rustSec ∧ a.metadata.id.year = some y ∧
          a.metadata.id.numericalPart = some n) := by
  obtain ⟨db, ho, -, -, hy, -⟩ := C69_vouches E hd hl _ path h
  rw [checkoutOf_tree] at ho
  exact ⟨db, ho, C51_fresh E.adv E.sev d db ho hy⟩

end Verif.Props
