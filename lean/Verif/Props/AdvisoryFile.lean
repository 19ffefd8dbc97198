import Verif.Spec.AdvisoryFile
import Verif.Props.Platform
import Verif.Model.Audit
import Mathlib.Tactic.Ring
import Mathlib.Tactic.Tauto

/-!
# Advisory files: splitting, dates, function paths, names (C20–C23)
-/

namespace Verif.Props

open Verif.Adv Verif.Lint Verif.Spec

/-! ## C22: splitting the file -/

theorem isPrefixOf_iff (p s : Str) : p.isPrefixOf s = true ↔ ∃ t, s = p ++ t := by
  rw [List.isPrefixOf_iff_prefix]
  exact ⟨fun ⟨t, h⟩ => ⟨t, h.symm⟩, fun ⟨t, h⟩ => ⟨t, h.symm⟩⟩

theorem findStr_spec (pat : Str) (hp : pat ≠ []) (s : Str) :
    (∀ a b, findStr pat s = some (a, b) → FirstAt pat s a b) ∧
    (findStr pat s = none → ∀ a b, s ≠ a ++ pat ++ b) := by
  induction s with
  | nil =>
    have he : pat.isEmpty = false := by cases pat <;> simp_all
    refine ⟨fun a b h => ?_, fun _ a b h => ?_⟩
    · simp [findStr, he] at h
    · have := congrArg List.length h
      simp only [List.length_nil, List.length_append] at this
      exact hp (List.eq_nil_of_length_eq_zero (by omega))
  | cons c t ih =>
    unfold findStr
    by_cases hpre : pat.isPrefixOf (c :: t) = true
    · rw [if_pos hpre]
      obtain ⟨r, hr⟩ := (isPrefixOf_iff _ _).mp hpre
      refine ⟨fun a b h => ?_, fun h => by cases h⟩
      simp only [Option.some.injEq, Prod.mk.injEq] at h
      obtain ⟨rfl, rfl⟩ := h
      refine ⟨by rw [hr]; simp, fun _ _ _ => by simp⟩
    · rw [if_neg hpre]
      have hno : ∀ r, c :: t ≠ pat ++ r := fun r h => hpre ((isPrefixOf_iff _ _).mpr ⟨r, h⟩)
      refine ⟨fun a b h => ?_, fun h a b e => ?_⟩
      · simp only [Option.map_eq_some_iff, Prod.mk.injEq] at h
        obtain ⟨⟨a', b'⟩, h', rfl, rfl⟩ := h
        obtain ⟨h1, h2⟩ := ih.1 a' b' h'
        refine ⟨by simp only [List.cons_append, List.cons.injEq, true_and]; exact h1, fun p q e => ?_⟩
        cases p with
        | nil => exact absurd (by simpa using e) (hno q)
        | cons x p' =>
          simp only [List.cons_append, List.cons.injEq] at e
          have := h2 p' q e.2
          simpa using this
      · simp only [Option.map_eq_none_iff] at h
        cases a with
        | nil => exact absurd (by simpa using e) (hno b)
        | cons x a' =>
          simp only [List.cons_append, List.cons.injEq] at e
          exact ih.2 h a' b e.2

theorem firstAt_unique {pat s a b a' b' : Str} (h : FirstAt pat s a b) (h' : FirstAt pat s a' b') :
    a = a' ∧ b = b' := by
  have hl : a.length = a'.length := Nat.le_antisymm (h.2 a' b' h'.1) (h'.2 a b h.1)
  have he : a ++ (pat ++ b) = a' ++ (pat ++ b') := by
    rw [← List.append_assoc, ← List.append_assoc, ← h.1, ← h'.1]
  obtain ⟨h1, h2⟩ := List.append_inj he hl
  exact ⟨h1, List.append_cancel_left h2⟩

theorem findStr_iff {pat : Str} (hp : pat ≠ []) (s a b : Str) :
    findStr pat s = some (a, b) ↔ FirstAt pat s a b := by
  refine ⟨(findStr_spec pat hp s).1 a b, fun h => ?_⟩
  cases hf : findStr pat s with
  | none => exact absurd h.1 ((findStr_spec pat hp s).2 hf a b)
  | some q =>
    obtain ⟨h1, h2⟩ := firstAt_unique ((findStr_spec pat hp s).1 q.1 q.2 hf) h
    rw [← h1, ← h2]

theorem dropWhile_head {p : Char → Bool} : ∀ (s : Str) (c : Char), (s.dropWhile p).head? = some c → p c = false
  | [], c, h => by simp at h
  | x :: xs, c, h => by
    rw [List.dropWhile_cons] at h
    by_cases hx : p x = true
    · rw [if_pos hx] at h; exact dropWhile_head xs c h
    · rw [if_neg hx] at h; simp at h; subst h; simpa using hx

theorem dropWhile_of_head {p : Char → Bool} (t : Str) (h : ∀ c, t.head? = some c → p c = false) :
    t.dropWhile p = t := by
  cases t with
  | nil => rfl
  | cons x xs => rw [List.dropWhile_cons, if_neg (by simp [h x rfl])]

theorem dropWhile_append_all {p : Char → Bool} (w t : Str) (h : ∀ c ∈ w, p c = true) :
    (w ++ t).dropWhile p = t.dropWhile p := by
  induction w with
  | nil => rfl
  | cons x xs ih =>
    rw [List.cons_append, List.dropWhile_cons, if_pos (h x (by simp))]
    exact ih fun c hc => h c (by simp [hc])

theorem mem_takeWhile {p : Char → Bool} : ∀ (s : Str) (c : Char), c ∈ s.takeWhile p → p c = true
  | [], c, h => by simp at h
  | x :: xs, c, h => by
    rw [List.takeWhile_cons] at h
    by_cases hx : p x = true
    · rw [if_pos hx] at h
      rcases List.mem_cons.mp h with rfl | h
      · exact hx
      · exact mem_takeWhile xs c h
    · rw [if_neg hx] at h; cases h

theorem trimStart_iff (s t : Str) : TrimmedStart s t ↔ t = trimStart s := by
  constructor
  · rintro ⟨w, rfl, hw, ht⟩
    unfold trimStart
    rw [dropWhile_append_all w t hw, dropWhile_of_head t ht]
  · rintro rfl
    exact ⟨s.takeWhile isWhite, (List.takeWhile_append_dropWhile).symm,
      mem_takeWhile s, dropWhile_head s⟩

theorem trimEnd_iff (s t : Str) : TrimmedEnd s t ↔ t = trimEnd s := by
  have : TrimmedEnd s t ↔ TrimmedStart s.reverse t.reverse := by
    constructor
    · rintro ⟨w, rfl, hw, ht⟩
      exact ⟨w.reverse, by simp, fun c hc => hw c (by simpa using hc), fun c hc => ht c (by simpa using hc)⟩
    · rintro ⟨w, h, hw, ht⟩
      refine ⟨w.reverse, ?_, fun c hc => hw c (by simpa using hc), fun c hc => ht c (by simpa using hc)⟩
      rw [← List.reverse_reverse s, h]; simp
  rw [this, trimStart_iff]
  unfold trimEnd trimStart
  constructor
  · intro h; rw [← h, List.reverse_reverse]
  · rintro rfl; simp

theorem trim_iff (s t : Str) : Trimmed s t ↔ t = trimEnd (trimStart s) := by
  constructor
  · rintro ⟨u, h1, h2⟩
    rw [(trimStart_iff _ _).mp h1] at h2
    exact (trimEnd_iff _ _).mp h2
  · rintro rfl
    exact ⟨trimStart s, (trimStart_iff _ _).mpr rfl, (trimEnd_iff _ _).mpr rfl⟩

/-- The closing fence starts after the opening fence. -/
theorem fence_before {s a b : Str} (hs : ∃ t, s = tomlFence ++ t) (h : s = a ++ closeFence ++ b) :
    ∃ raw, a = tomlFence ++ raw := by
  obtain ⟨t, rfl⟩ := hs
  have hlen : 7 ≤ a.length := by
    by_contra hlt
    have hlt : a.length < 7 := by omega
    have h1 : (a ++ closeFence ++ b)[a.length]? = some '\n' := by
      rw [List.append_assoc, List.getElem?_append_right (Nat.le_refl _)]
      simp [closeFence]
    rw [← h, List.getElem?_append_left (by simpa [tomlFence] using hlt)] at h1
    have : '\n' ∈ tomlFence := List.mem_of_getElem? h1
    exact absurd this (by decide)
  refine ⟨a.drop 7, ?_⟩
  have h2 : (tomlFence ++ t).take 7 = (a ++ closeFence ++ b).take 7 := by rw [h]
  have e1 : (tomlFence ++ t).take 7 = tomlFence := by
    rw [List.take_append_of_le_length (by decide)]; rfl
  have e2 : (a ++ closeFence ++ b).take 7 = a.take 7 := by
    rw [List.append_assoc, List.take_append_of_le_length hlen]
  rw [e1, e2] at h2
  rw [h2]; simp

/-- **C22, white space.**  What is trimmed are the 25 characters with the Unicode property `White_Space`. -/
theorem C22_white_space (c : Char) : isWhite c = true ↔ c.toNat ∈ whiteSpace := by
  unfold isWhite whiteSpace
  simp only [Bool.or_eq_true, Bool.and_eq_true, decide_eq_true_eq, beq_iff_eq, List.mem_cons, List.not_mem_nil, or_false]
  omega

/-- **C22.**  `Parts::parse` accepts exactly the files made of the opening fence, the front matter, the first
closing fence and a Markdown text that starts with a `# title` line, and returns exactly those parts. -/
theorem C22_parse_iff (s : Str) (p : Parts) : Parts.parse s = .ok p ↔ WellFormedFile s p := by
  unfold Parts.parse
  by_cases hf : tomlFence.isPrefixOf s = true
  · rw [hf]
    simp only [Bool.not_true, Bool.false_eq_true, if_false]
    have hpre := (isPrefixOf_iff _ _).mp hf
    cases hc : findStr closeFence s with
    | none =>
      simp only
      refine ⟨(fun h => by cases h), fun h => ?_⟩
      obtain ⟨raw, rest, h1, _⟩ := h.split
      exact absurd h1.1 ((findStr_spec closeFence (by decide) s).2 hc _ _)
    | some q =>
      obtain ⟨before, after⟩ := q
      have hfa := (findStr_iff (by decide) _ _ _).mp hc
      obtain ⟨raw, rfl⟩ := fence_before hpre hfa.1
      have hdrop : (tomlFence ++ raw).drop 7 = raw := by
        rw [List.drop_append_of_le_length (by decide)]; rfl
      have hsplit : ∀ r1 r2, FirstAt closeFence s (tomlFence ++ r1) r2 → r1 = raw ∧ r2 = after := by
        intro r1 r2 h
        obtain ⟨e1, e2⟩ := firstAt_unique h hfa
        exact ⟨List.append_cancel_left e1, e2⟩
      simp only [hdrop]
      by_cases hm : "# ".toList.isPrefixOf (trimStart after) = true
      · rw [hm]
        simp only [Bool.not_true, Bool.false_eq_true, if_false]
        obtain ⟨md, hmd⟩ := (isPrefixOf_iff _ _).mp hm
        have hline : ∀ {a b}, trimStart after = a ++ ['\n'] ++ b → ∃ l, a = "# ".toList ++ l := by
          intro a b h
          rw [hmd] at h
          match a with
          | [] =>
            exfalso
            have h0 := congrArg (fun l => l[0]?) h
            simp at h0
          | [x] =>
            exfalso
            have h0 := congrArg (fun l => l[1]?) h
            simp at h0
          | x :: y :: l =>
            have h0 := congrArg (fun l => l[0]?) h
            have h1 := congrArg (fun l => l[1]?) h
            simp at h0 h1
            exact ⟨l, by rw [← h0, ← h1]; rfl⟩
        cases hn : findStr ['\n'] (trimStart after) with
        | none =>
          simp only
          refine ⟨(fun h => by cases h), fun h => ?_⟩
          obtain ⟨r1, r2, h1, h2, h3⟩ := h.split
          obtain ⟨rfl, rfl⟩ := hsplit r1 r2 h1
          obtain ⟨l, r, h4, _⟩ := h.title
          rw [(trimStart_iff _ _).mp h3] at h4
          exact absurd h4.1 ((findStr_spec ['\n'] (by decide) _).2 hn _ _)
        | some q =>
          obtain ⟨head, rest⟩ := q
          have hfn := (findStr_iff (by decide) _ _ _).mp hn
          obtain ⟨l, rfl⟩ := hline hfn.1
          have hd2 : ("# ".toList ++ l).drop 2 = l := by
            rw [List.drop_append_of_le_length (by decide)]; rfl
          simp only [hd2]
          constructor
          · intro h
            cases h
            exact ⟨⟨raw, after, hfa, (trim_iff _ _).mpr rfl, (trimStart_iff _ _).mpr rfl⟩,
              ⟨l, rest, hfn, (trimEnd_iff _ _).mpr rfl, (trim_iff _ _).mpr rfl⟩⟩
          · intro h
            obtain ⟨r1, r2, h1, h2, h3⟩ := h.split
            obtain ⟨rfl, rfl⟩ := hsplit r1 r2 h1
            obtain ⟨l', r', h4, h5, h6⟩ := h.title
            have h3' := (trimStart_iff _ _).mp h3
            rw [h3'] at h4
            obtain ⟨e1, e2⟩ := firstAt_unique h4 hfn
            have e1 := List.append_cancel_left e1
            subst e1; subst e2
            rw [← (trim_iff _ _).mp h2, ← h3', ← (trimEnd_iff _ _).mp h5, ← (trim_iff _ _).mp h6]
      · have hm' : "# ".toList.isPrefixOf (trimStart after) = false := Bool.eq_false_iff.mpr hm
        rw [hm']
        simp only [Bool.not_false, if_true]
        refine ⟨(fun h => by cases h), fun h => ?_⟩
        obtain ⟨r1, r2, h1, h2, h3⟩ := h.split
        obtain ⟨rfl, rfl⟩ := hsplit r1 r2 h1
        obtain ⟨l', r', h4, h5, h6⟩ := h.title
        rw [(trimStart_iff _ _).mp h3] at h4
        exact absurd ((isPrefixOf_iff _ _).mpr ⟨l' ++ (['\n'] ++ r'), by rw [h4.1]; simp⟩) hm
  · have hf' : tomlFence.isPrefixOf s = false := Bool.eq_false_iff.mpr hf
    rw [hf']
    simp only [Bool.not_false, if_true]
    refine ⟨fun h => ?_, fun h => ?_⟩
    · split at h
      · split at h <;> cases h
      · cases h
    · obtain ⟨raw, rest, h1, _⟩ := h.split
      exact absurd ((isPrefixOf_iff _ _).mpr ⟨raw ++ (closeFence ++ rest), by rw [h1.1]; simp⟩) hf

/-- **C22, panics.**  `Parts::parse` panics exactly on files without the opening fence that are longer than 20
bytes and have a character across the byte offset 20. -/
theorem C22_panics_iff (s : Str) :
    Parts.parse s = .panic ↔
      (∀ t, s ≠ "```toml".toList ++ t) ∧ 20 < byteLen s ∧ isCharBoundary s 20 = false := by
  unfold Parts.parse
  by_cases hf : tomlFence.isPrefixOf s = true
  · rw [hf]
    simp only [Bool.not_true, Bool.false_eq_true, if_false]
    constructor
    · intro h
      split at h
      · cases h
      · split at h
        · cases h
        · split at h <;> cases h
    · rintro ⟨h, _⟩
      obtain ⟨t, ht⟩ := (isPrefixOf_iff _ _).mp hf
      exact absurd ht (h t)
  · have hf' : tomlFence.isPrefixOf s = false := Bool.eq_false_iff.mpr hf
    rw [hf']
    simp only [Bool.not_false, if_true]
    have hno : ∀ t, s ≠ "```toml".toList ++ t := fun t h => hf ((isPrefixOf_iff _ _).mpr ⟨t, h⟩)
    by_cases hl : 20 < byteLen s
    · rw [if_pos hl]
      cases hb : isCharBoundary s 20
      · exact ⟨fun _ => ⟨hno, hl, rfl⟩, fun _ => rfl⟩
      · exact ⟨(fun h => by cases h), fun h => by cases h.2.2⟩
    · rw [if_neg hl]
      exact ⟨(fun h => by cases h), fun h => absurd h.2.1 hl⟩

/-- What "byte 20 is inside a character" means: no beginning of the text is exactly `n` bytes long. -/
theorem isCharBoundary_iff (s : Str) (n : Nat) :
    isCharBoundary s n = true ↔ ∃ a b, s = a ++ b ∧ byteLen a = n := by
  induction s generalizing n with
  | nil =>
    cases n with
    | zero => simp [isCharBoundary, byteLen]
    | succ n =>
      simp only [isCharBoundary, Bool.false_eq_true, false_iff]
      rintro ⟨a, b, h, hl⟩
      have : a = [] := by
        have := congrArg List.length h
        simp only [List.length_nil, List.length_append] at this
        exact List.eq_nil_of_length_eq_zero (by omega)
      subst this; simp [byteLen] at hl
  | cons c t ih =>
    cases n with
    | zero => simp only [isCharBoundary, true_iff]; exact ⟨[], c :: t, rfl, rfl⟩
    | succ n =>
      unfold isCharBoundary
      by_cases hc : c.utf8Size ≤ n + 1
      · rw [if_pos hc, ih]
        constructor
        · rintro ⟨a, b, rfl, hl⟩
          refine ⟨c :: a, b, rfl, ?_⟩
          simp only [byteLen, List.map_cons, List.sum_cons] at hl ⊢
          omega
        · rintro ⟨a, b, h, hl⟩
          cases a with
          | nil => simp [byteLen] at hl
          | cons x a' =>
            simp only [List.cons_append, List.cons.injEq] at h
            obtain ⟨rfl, h⟩ := h
            refine ⟨a', b, h, ?_⟩
            simp only [byteLen, List.map_cons, List.sum_cons] at hl ⊢
            omega
      · rw [if_neg hc]
        simp only [Bool.false_eq_true, false_iff]
        rintro ⟨a, b, h, hl⟩
        cases a with
        | nil => simp [byteLen] at hl
        | cons x a' =>
          simp only [List.cons_append, List.cons.injEq] at h
          obtain ⟨rfl, h⟩ := h
          simp only [byteLen, List.map_cons, List.sum_cons] at hl
          omega

/-- An advisory file. -/
def sampleFile : Str :=
  "```toml\n[advisory]\nid = \"RUSTSEC-2001-2101\"\n```\n\n# All your base \n\nYou have no chance.\n".toList

theorem sampleFile_parse : Parts.parse sampleFile = .ok
    { frontMatter := "[advisory]\nid = \"RUSTSEC-2001-2101\"".toList,
      markdown := "# All your base \n\nYou have no chance.\n".toList,
      title := "All your base".toList, description := "You have no chance.".toList } := by decide +kernel

/-- A file that makes `Parts::parse` panic: 19 ASCII characters, then a two-byte character. -/
def panicFile : Str := "not an advisory, oh\u00e9".toList

example : Parts.parse panicFile = .panic := by decide +kernel

/-- Rejected: no fence; no end; no title line; nothing after the title line. -/
example : Parts.parse "# Title\n".toList = .err ∧ Parts.parse "```toml\nx".toList = .err ∧
    Parts.parse "```toml\nx\n```\nTitle\n".toList = .err ∧
    Parts.parse "```toml\nx\n```\n# Title".toList = .err := by
  refine ⟨?_, ?_, ?_, ?_⟩ <;> decide +kernel

/-! ## C20: dates -/

theorem ofDigitChars_lt (l : Str) (h : ∀ c ∈ l, c.isDigit = true) (n : Nat) :
    Nat.ofDigitChars 10 l n < (n + 1) * 10 ^ l.length := by
  induction l generalizing n with
  | nil => simp
  | cons c t ih =>
    rw [Nat.ofDigitChars_cons]
    have hc : c.toNat - '0'.toNat < 10 := by
      have := h c (by simp)
      simp only [Char.isDigit, Bool.and_eq_true, decide_eq_true_eq] at this
      have h2 : c.toNat ≤ 57 := this.2
      have h3 : ('0' : Char).toNat = 48 := rfl
      omega
    have := ih (fun x hx => h x (by simp [hx])) (10 * n + (c.toNat - '0'.toNat))
    rw [List.length_cons, Nat.pow_succ]
    calc _ < _ := this
      _ ≤ (10 * (n + 1)) * 10 ^ t.length := Nat.mul_le_mul_right _ (by omega)
      _ = _ := by ring

theorem digits_no_dash {l : Str} (h : ∀ c ∈ l, c.isDigit = true) : '-' ∉ l := by
  intro hm; have := h _ hm; rw [dash_not_digit] at this; cases this

theorem isoText_split {s : Str} {ys ms ds : Str} (hs : s = ys ++ '-' :: (ms ++ '-' :: ds))
    (hd : ∀ c ∈ ys ++ ms ++ ds, c.isDigit = true) : splitC '-' s = [ys, ms, ds] := by
  rw [hs, splitC_append (digits_no_dash fun c hc => hd c (by simp [hc])),
    splitC_append (digits_no_dash fun c hc => hd c (by simp [hc])),
    splitC_of_not_mem (digits_no_dash fun c hc => hd c (by simp [hc]))]

theorem parseU32_digits {l : Str} {w : Nat} (hw : l.length = w) (h0 : 0 < w) (h9 : w ≤ 9)
    (h : ∀ c ∈ l, c.isDigit = true) : parseU32 l = some (Nat.ofDigitChars 10 l 0) := by
  unfold parseU32
  rw [parseUnsigned_digits (by intro e; subst e; simp at hw; omega) h, if_pos]
  have h1 := ofDigitChars_lt l h 0
  rw [hw] at h1
  have h2 : 10 ^ w ≤ 10 ^ 9 := Nat.pow_le_pow_right (by decide) h9
  have h3 : (10 : Nat) ^ 9 < 2 ^ 32 := by decide
  omega

/-- **C20.**  A text of the form `YYYY-MM-DD` is accepted exactly if the day exists and the year is between
2000 and 2100; the text is kept and the accessors return its numbers (assuming of `jiff` what `IsoLaw`
says).  Parsing never panics, and whatever else `jiff` accepts has a year in that range. -/
theorem C20_date (civil : Str → Option (Int × Nat × Nat)) (law : IsoLaw civil) (s : Str) :
    (∀ y m d, IsoText s y m d →
      (DateText.fromStr civil s = .ok ⟨s⟩ ↔ CalendarDay y m d ∧ 2000 ≤ y ∧ y ≤ 2100) ∧
      DateText.year ⟨s⟩ = .ok y ∧ DateText.month ⟨s⟩ = .ok m ∧ DateText.day ⟨s⟩ = .ok d) ∧
    (∀ D, DateText.fromStr civil s = .ok D → D.text = s ∧
      ∃ y m d, civil s = some (y, m, d) ∧ 2000 ≤ y ∧ y ≤ 2100) ∧
    DateText.fromStr civil s ≠ .panic := by
  refine ⟨fun y m d hiso => ?_, fun D h => ?_, ?_⟩
  · have hl := law s y m d hiso
    obtain ⟨ys, ms, ds, hs, l1, l2, l3, hd, rfl, rfl, rfl⟩ := hiso
    have hsp := isoText_split hs hd
    refine ⟨?_, ?_, ?_, ?_⟩
    · unfold DateText.fromStr
      rw [hl]
      by_cases hc : CalendarDay (Nat.ofDigitChars 10 ys 0) (Nat.ofDigitChars 10 ms 0)
          (Nat.ofDigitChars 10 ds 0)
      · rw [if_pos hc]
        simp only
        have e : (((yearMin : Nat) : Int) ≤ (Nat.ofDigitChars 10 ys 0 : Nat) ∧
            ((Nat.ofDigitChars 10 ys 0 : Nat) : Int) ≤ (yearMax : Nat)) ↔
            (2000 ≤ Nat.ofDigitChars 10 ys 0 ∧ Nat.ofDigitChars 10 ys 0 ≤ 2100) := by
          unfold yearMax yearMin; omega
        by_cases hy : 2000 ≤ Nat.ofDigitChars 10 ys 0 ∧ Nat.ofDigitChars 10 ys 0 ≤ 2100
        · rw [if_pos (e.mpr hy)]; simp [hc, hy]
        · rw [if_neg (fun h => hy (e.mp h))]
          exact ⟨(fun h => by cases h), fun h => absurd h.2 hy⟩
      · rw [if_neg hc]
        simp [hc]
    all_goals
      simp only [DateText.year, DateText.month, DateText.day, DateText.component, hsp]
    · simp only [List.getElem?_cons_zero]
      rw [parseU32_digits l1 (by decide) (by decide) fun c hc => hd c (by simp [hc])]
    · simp only [List.getElem?_cons_succ, List.getElem?_cons_zero]
      rw [parseU32_digits l2 (by decide) (by decide) fun c hc => hd c (by simp [hc])]
    · simp only [List.getElem?_cons_succ, List.getElem?_cons_zero]
      rw [parseU32_digits l3 (by decide) (by decide) fun c hc => hd c (by simp [hc])]
  · unfold DateText.fromStr at h
    cases hc : civil s with
    | none => rw [hc] at h; cases h
    | some t =>
      obtain ⟨y, m, d⟩ := t
      rw [hc] at h
      simp only at h
      split at h
      · rename_i hy
        cases h
        exact ⟨rfl, y, m, d, rfl, hy.1, hy.2⟩
      · cases h
  · unfold DateText.fromStr
    split
    · simp
    · split <;> simp

/-- A strict reader of `YYYY-MM-DD`. -/
def refCivil (s : Str) : Option (Int × Nat × Nat) :=
  match splitC '-' s with
  | [ys, ms, ds] =>
    if ys.length = 4 ∧ ms.length = 2 ∧ ds.length = 2 ∧ (ys ++ ms ++ ds).all Char.isDigit = true then
      let y := Nat.ofDigitChars 10 ys 0
      let m := Nat.ofDigitChars 10 ms 0
      let d := Nat.ofDigitChars 10 ds 0
      if CalendarDay y m d then some ((y : Int), m, d) else none
    else none
  | _ => none

/-- The assumption on `jiff` can be met. -/
theorem refCivil_law : IsoLaw refCivil := by
  rintro s y m d ⟨ys, ms, ds, hs, l1, l2, l3, hd, rfl, rfl, rfl⟩
  unfold refCivil
  rw [isoText_split hs hd]
  simp only
  rw [if_pos ⟨l1, l2, l3, List.all_eq_true.mpr hd⟩]

example : DateText.fromStr refCivil "2024-02-29".toList = .ok ⟨"2024-02-29".toList⟩ ∧
    DateText.fromStr refCivil "2100-02-29".toList = .err ∧
    DateText.fromStr refCivil "1999-12-31".toList = .err ∧
    DateText.fromStr refCivil "2101-01-01".toList = .err ∧
    DateText.fromStr refCivil "2017-04-31".toList = .err := by
  refine ⟨?_, ?_, ?_, ?_, ?_⟩ <;> decide +kernel

/-- **C20, the other formats.**  `jiff` also reads the basic format `YYYYMMDD` and dates with a time.  Then
`Date::from_str` accepts them although the accessors cannot read them: `20170101` has the year 20170101 and
asking for its month panics, and asking for the day of `2017-01-01T00:00:00` panics. -/
theorem C20_other_formats_panic (civil : Str → Option (Int × Nat × Nat))
    (h1 : civil "20170101".toList = some (2017, 1, 1))
    (h2 : civil "2017-01-01T00:00:00".toList = some (2017, 1, 1)) :
    (DateText.fromStr civil "20170101".toList = .ok ⟨"20170101".toList⟩ ∧
      DateText.year ⟨"20170101".toList⟩ = .ok 20170101 ∧ DateText.month ⟨"20170101".toList⟩ = .panic) ∧
    (DateText.fromStr civil "2017-01-01T00:00:00".toList = .ok ⟨"2017-01-01T00:00:00".toList⟩ ∧
      DateText.day ⟨"2017-01-01T00:00:00".toList⟩ = .panic) := by
  refine ⟨⟨?_, by decide +kernel, by decide +kernel⟩, ?_, by decide +kernel⟩
  · unfold DateText.fromStr; rw [h1]; rfl
  · unfold DateText.fromStr; rw [h2]; rfl

/-- A parser that follows the law and reads these formats too. -/
def jiffLike (s : Str) : Option (Int × Nat × Nat) :=
  if s = "20170101".toList ∨ s = "2017-01-01T00:00:00".toList then some (2017, 1, 1) else refCivil s

example : IsoLaw jiffLike ∧ jiffLike "20170101".toList = some (2017, 1, 1) ∧
    jiffLike "2017-01-01T00:00:00".toList = some (2017, 1, 1) := by
  refine ⟨fun s y m d h => ?_, by decide +kernel, by decide +kernel⟩
  have hl : s.length = 10 := by
    obtain ⟨ys, ms, ds, rfl, l1, l2, l3, _⟩ := h
    simp [l1, l2, l3]
  unfold jiffLike
  rw [if_neg]
  · exact refCivil_law s y m d h
  · rintro (rfl | rfl)
    · exact absurd hl (by decide)
    · exact absurd hl (by decide)

/-! ## C21: function paths -/

theorem splitPath_ne_nil (s : Str) : splitPath s ≠ [] := by
  match s with
  | [] => simp [splitPath]
  | [c] => simp [splitPath]
  | c :: d :: t =>
    unfold splitPath
    split
    · simp
    · split <;> simp

/-- Joining with `::`. -/
def joinPath : List Str → Str
  | [] => []
  | [s] => s
  | s :: t => s ++ ':' :: ':' :: joinPath t

theorem joinPath_cons (s : Str) {t : List Str} (h : t ≠ []) :
    joinPath (s :: t) = s ++ ':' :: ':' :: joinPath t := by
  cases t with
  | nil => exact absurd rfl h
  | cons _ _ => rfl

theorem joinPath_cons_cons (c : Char) (h : Str) (r : List Str) :
    joinPath ((c :: h) :: r) = c :: joinPath (h :: r) := by
  cases r <;> rfl

theorem joinPath_splitPath : ∀ s : Str, joinPath (splitPath s) = s
  | [] => rfl
  | [c] => rfl
  | c :: d :: t => by
    unfold splitPath
    split
    · rename_i h
      obtain ⟨rfl, rfl⟩ := h
      rw [joinPath_cons _ (splitPath_ne_nil t), joinPath_splitPath t]; rfl
    · have ih := joinPath_splitPath (d :: t)
      cases hs : splitPath (d :: t) with
      | nil => exact absurd hs (splitPath_ne_nil _)
      | cons h r =>
        rw [hs] at ih
        simp only
        rw [joinPath_cons_cons, ih]

theorem splitPath_single : ∀ s : Str, ':' ∉ s → splitPath s = [s]
  | [], _ => rfl
  | [c], _ => rfl
  | c :: d :: t, h => by
    unfold splitPath
    rw [if_neg (by rintro ⟨rfl, _⟩; exact h (by simp)),
      splitPath_single (d :: t) (fun hm => h (List.mem_cons_of_mem _ hm))]

theorem splitPath_cons (c d : Char) (t : Str) (hc : c ≠ ':') :
    splitPath (c :: d :: t) = (match splitPath (d :: t) with
      | [] => [[c]]
      | h :: r => (c :: h) :: r) := by
  rw [splitPath, if_neg (fun e => hc e.1)]
  cases splitPath (d :: t) <;> rfl

theorem splitPath_colons (t : Str) : splitPath (':' :: ':' :: t) = [] :: splitPath t := by
  rw [splitPath, if_pos ⟨rfl, rfl⟩]

theorem splitPath_append : ∀ (s t : Str), ':' ∉ s → splitPath (s ++ ':' :: ':' :: t) = s :: splitPath t
  | [], t, _ => splitPath_colons t
  | [c], t, h => by
    have hc : c ≠ ':' := fun e => h (by simp [e])
    simp only [List.cons_append, List.nil_append]
    rw [splitPath_cons c _ _ hc, splitPath_colons]
  | c :: d :: s, t, h => by
    have hc : c ≠ ':' := fun e => h (by simp [e])
    have := splitPath_append (d :: s) t (fun hm => h (List.mem_cons_of_mem _ hm))
    simp only [List.cons_append] at this ⊢
    rw [splitPath_cons c _ _ hc, this]

theorem splitPath_joinPath : ∀ {l : List Str}, l ≠ [] → (∀ p ∈ l, ':' ∉ p) → splitPath (joinPath l) = l
  | [], h, _ => absurd rfl h
  | [s], _, h => splitPath_single s (h s (by simp))
  | s :: x :: t, _, h => by
    rw [joinPath_cons s (by simp), splitPath_append s _ (h s (by simp)),
      splitPath_joinPath (by simp) (fun p hp => h p (by simp [hp]))]

theorem display_eq_joinPath : ∀ (c : Str) (rest : List Str),
    c ++ (rest.map fun s => "::".toList ++ s).flatten = joinPath (c :: rest)
  | c, [] => by simp [joinPath]
  | c, x :: r => by
    rw [joinPath_cons c (by simp), ← display_eq_joinPath x r]
    simp

theorem identStart_iff (c : Char) : identStart c = true ↔ c.isAlpha ∨ c = '_' ∨ c = '<' := by
  unfold identStart Char.isAlpha Char.isUpper Char.isLower
  simp only [Bool.or_eq_true, Bool.and_eq_true, decide_eq_true_eq, beq_iff_eq, Char.le_def]
  tauto

theorem identRest_iff (c : Char) :
    identRest c = true ↔ c.isAlphanum ∨ c = '_' ∨ c = '<' ∨ c = '>' ∨ c = ',' := by
  unfold identRest Char.isAlphanum Char.isAlpha Char.isUpper Char.isLower Char.isDigit
  simp only [Bool.or_eq_true, Bool.and_eq_true, decide_eq_true_eq, beq_iff_eq, Char.le_def]
  tauto

theorem validIdent_iff (s : Str) : validIdent s = true ↔ Identifier s := by
  cases s with
  | nil => simp [validIdent, Identifier]
  | cons c t =>
    simp only [validIdent, Bool.and_eq_true, List.all_eq_true, identStart_iff, identRest_iff]
    constructor
    · rintro ⟨h1, h2⟩; exact ⟨c, t, rfl, h1, h2⟩
    · rintro ⟨c', t', h, h1, h2⟩; cases h; exact ⟨h1, h2⟩

theorem ident_no_colon {s : Str} (h : Identifier s) : ':' ∉ s := by
  obtain ⟨c, t, rfl, h1, h2⟩ := h
  intro hm
  rcases List.mem_cons.mp hm with rfl | hm
  · revert h1; decide
  · have := h2 _ hm
    revert this; decide

/-- **C21.**  A string is accepted as a function path exactly if it is what a valid path (at least two
segments, all of them identifiers) displays as, and parsing returns that path; nothing panics. -/
theorem C21_round_trip (s : Str) (p : List Str) :
    (FunctionPath.fromStr s = .ok p ↔ ValidPath p ∧ FunctionPath.display p = .ok s) ∧
    FunctionPath.fromStr s ≠ .panic := by
  constructor
  · unfold FunctionPath.fromStr
    simp only
    constructor
    · intro h
      split at h
      · cases h
      · rename_i ha
        split at h
        · rename_i hl
          cases h
          refine ⟨⟨hl, fun x hx => (validIdent_iff x).mp ?_⟩, ?_⟩
          · simp only [Bool.not_eq_true', Bool.not_eq_false, List.all_eq_true] at ha
            exact ha x hx
          · cases hs : splitPath s with
            | nil => exact absurd hs (splitPath_ne_nil s)
            | cons c r =>
              simp only [FunctionPath.display]
              rw [display_eq_joinPath, ← hs, joinPath_splitPath]
        · cases h
    · rintro ⟨⟨hl, hv⟩, hd⟩
      cases p with
      | nil => simp at hl
      | cons c r =>
        simp only [FunctionPath.display] at hd
        rw [display_eq_joinPath] at hd
        cases hd
        rw [splitPath_joinPath (by simp) fun x hx => ident_no_colon (hv x hx)]
        rw [if_neg, if_pos hl]
        simp only [Bool.not_eq_true', Bool.not_eq_false, List.all_eq_true]
        exact fun x hx => (validIdent_iff x).mpr (hv x hx)
  · unfold FunctionPath.fromStr
    simp only
    split
    · simp
    · split <;> simp

example : FunctionPath.fromStr "foo::bar::<T,U>".toList =
      .ok ["foo".toList, "bar".toList, "<T,U>".toList] ∧
    FunctionPath.fromStr "foo".toList = .err ∧ FunctionPath.fromStr "foo::".toList = .err ∧
    FunctionPath.fromStr "foo:::bar".toList = .err ∧ FunctionPath.fromStr "foo-x::bar".toList = .err ∧
    FunctionPath.fromStr "foo::bar()".toList = .err := by
  refine ⟨?_, ?_, ?_, ?_, ?_, ?_⟩ <;> decide +kernel

/-! ## C23: names -/

/-- An open enumeration: every string is the name of exactly one value that parsing can return. -/
def OpenNames {α : Type} (name : α → Str) (parse : Str → α) : Prop :=
  (∀ s, name (parse s) = s) ∧ ∀ a, (∃ s, parse s = a) → parse (name a) = a

/-- **C23, open enumerations.**  For categories, informational kinds and licenses: printing what was parsed
gives the string back, and parsing what a parsed value prints gives the value back (so distinct parsed values
print differently).  The two conversions of a license agree. -/
theorem C23_open :
    OpenNames Category.name Category.fromStr ∧ OpenNames Informational.asStr Informational.fromStr ∧
    OpenNames License.spdx License.fromStr ∧ (∀ s, License.ofString s = License.fromStr s) := by
  have key : ∀ {α : Type} (name : α → Str) (parse : Str → α), (∀ s, name (parse s) = s) →
      OpenNames name parse := fun name parse h => ⟨h, by rintro a ⟨s, rfl⟩; rw [h]⟩
  refine ⟨key _ _ fun s => ?_, key _ _ fun s => ?_, key _ _ fun s => ?_, fun s => rfl⟩
  · unfold Category.fromStr
    repeat' split
    all_goals (subst_vars; rfl)
  · unfold Informational.fromStr
    repeat' split
    all_goals (subst_vars; rfl)
  · unfold License.fromStr
    repeat' split
    all_goals (subst_vars; rfl)

/-- **C23, known values.**  Every named value parses from its name; the only values parsing cannot return are
catch-all values holding a known name. -/
theorem C23_known :
    (∀ c : Category, Category.fromStr c.name = c ↔ ∀ s, c = .other s → Category.fromStr s = .other s) ∧
    (∀ i : Informational, Informational.fromStr i.asStr = i ↔
      ∀ s, i = .other s → Informational.fromStr s = .other s) ∧
    (∀ l : License, License.fromStr l.spdx = l ↔ ∀ s, l = .other s → License.fromStr s = .other s) := by
  refine ⟨fun c => ?_, fun c => ?_, fun c => ?_⟩
  all_goals
    cases c
    all_goals first
      | exact ⟨(fun h s e => by cases e; exact h), fun h => h _ rfl⟩
      | exact ⟨(fun _ s e => by cases e), fun _ => by decide +kernel⟩

/-- A value nobody can parse: `Informational::Other("notice")` prints like `Notice`. -/
example : Informational.asStr (.other "notice".toList) = Informational.asStr .notice ∧
    Informational.fromStr (Informational.asStr (.other "notice".toList)) = .notice := by
  refine ⟨?_, ?_⟩ <;> decide +kernel

/-- The name of a `--deny` option (`cargo-audit/src/config.rs:174-191`, serde names). -/
def denyName : Audit.DenyOption → Str
  | .warnings => "warnings".toList
  | .unmaintained => "unmaintained".toList
  | .unsound => "unsound".toList
  | .yanked => "yanked".toList

/-- The name of an output format (`cargo-audit/src/config.rs:237-251`, serde names). -/
def formatName : Audit.OutputFormat → Str
  | .json => "json".toList
  | .sarif => "sarif".toList
  | .terminal => "terminal".toList

/-- **C23, closed enumerations.**  For collections, warning kinds, `--deny` options and output formats,
`from_str` accepts exactly the names and is the inverse of printing. -/
theorem C23_closed :
    NameTable Collection.asStr Collection.fromStr ∧ NameTable WarningKind.asStr WarningKind.fromStr ∧
    NameTable denyName Audit.DenyOption.fromStr ∧ NameTable formatName Audit.OutputFormat.fromStr := by
  refine ⟨⟨?_, fun s a h => ?_⟩, ⟨?_, fun s a h => ?_⟩, ⟨?_, fun s a h => ?_⟩, ⟨?_, fun s a h => ?_⟩⟩
  · intro a; cases a <;> decide +kernel
  · unfold Collection.fromStr at h
    repeat' split at h
    all_goals first | (cases h; subst_vars; rfl) | cases h
  · intro a; cases a <;> decide +kernel
  · unfold WarningKind.fromStr at h
    repeat' split at h
    all_goals first | (cases h; subst_vars; rfl) | cases h
  · intro a; cases a <;> decide +kernel
  · unfold Audit.DenyOption.fromStr at h
    repeat' split at h
    all_goals first | (cases h; subst_vars; rfl) | cases h
  · intro a; cases a <;> decide +kernel
  · unfold Audit.OutputFormat.fromStr at h
    repeat' split at h
    all_goals first | (cases h; subst_vars; rfl) | cases h

/-- **C23, severities.**  A string parses as a severity exactly if it is that severity's name up to ASCII
case. -/
theorem C23_severity (s : Str) (v : Severity) :
    Severity.fromStr s = some v ↔ s.map Char.toLower = v.asStr := by
  unfold Severity.fromStr asciiLower
  simp only
  constructor
  · intro h
    repeat' split at h
    all_goals first | (cases h; assumption) | cases h
  · intro h
    rw [h]
    cases v <;> decide +kernel

example : Severity.fromStr "HiGH".toList = some .high ∧ Severity.fromStr "highest".toList = none := by
  refine ⟨?_, ?_⟩ <;> decide +kernel

end Verif.Props
