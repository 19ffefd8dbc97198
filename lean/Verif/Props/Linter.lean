import Verif.Props.AdvisoryFile

/-!
# The advisory linter (C24)
-/

namespace Verif.Props

open Verif.Adv Verif.Lint Verif.Spec

/-! ### Mentions -/

/-- The text after an `@` is a user mention. -/
def MentionAt (post : Str) : Prop :=
  (∃ c, post.head? = some c ∧ asciiAlnum c = true) ∧
    ∀ c ∈ post.takeWhile (fun c => !isWhite c), c ≠ '.' ∧ c ≠ '@' ∧ c ≠ '`'

theorem alnum_not_white {c : Char} (h : asciiAlnum c = true) : isWhite c = false := by
  unfold asciiAlnum at h
  simp only [Bool.or_eq_true, Bool.and_eq_true, decide_eq_true_eq, Char.le_def] at h
  have hb : 48 ≤ c.toNat ∧ c.toNat ≤ 122 := by
    have e : c.toNat = c.val.toNat := rfl
    rcases h with (⟨h1, h2⟩ | ⟨h1, h2⟩) | ⟨h1, h2⟩ <;>
    · have a := UInt32.le_iff_toNat_le.mp h1
      have b := UInt32.le_iff_toNat_le.mp h2
      simp at a b
      omega
  unfold isWhite
  simp only
  simp only [Bool.or_eq_false_iff, Bool.and_eq_false_iff, decide_eq_false_iff_not, beq_eq_false_iff_ne]
  omega

theorem partMention_iff (p : Str) : partMention p = true ↔ MentionAt p := by
  unfold partMention MentionAt
  cases p with
  | nil => simp
  | cons c t =>
    by_cases hc : asciiAlnum c = true
    · have hw := alnum_not_white hc
      have hfw : firstWord (c :: t) = some ((c :: t).takeWhile fun c => !isWhite c) := by
        unfold firstWord
        rw [List.dropWhile_cons, if_neg (by simp [hw])]
        simp [hw]
      simp only [hc, Bool.not_true, Bool.false_eq_true, if_false, hfw, List.head?_cons, Option.some.injEq,
        Bool.not_eq_true', List.any_eq_false, Bool.or_eq_true, beq_iff_eq, not_or]
      constructor
      · intro h
        exact ⟨⟨c, rfl, hc⟩, fun x hx => ⟨(h x hx).1.1, (h x hx).1.2, (h x hx).2⟩⟩
      · rintro ⟨_, h⟩ x hx
        exact ⟨⟨(h x hx).1, (h x hx).2.1⟩, (h x hx).2.2⟩
    · simp [hc]

/-- Cutting a text after an `@` keeps whether it starts with a mention. -/
theorem mentionAt_cut (a b : Str) : MentionAt (a ++ '@' :: b) ↔ MentionAt (a ++ ['@']) := by
  have hat : isWhite '@' = false := by decide
  by_cases hw : ∃ x ∈ a, isWhite x = true
  · have key : ∀ r, (a ++ r).takeWhile (fun c => !isWhite c) = a.takeWhile (fun c => !isWhite c) := by
      intro r
      rw [List.takeWhile_append, if_neg]
      intro h
      obtain ⟨x, hx, hwx⟩ := hw
      have : x ∈ a.takeWhile (fun c => !isWhite c) := by
        have e : a.takeWhile (fun c => !isWhite c) = a :=
          (List.takeWhile_prefix _).eq_of_length h
        rw [e]; exact hx
      have := mem_takeWhile _ _ this
      simp [hwx] at this
    have hne : a ≠ [] := by rintro rfl; obtain ⟨x, hx, _⟩ := hw; cases hx
    unfold MentionAt
    rw [key, key]
    cases a with
    | nil => exact absurd rfl hne
    | cons x a' => simp
  · push Not at hw
    have hall : ∀ x ∈ a, (fun c => !isWhite c) x = true := fun x hx => by simpa using hw x hx
    have hin : ∀ r, '@' ∈ (a ++ '@' :: r).takeWhile (fun c => !isWhite c) := by
      intro r
      rw [List.takeWhile_append_of_pos hall, List.takeWhile_cons, if_pos (by rw [hat]; rfl)]
      simp
    unfold MentionAt
    constructor
    · rintro ⟨_, h⟩; exact absurd rfl (h '@' (hin b)).2.1
    · rintro ⟨_, h⟩; exact absurd rfl (h '@' (hin [])).2.1

theorem splitInclusive_head (s : Str) : ∀ h t, splitInclusive '@' s = h :: t →
    (MentionAt h ↔ MentionAt s) := by
  have key : ∀ s h t, splitInclusive '@' s = h :: t → h = s ∨ ∃ a b, h = a ++ ['@'] ∧ s = a ++ '@' :: b := by
    intro s
    induction s with
    | nil => intro h t e; cases e
    | cons x xs ih =>
      intro h t e
      unfold splitInclusive at e
      split at e
      · rename_i hx
        cases e
        exact .inr ⟨[], xs, rfl, by rw [hx]; rfl⟩
      · cases hs : splitInclusive '@' xs with
        | nil =>
          rw [hs] at e
          cases e
          left
          cases xs with
          | nil => rfl
          | cons y ys =>
            unfold splitInclusive at hs
            split at hs
            · cases hs
            · split at hs <;> cases hs
        | cons h' t' =>
          rw [hs] at e
          cases e
          rcases ih h' _ hs with rfl | ⟨a, b, rfl, rfl⟩
          · exact .inl rfl
          · exact .inr ⟨x :: a, b, rfl, rfl⟩
  intro h t e
  rcases key s h t e with rfl | ⟨a, b, rfl, rfl⟩
  · exact Iff.rfl
  · exact (mentionAt_cut a b).symm

/-- The text contains a mention. -/
def HasMention (s : Str) : Prop := ∃ pre post, s = pre ++ '@' :: post ∧ MentionAt post

theorem hasMention_cons (x : Char) (xs : Str) :
    HasMention (x :: xs) ↔ (x = '@' ∧ MentionAt xs) ∨ HasMention xs := by
  constructor
  · rintro ⟨pre, post, h, hm⟩
    cases pre with
    | nil => simp at h; obtain ⟨rfl, rfl⟩ := h; exact .inl ⟨rfl, hm⟩
    | cons y pre' =>
      simp at h
      obtain ⟨rfl, rfl⟩ := h
      exact .inr ⟨pre', post, rfl, hm⟩
  · rintro (⟨rfl, h⟩ | ⟨pre, post, rfl, h⟩)
    · exact ⟨[], xs, rfl, h⟩
    · exact ⟨x :: pre, post, rfl, h⟩

theorem not_mentionAt_nil : ¬ MentionAt [] := by rintro ⟨⟨c, h, _⟩, _⟩; cases h

theorem lineMention_iff (l : Str) : lineMention l = true ↔ HasMention l := by
  unfold lineMention
  induction l with
  | nil =>
    simp only [splitInclusive, List.drop_nil, List.any_nil, Bool.false_eq_true, false_iff]
    rintro ⟨pre, post, h, _⟩
    have := congrArg List.length h
    simp at this
  | cons x xs ih =>
    rw [hasMention_cons, ← ih, splitInclusive]
    by_cases hx : x = '@'
    · rw [if_pos hx]
      simp only [List.drop_succ_cons, List.drop_zero, hx, true_and]
      cases hs : splitInclusive '@' xs with
      | nil =>
        have : xs = [] := by
          cases xs with
          | nil => rfl
          | cons y ys =>
            unfold splitInclusive at hs
            split at hs
            · cases hs
            · split at hs <;> cases hs
        subst this
        simp [not_mentionAt_nil]
      | cons h t =>
        simp only [List.any_cons, Bool.or_eq_true, partMention_iff, List.drop_succ_cons, List.drop_zero]
        rw [splitInclusive_head xs h t hs]
    · rw [if_neg hx]
      simp only [hx, false_and, false_or]
      cases hs : splitInclusive '@' xs with
      | nil => simp
      | cons h t => simp

/-- Whether a text starts with a mention does not depend on anything from white space on. -/
theorem mentionAt_white (a : Str) (w : Char) (r : Str) (hw : isWhite w = true) :
    MentionAt (a ++ w :: r) ↔ MentionAt a := by
  have ht : (a ++ w :: r).takeWhile (fun c => !isWhite c) = a.takeWhile (fun c => !isWhite c) := by
    rw [List.takeWhile_append]
    split
    · rename_i h
      rw [List.takeWhile_cons, if_neg (by simp [hw])]
      simp [(List.takeWhile_prefix (p := fun c => !isWhite c) (l := a)).eq_of_length h]
    · rfl
  unfold MentionAt
  rw [ht]
  cases a with
  | nil =>
    simp only [List.nil_append, List.head?_cons, Option.some.injEq, List.head?_nil]
    constructor
    · rintro ⟨⟨c, rfl, h⟩, _⟩; rw [alnum_not_white h] at hw; cases hw
    · rintro ⟨⟨c, h, _⟩, _⟩; cases h
  | cons x a' => simp

theorem hasMention_white (a : Str) (w : Char) (hw : isWhite w = true) :
    HasMention (a ++ [w]) ↔ HasMention a := by
  induction a with
  | nil =>
    rw [List.nil_append, hasMention_cons]
    constructor
    · rintro (⟨_, h⟩ | h)
      · exact absurd h not_mentionAt_nil
      · exact h
    · exact .inr
  | cons x xs ih =>
    rw [List.cons_append, hasMention_cons, hasMention_cons, ih, mentionAt_white xs w [] hw]

theorem stripCr_mention (l : Str) : HasMention (stripCr l) ↔ HasMention l := by
  unfold stripCr
  split
  · rename_i h
    obtain ⟨l', rfl⟩ : ∃ l', l = l' ++ ['\r'] := by
      have hne : l ≠ [] := by rintro rfl; simp at h
      refine ⟨l.dropLast, ?_⟩
      have := List.dropLast_append_getLast hne
      rw [List.getLast?_eq_some_getLast hne] at h
      simp only [Option.some.injEq] at h
      rw [h] at this
      exact this.symm
    rw [List.dropLast_concat, hasMention_white l' '\r' (by decide)]
  · exact Iff.rfl

theorem not_hasMention_nil : ¬ HasMention [] := by
  rintro ⟨pre, post, h, _⟩
  have := congrArg List.length h
  simp at this

/-- The `n`-th line (pieces between line breaks) has a mention. -/
theorem linesOf_mention (ps : List Str) (n : Nat) :
    (∃ l, (linesOf ps)[n]? = some l ∧ lineMention l = true) ↔ ∃ l, ps[n]? = some l ∧ HasMention l := by
  induction ps generalizing n with
  | nil => simp [linesOf]
  | cons l rest ih =>
    cases rest with
    | nil =>
      unfold linesOf
      cases l with
      | nil =>
        simp only [List.isEmpty_nil, if_true]
        constructor
        · rintro ⟨l, h, _⟩; simp at h
        · rintro ⟨l, h, hm⟩
          cases n with
          | zero => simp at h; subst h; exact absurd hm not_hasMention_nil
          | succ n => simp at h
      | cons c t => simp only [List.isEmpty_cons, Bool.false_eq_true, if_false, lineMention_iff]
    | cons x r =>
      rw [linesOf]
      · cases n with
        | zero =>
          simp only [List.getElem?_cons_zero, Option.some.injEq, exists_eq_left']
          rw [lineMention_iff, stripCr_mention]
        | succ n =>
          simp only [List.getElem?_cons_succ]
          exact ih n
      · simp

theorem splitC_mention (s : Str) (n : Nat) :
    (∃ l, (splitC '\n' s)[n]? = some l ∧ HasMention l) ↔ Mention s n := by
  induction s generalizing n with
  | nil =>
    constructor
    · rintro ⟨l, h, hm⟩
      cases n with
      | zero => simp [splitC] at h; subst h; exact absurd hm not_hasMention_nil
      | succ n => simp [splitC] at h
    · rintro ⟨pre, post, h, _⟩
      have := congrArg List.length h
      simp at this
  | cons x xs ih =>
    have hcons : ∀ n, Mention (x :: xs) n ↔
        (x = '@' ∧ n = 0 ∧ MentionAt xs) ∨ (∃ k, Mention xs k ∧ n = k + (if x = '\n' then 1 else 0)) := by
      intro n
      constructor
      · rintro ⟨pre, post, h, hn, h1, h2⟩
        cases pre with
        | nil =>
          simp at h; obtain ⟨rfl, rfl⟩ := h
          exact .inl ⟨rfl, by simpa using hn.symm, h1, h2⟩
        | cons y pre' =>
          simp at h; obtain ⟨rfl, rfl⟩ := h
          refine .inr ⟨pre'.count '\n', ⟨pre', post, rfl, rfl, h1, h2⟩, ?_⟩
          rw [← hn, List.count_cons]
          simp
      · rintro (⟨rfl, rfl, h1, h2⟩ | ⟨k, ⟨pre, post, rfl, rfl, h1, h2⟩, rfl⟩)
        · exact ⟨[], xs, rfl, rfl, h1, h2⟩
        · refine ⟨x :: pre, post, rfl, ?_, h1, h2⟩
          rw [List.count_cons]
          simp
    rw [hcons]
    unfold splitC
    by_cases hx : x = '\n'
    · rw [if_pos hx]
      subst hx
      have hne : ¬ ('\n' = '@') := by decide
      simp only [hne, false_and, false_or, if_true]
      cases n with
      | zero =>
        simp only [List.getElem?_cons_zero, Option.some.injEq, exists_eq_left', not_hasMention_nil,
          false_iff]
        rintro ⟨k, _, h⟩; omega
      | succ n =>
        simp only [List.getElem?_cons_succ, ih]
        constructor
        · intro h; exact ⟨n, h, rfl⟩
        · rintro ⟨k, h, e⟩
          have : n = k := by omega
          subst this; exact h
    · rw [if_neg hx]
      simp only [hx, if_false, Nat.add_zero, exists_eq_right']
      cases hs : splitC '\n' xs with
      | nil => exact absurd hs (splitC_ne_nil _ _)
      | cons h t =>
        have hp : ∃ r, (xs = h ∧ r = ([] : Str)) ∨ (xs = h ++ '\n' :: r) := by
          have := joinC_splitC '\n' xs
          rw [hs] at this
          cases t with
          | nil => exact ⟨[], .inl ⟨this.symm, rfl⟩⟩
          | cons y ys =>
            rw [joinC_cons _ _ (by simp)] at this
            exact ⟨_, .inr this.symm⟩
        have hat : MentionAt xs ↔ MentionAt h := by
          obtain ⟨r, ⟨e, _⟩ | e⟩ := hp
          · rw [e]
          · rw [e]; exact mentionAt_white h '\n' r (by decide)
        have ihn := ih n
        rw [hs] at ihn
        cases n with
        | zero =>
          simp only [List.getElem?_cons_zero, Option.some.injEq, exists_eq_left'] at ihn ⊢
          rw [← ihn, hasMention_cons, hat]
          simp
        | succ n =>
          simp only [List.getElem?_cons_succ] at ihn ⊢
          rw [ihn]
          constructor
          · exact .inr
          · rintro (⟨_, h, _⟩ | h)
            · cases h
            · exact h

theorem mentionsFrom_mem (ls : List Str) (i : Nat) (f : Finding) :
    f ∈ mentionsFrom i ls ↔ ∃ n, f = .mention (i + n) ∧ ∃ l, ls[n]? = some l ∧ lineMention l = true := by
  induction ls generalizing i with
  | nil => simp [mentionsFrom]
  | cons l ls ih =>
    have key : (∃ n, f = Finding.mention (i + n) ∧ ∃ l', (l :: ls)[n]? = some l' ∧ lineMention l' = true) ↔
        (f = .mention i ∧ lineMention l = true) ∨ f ∈ mentionsFrom (i + 1) ls := by
      rw [ih]
      constructor
      · rintro ⟨n, hf, l', hl, hm⟩
        cases n with
        | zero => simp at hl; subst hl; exact .inl ⟨hf, hm⟩
        | succ n => exact .inr ⟨n, by rw [hf]; congr 1; omega, l', by simpa using hl, hm⟩
      · rintro (⟨hf, hm⟩ | ⟨n, hf, l', hl, hm⟩)
        · exact ⟨0, hf, l, rfl, hm⟩
        · exact ⟨n + 1, by rw [hf]; congr 1; omega, l', by simpa using hl, hm⟩
    rw [key, mentionsFrom]
    by_cases hm : lineMention l = true
    · rw [if_pos hm]; simp [hm]
    · rw [if_neg hm]; simp [hm]

/-- The mentions the linter reports are the mentions of the Markdown. -/
theorem lintMentions_mem (md : Str) (f : Finding) :
    f ∈ lintMentions md ↔ ∃ n, f = .mention n ∧ Mention md n := by
  unfold lintMentions
  have hk : f ∈ mentionsFrom 0 (lines md) ↔ ∃ n, f = .mention n ∧ Mention md n := by
    rw [mentionsFrom_mem]
    unfold lines
    simp only [Nat.zero_add, linesOf_mention, splitC_mention]
  by_cases h : md.contains '@' = true
  · rw [if_pos h]; exact hk
  · rw [if_neg h]
    simp only [List.not_mem_nil, false_iff]
    rintro ⟨n, _, pre, post, rfl, _⟩
    exact h (by simp)

/-! ### Metadata -/

theorem hasKey_single (k : Str) (v : Toml) (n : String) : HasKey [(k, v)] n ↔ k = n.toList := by
  unfold HasKey
  constructor
  · rintro ⟨w, h⟩
    simp only [List.mem_singleton, Prod.mk.injEq] at h
    exact h.1.symm
  · rintro rfl; exact ⟨v, by simp⟩

theorem hasKey_cons (k : Str) (v : Toml) (m : TomlTable) (n : String) :
    HasKey ((k, v) :: m) n ↔ k = n.toList ∨ HasKey m n := by
  rw [← hasKey_single k v n]
  unfold HasKey
  constructor
  · rintro ⟨w, h⟩
    rcases List.mem_cons.mp h with h | h
    · exact .inl ⟨w, by simp [h]⟩
    · exact .inr ⟨w, h⟩
  · rintro (⟨w, h⟩ | ⟨w, h⟩)
    · exact ⟨w, by simp only [List.mem_singleton] at h; simp [h]⟩
    · exact ⟨w, List.mem_cons_of_mem _ h⟩

theorem otherCategories_mem (cs : List Category) (f : Finding) :
    f ∈ otherCategories cs ↔ ∃ s, f = .unknownCategory s ∧ Category.other s ∈ cs := by
  induction cs with
  | nil => simp [otherCategories]
  | cons c cs ih =>
    cases c
    case other s =>
      simp only [otherCategories, List.mem_cons, ih, Category.other.injEq]
      constructor
      · rintro (rfl | ⟨t, rfl, h⟩)
        · exact ⟨s, rfl, .inl rfl⟩
        · exact ⟨t, rfl, .inr h⟩
      · rintro ⟨t, rfl, rfl | h⟩
        · exact .inl rfl
        · exact .inr ⟨t, rfl, h⟩
    all_goals
      simp only [otherCategories, ih, List.mem_cons, reduceCtorEq, false_or]

/-- The year of an ID that the linter compares with the date. -/
def idYear (a : AdvisoryFile) : Option Nat :=
  if a.metadata.id.kind = .other ∨ a.metadata.id.kind = .cve then none else a.metadata.id.year

theorem lintId_year (a : AdvisoryFile) (draft : Option Bool) (year : Option Nat) :
    (lintId a draft year).1 = (match idYear a with
      | none => year
      | some y1 => some (year.getD y1)) ∧
    (Finding.yearMismatch ∈ (lintId a draft year).2 ↔ ∃ y1 y2, idYear a = some y1 ∧ year = some y2 ∧ y1 ≠ y2) := by
  have hf0 : Finding.yearMismatch ∉ lintDraft a draft := by
    unfold lintDraft
    split
    · split <;> simp
    · simp
  unfold lintId idYear isOther isCve
  simp only [beq_iff_eq]
  by_cases ho : a.metadata.id.kind = .other
  · simp [ho, hf0]
  · rw [if_neg ho]
    by_cases hc : a.metadata.id.kind = .cve
    · cases hy : a.metadata.id.year <;> simp [hc, hf0]
    · cases hy : a.metadata.id.year with
      | none => simp [ho, hc, hf0]
      | some y1 =>
        simp only [ho, hc, or_self, if_false]
        cases year with
        | none => simp [hf0]
        | some y2 =>
          by_cases e : y1 = y2
          · simp [e, hf0]
          · simp [e]

theorem lintId_other (a : AdvisoryFile) (draft : Option Bool) (year : Option Nat) (f : Finding)
    (hf : f ≠ .yearMismatch) :
    f ∈ (lintId a draft year).2 ↔
      (f = .draftMismatch ∧ ∃ d, draft = some d ∧ a.metadata.id.isPlaceholder ≠ d) ∨
      (f = .otherId ∧ a.metadata.id.kind = .other) := by
  have hf1 : f ∈ lintDraft a draft ↔
      (f = .draftMismatch ∧ ∃ d, draft = some d ∧ a.metadata.id.isPlaceholder ≠ d) := by
    unfold lintDraft
    cases draft with
    | none => simp
    | some d =>
      by_cases e : a.metadata.id.isPlaceholder = d
      · simp [e]
      · simp [e]
  unfold lintId isOther isCve
  simp only [beq_iff_eq]
  by_cases ho : a.metadata.id.kind = .other
  · rw [if_pos ho]
    simp only [List.mem_append, hf1, List.mem_singleton, ho, and_true]
  · rw [if_neg ho]
    cases hy : a.metadata.id.year with
    | none => simp only [hf1, ho, and_false, or_false]
    | some y1 =>
      simp only
      split
      · simp only [hf1, ho, and_false, or_false]
      · split
        · split
          · simp only [List.mem_append, hf1, List.mem_singleton, hf, ho, and_false, or_false]
          · simp only [hf1, ho, and_false, or_false]
        · simp only [hf1, ho, and_false, or_false]

theorem placeholder_ne (a : AdvisoryFile) (d : Bool) :
    a.metadata.id.isPlaceholder ≠ d ↔
      (d = true ↔ a.metadata.id.string ≠ "RUSTSEC-0000-0000".toList) := by
  unfold Id.isPlaceholder placeholder
  generalize "RUSTSEC-0000-0000".toList = p
  by_cases h : a.metadata.id.string = p
  · cases d <;> simp [h]
  · cases d <;> simp [h]

theorem license_other (l : Str) :
    (∃ s, License.fromStr l = .other s) ↔ l ≠ "CC0-1.0".toList ∧ l ≠ "CC-BY-4.0".toList := by
  unfold License.fromStr
  by_cases h1 : l = "CC0-1.0".toList
  · rw [if_pos h1]; simp only [h1, ne_eq, not_true_eq_false, false_and, iff_false]
    rintro ⟨s, h⟩; cases h
  · rw [if_neg h1]
    by_cases h2 : l = "CC-BY-4.0".toList
    · rw [if_pos h2]; simp only [h2, ne_eq, not_true_eq_false, and_false, iff_false]
      rintro ⟨s, h⟩; cases h
    · rw [if_neg h2]; exact ⟨fun _ => ⟨h1, h2⟩, fun _ => ⟨l, rfl⟩⟩

theorem not_startsWith (u : Str) : (!startsWith u "https://") = true ↔ ∀ r, u ≠ "https://".toList ++ r := by
  rw [Bool.not_eq_true', ← Bool.not_eq_true, startsWith_iff]
  push Not
  rfl

/-- The keys the linter handles one by one. -/
theorem metadataKeys_cases (k : Str) :
    (k ≠ "collection".toList ∧ ∀ n ∈ metadataKeys, k ≠ n.toList) ↔
      (k ≠ "id".toList ∧ k ≠ "categories".toList ∧ k ≠ "collection".toList ∧ k ≠ "informational".toList ∧
       k ≠ "url".toList ∧ k ≠ "date".toList ∧ k ≠ "yanked".toList ∧ k ≠ "license".toList ∧ k ∉ plainKeys) := by
  unfold metadataKeys plainKeys
  simp only [List.forall_mem_cons]
  simp only [List.mem_cons, not_or, List.not_mem_nil, not_false_eq_true, and_true,
    false_implies, implies_true, ← ne_eq]
  constructor
  · rintro ⟨h3, h1, h2, h4, h5, h6, h7, h8, p1, p2, p3, p4, p5, p6, p7, p8, p9, p10⟩
    exact ⟨h1, h2, h3, h4, h5, h6, h7, h8, p1, p2, p3, p4, p5, p6, p7, p8, p9, p10⟩
  · rintro ⟨h1, h2, h3, h4, h5, h6, h7, h8, p1, p2, p3, p4, p5, p6, p7, p8, p9, p10⟩
    exact ⟨h3, h1, h2, h4, h5, h6, h7, h8, p1, p2, p3, p4, p5, p6, p7, p8, p9, p10⟩

theorem lintMetaKey_id (a : AdvisoryFile) (draft : Option Bool) (year : Option Nat) (v : Toml) :
    lintMetaKey a draft year "id".toList v = .ok (lintId a draft year) := by
  unfold lintMetaKey
  rw [if_pos rfl]

theorem lintMetaKey_categories (a : AdvisoryFile) (draft : Option Bool) (year : Option Nat) (v : Toml) :
    lintMetaKey a draft year "categories".toList v = .ok (year, otherCategories a.metadata.categories) := by
  unfold lintMetaKey
  rw [if_neg (show ¬ "categories".toList = "id".toList by decide),
    if_pos rfl]

theorem lintMetaKey_collection (a : AdvisoryFile) (draft : Option Bool) (year : Option Nat) (v : Toml) :
    lintMetaKey a draft year "collection".toList v = .ok (year, [.explicitCollection]) := by
  unfold lintMetaKey
  rw [if_neg (show ¬ "collection".toList = "id".toList by decide),
    if_neg (show ¬ "collection".toList = "categories".toList by decide),
    if_pos rfl]

theorem lintMetaKey_informational (a : AdvisoryFile) (draft : Option Bool) (year : Option Nat) (v : Toml) (s : Str) (h : a.metadata.informational = some (.other s)) :
    lintMetaKey a draft year "informational".toList v = .ok (year, [.unknownInformational s]) := by
  unfold lintMetaKey
  rw [if_neg (show ¬ "informational".toList = "id".toList by decide),
    if_neg (show ¬ "informational".toList = "categories".toList by decide),
    if_neg (show ¬ "informational".toList = "collection".toList by decide),
    if_pos rfl]
  simp only [h]

theorem lintMetaKey_url (a : AdvisoryFile) (draft : Option Bool) (year : Option Nat) (u : Str) :
    lintMetaKey a draft year "url".toList (.str u) = .ok (year, if !startsWith u "https://" then [.insecureUrl u] else []) := by
  unfold lintMetaKey
  rw [if_neg (show ¬ "url".toList = "id".toList by decide),
    if_neg (show ¬ "url".toList = "categories".toList by decide),
    if_neg (show ¬ "url".toList = "collection".toList by decide),
    if_neg (show ¬ "url".toList = "informational".toList by decide),
    if_pos rfl]

theorem lintMetaKey_date (a : AdvisoryFile) (draft : Option Bool) (year : Option Nat) (v : Toml) :
    lintMetaKey a draft year "date".toList v = lintDate a year := by
  unfold lintMetaKey
  rw [if_neg (show ¬ "date".toList = "id".toList by decide),
    if_neg (show ¬ "date".toList = "categories".toList by decide),
    if_neg (show ¬ "date".toList = "collection".toList by decide),
    if_neg (show ¬ "date".toList = "informational".toList by decide),
    if_neg (show ¬ "date".toList = "url".toList by decide),
    if_pos rfl]

theorem lintMetaKey_yanked (a : AdvisoryFile) (draft : Option Bool) (year : Option Nat) (v : Toml) :
    lintMetaKey a draft year "yanked".toList v = .ok (year, if a.metadata.withdrawn.isNone then [.yankedDeprecated] else []) := by
  unfold lintMetaKey
  rw [if_neg (show ¬ "yanked".toList = "id".toList by decide),
    if_neg (show ¬ "yanked".toList = "categories".toList by decide),
    if_neg (show ¬ "yanked".toList = "collection".toList by decide),
    if_neg (show ¬ "yanked".toList = "informational".toList by decide),
    if_neg (show ¬ "yanked".toList = "url".toList by decide),
    if_neg (show ¬ "yanked".toList = "date".toList by decide),
    if_pos rfl]

theorem lintMetaKey_license (a : AdvisoryFile) (draft : Option Bool) (year : Option Nat) (l s : Str) (h : License.fromStr l = .other s) :
    lintMetaKey a draft year "license".toList (.str l) = .ok (year, [.unknownLicense l]) := by
  unfold lintMetaKey
  rw [if_neg (show ¬ "license".toList = "id".toList by decide),
    if_neg (show ¬ "license".toList = "categories".toList by decide),
    if_neg (show ¬ "license".toList = "collection".toList by decide),
    if_neg (show ¬ "license".toList = "informational".toList by decide),
    if_neg (show ¬ "license".toList = "url".toList by decide),
    if_neg (show ¬ "license".toList = "date".toList by decide),
    if_neg (show ¬ "license".toList = "yanked".toList by decide),
    if_pos rfl]
  simp only [h]

set_option maxHeartbeats 2000000 in
theorem lintMetaKey_mem {a : AdvisoryFile} {draft : Option Bool} {year year' : Option Nat} {k : Str}
    {v : Toml} {fs : List Finding} (h : lintMetaKey a draft year k v = .ok (year', fs)) (f : Finding)
    (hf : f ≠ .yearMismatch) : f ∈ fs ↔ MetaProblem a draft [(k, v)] f := by
  have hsingle : ∀ {k' v'}, (k', v') ∈ [(k, v)] → k = k' ∧ v = v' := by
    intro k' v' h
    simp only [List.mem_singleton, Prod.mk.injEq] at h
    exact ⟨h.1.symm, h.2.symm⟩
  constructor
  · intro hm
    unfold lintMetaKey at h
    split at h
    · rename_i hk
      have e : (lintId a draft year).2 = fs := by rw [Outcome.ok.inj h]
      rw [← e] at hm
      rcases (lintId_other a draft year f hf).mp hm with ⟨rfl, d, hd, hp⟩ | ⟨rfl, ho⟩
      · exact .draft d ((hasKey_single _ _ _).mpr hk) hd ((placeholder_ne a d).mp hp)
      · exact .otherId ((hasKey_single _ _ _).mpr hk) ho
    split at h
    · rename_i hk
      cases h
      obtain ⟨s, rfl, hs⟩ := (otherCategories_mem _ _).mp hm
      exact .category s ((hasKey_single _ _ _).mpr hk) hs
    split at h
    · rename_i hk
      cases h
      simp only [List.mem_singleton] at hm
      subst hm
      exact .collection ((hasKey_single _ _ _).mpr hk)
    split at h
    · rename_i hk
      split at h
      · cases h
      · rename_i s hi
        cases h
        simp only [List.mem_singleton] at hm
        subst hm
        exact .informational s ((hasKey_single _ _ _).mpr hk) hi
      · cases h; cases hm
    split at h
    · rename_i hk
      split at h
      · rename_i u
        cases h
        split at hm
        · rename_i hu
          simp only [List.mem_singleton] at hm
          subst hm
          exact .url u (by rw [hk]; simp) ((not_startsWith u).mp hu)
        · cases hm
      · cases h; cases hm
    split at h
    · unfold lintDate at h
      split at h
      · split at h
        · split at h
          · cases h
            simp only [List.mem_singleton] at hm
            exact absurd hm hf
          · cases h; cases hm
        · cases h; cases hm
      · cases h
      · cases h
    split at h
    · rename_i hk
      cases h
      split at hm
      · rename_i hw
        simp only [List.mem_singleton] at hm
        subst hm
        exact .yanked ((hasKey_single _ _ _).mpr hk) (by simpa using hw)
      · cases hm
    split at h
    · rename_i hk
      split at h
      · rename_i l
        split at h
        · rename_i s hs
          cases h
          simp only [List.mem_singleton] at hm
          subst hm
          obtain ⟨h1, h2⟩ := (license_other l).mp ⟨s, hs⟩
          exact .license l (by rw [hk]; simp) h1 h2
        · cases h; cases hm
      · cases h; cases hm
    split at h
    · cases h; cases hm
    · cases h
      simp only [List.mem_singleton] at hm
      subst hm
      obtain ⟨h1, h2⟩ := (metadataKeys_cases k).mpr ⟨by assumption, by assumption, by assumption,
        by assumption, by assumption, by assumption, by assumption, by assumption, by assumption⟩
      exact .key k v (by simp) h1 h2
  · intro hp
    cases hp with
    | draft d hk hd hi =>
      rw [hasKey_single] at hk; subst hk
      rw [lintMetaKey_id] at h
      have e : (lintId a draft year).2 = fs := by rw [Outcome.ok.inj h]
      rw [← e]
      exact (lintId_other a draft year _ hf).mpr (.inl ⟨rfl, d, hd, (placeholder_ne a d).mpr hi⟩)
    | otherId hk ho =>
      rw [hasKey_single] at hk; subst hk
      rw [lintMetaKey_id] at h
      have e : (lintId a draft year).2 = fs := by rw [Outcome.ok.inj h]
      rw [← e]
      exact (lintId_other a draft year _ hf).mpr (.inr ⟨rfl, ho⟩)
    | year y1 y2 => exact absurd rfl hf
    | category s hk hs =>
      rw [hasKey_single] at hk; subst hk
      rw [lintMetaKey_categories] at h; cases h
      exact (otherCategories_mem _ _).mpr ⟨s, rfl, hs⟩
    | collection hk =>
      rw [hasKey_single] at hk; subst hk
      rw [lintMetaKey_collection] at h; cases h
      exact List.mem_singleton.mpr rfl
    | informational s hk hi =>
      rw [hasKey_single] at hk; subst hk
      rw [lintMetaKey_informational a draft year v s hi] at h; cases h
      exact List.mem_singleton.mpr rfl
    | url u hk hu =>
      obtain ⟨rfl, rfl⟩ := hsingle hk
      rw [lintMetaKey_url, if_pos ((not_startsWith u).mpr hu)] at h
      cases h
      exact List.mem_singleton.mpr rfl
    | yanked hk hw =>
      rw [hasKey_single] at hk; subst hk
      rw [lintMetaKey_yanked, hw, if_pos (show (none : Option DateText).isNone = true from rfl)] at h
      cases h
      exact List.mem_singleton.mpr rfl
    | license l hk h1 h2 =>
      obtain ⟨rfl, rfl⟩ := hsingle hk
      obtain ⟨s, hs⟩ := (license_other l).mpr ⟨h1, h2⟩
      rw [lintMetaKey_license a draft year l s hs] at h
      cases h
      exact List.mem_singleton.mpr rfl
    | key k' v' hk h1 h2 =>
      obtain ⟨rfl, rfl⟩ := hsingle hk
      obtain ⟨n1, n2, n3, n4, n5, n6, n7, n8, n9⟩ := (metadataKeys_cases k).mp ⟨h1, h2⟩
      unfold lintMetaKey at h
      rw [if_neg n1, if_neg n2, if_neg n3, if_neg n4, if_neg n5, if_neg n6, if_neg n7, if_neg n8,
        if_neg n9] at h
      cases h
      exact List.mem_singleton.mpr rfl

theorem metaProblem_cons {a : AdvisoryFile} {draft : Option Bool} (kv : Str × Toml) (m : TomlTable)
    (f : Finding) (hf : f ≠ .yearMismatch) :
    MetaProblem a draft (kv :: m) f ↔ MetaProblem a draft [kv] f ∨ MetaProblem a draft m f := by
  obtain ⟨k, v⟩ := kv
  have hmem : ∀ {e : Str × Toml}, e ∈ (k, v) :: m ↔ e ∈ [(k, v)] ∨ e ∈ m := by
    intro e; simp
  have hkey : ∀ n, HasKey ((k, v) :: m) n ↔ HasKey [(k, v)] n ∨ HasKey m n := by
    intro n; rw [hasKey_cons, hasKey_single]
  constructor
  · intro h
    cases h with
    | draft d hk hd hi =>
      exact ((hkey _).mp hk).imp (fun hk => .draft d hk hd hi) (fun hk => .draft d hk hd hi)
    | otherId hk ho => exact ((hkey _).mp hk).imp (fun hk => .otherId hk ho) (fun hk => .otherId hk ho)
    | year y1 y2 => exact absurd rfl hf
    | category s hk hs =>
      exact ((hkey _).mp hk).imp (fun hk => .category s hk hs) (fun hk => .category s hk hs)
    | collection hk => exact ((hkey _).mp hk).imp (fun hk => .collection hk) (fun hk => .collection hk)
    | informational s hk hi =>
      exact ((hkey _).mp hk).imp (fun hk => .informational s hk hi) (fun hk => .informational s hk hi)
    | url u hk hu => exact (hmem.mp hk).imp (fun hk => .url u hk hu) (fun hk => .url u hk hu)
    | yanked hk hw => exact ((hkey _).mp hk).imp (fun hk => .yanked hk hw) (fun hk => .yanked hk hw)
    | license l hk h1 h2 =>
      exact (hmem.mp hk).imp (fun hk => .license l hk h1 h2) (fun hk => .license l hk h1 h2)
    | key k' v' hk h1 h2 =>
      exact (hmem.mp hk).imp (fun hk => .key k' v' hk h1 h2) (fun hk => .key k' v' hk h1 h2)
  · intro h
    have lift : ∀ m', (∀ {e : Str × Toml}, e ∈ m' → e ∈ (k, v) :: m) → MetaProblem a draft m' f →
        MetaProblem a draft ((k, v) :: m) f := by
      intro m' hs h
      have hk' : ∀ {n}, HasKey m' n → HasKey ((k, v) :: m) n := fun ⟨w, hw⟩ => ⟨w, hs hw⟩
      cases h with
      | draft d hk hd hi => exact .draft d (hk' hk) hd hi
      | otherId hk ho => exact .otherId (hk' hk) ho
      | year y1 y2 => exact absurd rfl hf
      | category s hk hc => exact .category s (hk' hk) hc
      | collection hk => exact .collection (hk' hk)
      | informational s hk hi => exact .informational s (hk' hk) hi
      | url u hk hu => exact .url u (hs hk) hu
      | yanked hk hw => exact .yanked (hk' hk) hw
      | license l hk h1 h2 => exact .license l (hs hk) h1 h2
      | key k' v' hk h1 h2 => exact .key k' v' (hs hk) h1 h2
    rcases h with h | h
    · exact lift _ (fun he => hmem.mpr (.inl he)) h
    · exact lift _ (fun he => hmem.mpr (.inr he)) h

/-- One step of the loop. -/
theorem lintMetaKeys_cons {a : AdvisoryFile} {draft : Option Bool} {year : Option Nat} {k : Str} {v : Toml}
    {m : TomlTable} {fs : List Finding} (h : lintMetaKeys a draft year ((k, v) :: m) = .ok fs) :
    ∃ y' fs1 fs2, lintMetaKey a draft year k v = .ok (y', fs1) ∧ lintMetaKeys a draft y' m = .ok fs2 ∧
      fs = fs1 ++ fs2 := by
  rw [lintMetaKeys] at h
  cases h1 : lintMetaKey a draft year k v with
  | ok r =>
    obtain ⟨y', fs1⟩ := r
    rw [h1] at h
    simp only at h
    cases h2 : lintMetaKeys a draft y' m with
    | ok fs2 => rw [h2] at h; cases h; exact ⟨y', fs1, fs2, rfl, h2, rfl⟩
    | err => rw [h2] at h; cases h
    | panic => rw [h2] at h; cases h
  | err => rw [h1] at h; cases h
  | panic => rw [h1] at h; cases h

theorem lintMetaKeys_other {a : AdvisoryFile} {draft : Option Bool} (m : TomlTable) :
    ∀ {year : Option Nat} {fs : List Finding}, lintMetaKeys a draft year m = .ok fs →
      ∀ f, f ≠ .yearMismatch → (f ∈ fs ↔ MetaProblem a draft m f) := by
  induction m with
  | nil =>
    intro year fs h f hf
    cases h
    simp only [List.not_mem_nil, false_iff]
    intro hp
    have hk : ∀ {n}, ¬ HasKey [] n := by rintro n ⟨w, h⟩; cases h
    cases hp with
    | draft d h => exact hk h
    | otherId h => exact hk h
    | year y1 y2 => exact absurd rfl hf
    | category s h => exact hk h
    | collection h => exact hk h
    | informational s h => exact hk h
    | url u h => cases h
    | yanked h => exact hk h
    | license l h => cases h
    | key k v h => cases h
  | cons kv m ih =>
    obtain ⟨k, v⟩ := kv
    intro year fs h f hf
    obtain ⟨y', fs1, fs2, h1, h2, rfl⟩ := lintMetaKeys_cons h
    rw [List.mem_append, metaProblem_cons _ _ _ hf, lintMetaKey_mem h1 f hf, ih h2 f hf]

/-- How one key changes the remembered year and reports a mismatch. -/
theorem lintMetaKey_year {a : AdvisoryFile} {draft : Option Bool} {year year' : Option Nat} {k : Str}
    {v : Toml} {fs : List Finding} (h : lintMetaKey a draft year k v = .ok (year', fs)) :
    (k = "id".toList ∧ year' = (match idYear a with
        | none => year
        | some y1 => some (year.getD y1)) ∧
      (Finding.yearMismatch ∈ fs ↔ ∃ y1 y2, idYear a = some y1 ∧ year = some y2 ∧ y1 ≠ y2)) ∨
    (k = "date".toList ∧ ∃ y2, a.metadata.date.year = .ok y2 ∧ year' = some (year.getD y2) ∧
      (Finding.yearMismatch ∈ fs ↔ ∃ y1, year = some y1 ∧ y1 ≠ y2)) ∨
    (k ≠ "id".toList ∧ k ≠ "date".toList ∧ year' = year ∧ Finding.yearMismatch ∉ fs) := by
  by_cases hid : k = "id".toList
  · left
    unfold lintMetaKey at h
    rw [if_pos hid] at h
    have := lintId_year a draft year
    cases hl : lintId a draft year with
    | mk y l =>
      rw [hl] at h this
      cases h
      exact ⟨hid, this.1, this.2⟩
  · by_cases hd : k = "date".toList
    · right; left
      refine ⟨hd, ?_⟩
      subst hd
      rw [lintMetaKey_date] at h
      unfold lintDate at h
      cases hy : a.metadata.date.year with
      | ok y2 =>
        rw [hy] at h
        simp only at h
        refine ⟨y2, rfl, ?_⟩
        cases year with
        | none => cases h; simp
        | some y1 =>
          simp only at h
          by_cases e : y2 = y1
          · rw [if_neg (by simpa using e)] at h; cases h; simp [e]
          · rw [if_pos e] at h
            cases h
            refine ⟨by simp, ?_⟩
            simp only [List.mem_singleton, true_iff, Option.some.injEq]
            exact ⟨y1, rfl, fun h => e h.symm⟩
      | err => rw [hy] at h; cases h
      | panic => rw [hy] at h; cases h
    · right; right
      refine ⟨hid, hd, ?_⟩
      unfold lintMetaKey at h
      rw [if_neg hid] at h
      split at h
      · cases h; exact ⟨rfl, by rw [otherCategories_mem]; rintro ⟨s, h, _⟩; cases h⟩
      split at h
      · cases h; exact ⟨rfl, by simp⟩
      split at h
      · split at h <;> cases h <;> exact ⟨rfl, by simp⟩
      split at h
      · split at h
        · cases h
          refine ⟨rfl, ?_⟩
          split <;> simp
        · cases h; exact ⟨rfl, by simp⟩

      split at h
      · cases h
        refine ⟨rfl, ?_⟩
        split <;> simp
      split at h
      · split at h
        · split at h <;> cases h <;> exact ⟨rfl, by simp⟩
        · cases h; exact ⟨rfl, by simp⟩
      split at h <;> cases h <;> exact ⟨rfl, by simp⟩

/-- Once the date's year is remembered: a mismatch is reported exactly if an `id` follows whose year differs. -/
theorem lintMetaKeys_afterDate {a : AdvisoryFile} {draft : Option Bool} (m : TomlTable) {y2 : Nat}
    (hy : a.metadata.date.year = .ok y2) :
    ∀ {fs : List Finding}, lintMetaKeys a draft (some y2) m = .ok fs →
      (Finding.yearMismatch ∈ fs ↔ HasKey m "id" ∧ ∃ y1, idYear a = some y1 ∧ y1 ≠ y2) := by
  induction m with
  | nil => intro fs h; cases h; simp [HasKey]
  | cons kv m ih =>
    obtain ⟨k, v⟩ := kv
    intro fs h
    obtain ⟨y', fs1, fs2, h1, h2, rfl⟩ := lintMetaKeys_cons h
    rw [List.mem_append, hasKey_cons]
    rcases lintMetaKey_year h1 with ⟨hk, hy', hm⟩ | ⟨hk, y, hyd, hy', hm⟩ | ⟨hk, hk2, hy', hm⟩
    · have : y' = some y2 := by rw [hy']; cases idYear a <;> rfl
      subst this
      rw [hm, ih h2]
      constructor
      · rintro (⟨y1, y, e1, e2, hne⟩ | ⟨_, h⟩)
        · cases e2; exact ⟨.inl hk, y1, e1, hne⟩
        · exact ⟨.inl hk, h⟩
      · rintro ⟨_, y1, e1, hne⟩
        exact .inl ⟨y1, y2, e1, rfl, hne⟩
    · rw [hyd] at hy; cases hy
      subst hy'
      rw [hm, ih h2]
      have hid : k ≠ "id".toList := by rw [hk]; decide
      constructor
      · rintro (⟨y1, e1, hne⟩ | ⟨h, h'⟩)
        · cases e1; exact absurd rfl hne
        · exact ⟨.inr h, h'⟩
      · rintro ⟨h | h, h'⟩
        · exact absurd h hid
        · exact .inr ⟨h, h'⟩
    · subst hy'
      rw [ih h2]
      constructor
      · rintro (h | ⟨h, h'⟩)
        · exact absurd h hm
        · exact ⟨.inr h, h'⟩
      · rintro ⟨h | h, h'⟩
        · exact absurd h hk
        · exact .inr ⟨h, h'⟩

/-- Once the ID's year is remembered: a mismatch is reported exactly if a `date` follows that differs. -/
theorem lintMetaKeys_afterId {a : AdvisoryFile} {draft : Option Bool} (m : TomlTable) {y1 : Nat}
    (hy : idYear a = some y1) :
    ∀ {fs : List Finding}, lintMetaKeys a draft (some y1) m = .ok fs →
      (Finding.yearMismatch ∈ fs ↔ HasKey m "date" ∧ ∃ y2, a.metadata.date.year = .ok y2 ∧ y1 ≠ y2) := by
  induction m with
  | nil => intro fs h; cases h; simp [HasKey]
  | cons kv m ih =>
    obtain ⟨k, v⟩ := kv
    intro fs h
    obtain ⟨y', fs1, fs2, h1, h2, rfl⟩ := lintMetaKeys_cons h
    rw [List.mem_append, hasKey_cons]
    rcases lintMetaKey_year h1 with ⟨hk, hy', hm⟩ | ⟨hk, y, hyd, hy', hm⟩ | ⟨hk, hk2, hy', hm⟩
    · have : y' = some y1 := by rw [hy', hy]; rfl
      subst this
      have hd : k ≠ "date".toList := by rw [hk]; decide
      rw [hm, ih h2, hy]
      constructor
      · rintro (⟨z, y, e1, e2, hne⟩ | ⟨h, h'⟩)
        · cases e1; cases e2; exact absurd rfl hne
        · exact ⟨.inr h, h'⟩
      · rintro ⟨h | h, h'⟩
        · exact absurd h hd
        · exact .inr ⟨h, h'⟩
    · subst hy'
      rw [hm]
      constructor
      · rintro (⟨z, e1, hne⟩ | h)
        · cases e1; exact ⟨.inl hk, y, hyd, hne⟩
        · exact ⟨.inl hk, ((ih h2).mp h).2⟩
      · rintro ⟨_, y2, e, hne⟩
        rw [hyd] at e; cases e
        exact .inl ⟨y1, rfl, hne⟩
    · subst hy'
      rw [ih h2]
      constructor
      · rintro (h | ⟨h, h'⟩)
        · exact absurd h hm
        · exact ⟨.inr h, h'⟩
      · rintro ⟨h | h, h'⟩
        · exact absurd h hk2
        · exact .inr ⟨h, h'⟩

theorem lintMetaKeys_mismatch {a : AdvisoryFile} {draft : Option Bool} (m : TomlTable) :
    ∀ {fs : List Finding}, lintMetaKeys a draft none m = .ok fs →
      (Finding.yearMismatch ∈ fs ↔ HasKey m "id" ∧ HasKey m "date" ∧
        ∃ y1 y2, idYear a = some y1 ∧ a.metadata.date.year = .ok y2 ∧ y1 ≠ y2) := by
  induction m with
  | nil => intro fs h; cases h; simp [HasKey]
  | cons kv m ih =>
    obtain ⟨k, v⟩ := kv
    intro fs h
    obtain ⟨y', fs1, fs2, h1, h2, rfl⟩ := lintMetaKeys_cons h
    rw [List.mem_append, hasKey_cons, hasKey_cons]
    rcases lintMetaKey_year h1 with ⟨hk, hy', hm⟩ | ⟨hk, y, hyd, hy', hm⟩ | ⟨hk, hk2, hy', hm⟩
    · have hd : k ≠ "date".toList := by rw [hk]; decide
      have hn : Finding.yearMismatch ∉ fs1 := by
        rw [hm]; rintro ⟨_, _, _, h, _⟩; cases h
      cases hi : idYear a with
      | none =>
        rw [hi] at hy'
        subst hy'
        rw [ih h2, hi]
        simp [hn]
      | some y1 =>
        rw [hi] at hy'
        subst hy'
        change lintMetaKeys a draft (some y1) m = .ok fs2 at h2
        rw [lintMetaKeys_afterId m hi h2]
        constructor
        · rintro (h | ⟨h, y2, e, hne⟩)
          · exact absurd h hn
          · exact ⟨.inl hk, .inr h, y1, y2, rfl, e, hne⟩
        · rintro ⟨_, h | h, z, y2, e, e2, hne⟩
          · exact absurd h hd
          · cases e; exact .inr ⟨h, y2, e2, hne⟩
    · have hid : k ≠ "id".toList := by rw [hk]; decide
      have hn : Finding.yearMismatch ∉ fs1 := by
        rw [hm]; rintro ⟨_, h, _⟩; cases h
      subst hy'
      change lintMetaKeys a draft (some y) m = .ok fs2 at h2
      rw [lintMetaKeys_afterDate m hyd h2]
      constructor
      · rintro (h | ⟨h, y1, e, hne⟩)
        · exact absurd h hn
        · exact ⟨.inr h, .inl hk, y1, y, e, hyd, hne⟩
      · rintro ⟨h | h, _, y1, y2, e, e2, hne⟩
        · exact absurd h hid
        · rw [hyd] at e2; cases e2; exact .inr ⟨h, y1, e, hne⟩
    · subst hy'
      rw [ih h2]
      constructor
      · rintro (h | ⟨h, h', h''⟩)
        · exact absurd h hm
        · exact ⟨.inr h, .inr h', h''⟩
      · rintro ⟨h | h, h' | h', h''⟩
        · exact absurd h hk
        · exact absurd h hk
        · exact absurd h' hk2
        · exact .inr ⟨h, h', h''⟩

theorem lintMetaKeys_mem {a : AdvisoryFile} {draft : Option Bool} {m : TomlTable} {fs : List Finding}
    (h : lintMetaKeys a draft none m = .ok fs) (f : Finding) : f ∈ fs ↔ MetaProblem a draft m f := by
  by_cases hf : f = .yearMismatch
  · subst hf
    rw [lintMetaKeys_mismatch m h]
    unfold idYear
    constructor
    · rintro ⟨h1, h2, y1, y2, e1, e2, hne⟩
      split at e1
      · cases e1
      · rename_i hk
        exact .year y1 y2 h1 h2 (fun e => hk (.inl e)) (fun e => hk (.inr e)) e1 e2 hne
    · intro hp
      cases hp with
      | year y1 y2 h1 h2 k1 k2 e1 e2 hne =>
        exact ⟨h1, h2, y1, y2, by rw [if_neg (by rintro (e | e); exacts [k1 e, k2 e])]; exact e1, e2, hne⟩
  · exact lintMetaKeys_other m h f hf

/-! ### Affected -/

theorem concatMap_mem {α : Type} {g : α → Outcome (List Finding)} (l : List α) :
    ∀ {fs : List Finding}, concatMap g l = .ok fs →
      ∀ f, f ∈ fs ↔ ∃ x ∈ l, ∃ gs, g x = .ok gs ∧ f ∈ gs := by
  induction l with
  | nil => intro fs h f; cases h; simp
  | cons x xs ih =>
    intro fs h f
    rw [concatMap] at h
    cases h1 : g x with
    | ok gs1 =>
      rw [h1] at h
      simp only at h
      cases h2 : concatMap g xs with
      | ok gs2 =>
        rw [h2] at h
        cases h
        rw [List.mem_append, ih h2 f]
        constructor
        · rintro (h | ⟨y, hy, gs, hg, hf⟩)
          · exact ⟨x, by simp, gs1, h1, h⟩
          · exact ⟨y, by simp [hy], gs, hg, hf⟩
        · rintro ⟨y, hy, gs, hg, hf⟩
          rcases List.mem_cons.mp hy with rfl | hy
          · rw [h1] at hg; cases hg; exact .inl hf
          · exact .inr ⟨y, hy, gs, hg, hf⟩
      | err => rw [h2] at h; cases h
      | panic => rw [h2] at h; cases h
    | err => rw [h1] at h; cases h
    | panic => rw [h1] at h; cases h

theorem concatMap_ok {α : Type} {g : α → Outcome (List Finding)} (l : List α) :
    (∃ fs, concatMap g l = .ok fs) ↔ ∀ x ∈ l, ∃ gs, g x = .ok gs := by
  induction l with
  | nil => simp [concatMap]
  | cons x xs ih =>
    rw [concatMap, List.forall_mem_cons, ← ih]
    cases g x with
    | ok gs1 => cases concatMap g xs <;> simp
    | err => simp
    | panic => simp

theorem archName (s : Str) :
    (s.isEmpty || (Plat.Arch.fromStr s).isNone) = true ↔ ∀ x : Plat.Arch, x.asStr ≠ s := by
  obtain ⟨h1, h2⟩ := C42_names.1
  constructor
  · intro h x e
    subst e
    rw [h1 x] at h
    have : (x.asStr).isEmpty = false := by cases x <;> decide +kernel
    rw [this] at h
    cases h
  · intro h
    cases hf : Plat.Arch.fromStr s with
    | none => simp
    | some x => exact absurd (h2 s x hf) (h x)

theorem lintAffectedKey_mem {a : AdvisoryFile} {k : Str} {v : Toml} {gs : List Finding}
    (h : lintAffectedKey a k = .ok gs) (f : Finding) : f ∈ gs ↔ AffectedProblem a [(k, v)] f := by
  unfold lintAffectedKey at h
  constructor
  · intro hm
    split at h
    · rename_i hk
      split at h
      · cases h
      · rename_i af haf
        cases h
        unfold foreignFunctions at hm
        obtain ⟨e, he, hx⟩ := List.mem_filterMap.mp hm
        split at hx
        · cases hx
        · rename_i hne
          cases hx
          exact .function af e.1 e.2 ((hasKey_single _ _ _).mpr hk) haf he hne
    split at h
    · rename_i hk
      split at h
      · cases h
      · rename_i af haf
        cases h
        unfold unknownArches at hm
        obtain ⟨s, hs, hx⟩ := List.mem_filterMap.mp hm
        split at hx
        · rename_i hne
          cases hx
          exact .arch af s ((hasKey_single _ _ _).mpr hk) haf hs ((archName s).mp hne)
        · cases hx
    split at h
    · rename_i hk
      split at h
      · cases h
      · rename_i af haf
        cases h
        unfold emptyOses at hm
        obtain ⟨s, hs, hx⟩ := List.mem_filterMap.mp hm
        split at hx
        · rename_i he
          cases hx
          have : s = [] := by simpa using he
          subst this
          exact .os af ((hasKey_single _ _ _).mpr hk) haf hs
        · cases hx
    · rename_i n1 n2 n3
      cases h
      simp only [List.mem_singleton] at hm
      subst hm
      exact .key k v (by simp) n1 n2 n3
  · intro hp
    cases hp with
    | function af p reqs hk haf hin hne =>
      rw [hasKey_single] at hk; subst hk
      rw [if_pos rfl, haf] at h; cases h
      exact List.mem_filterMap.mpr ⟨(p, reqs), hin, if_neg hne⟩
    | arch af s hk haf hin hne =>
      rw [hasKey_single] at hk; subst hk
      rw [if_neg (by decide), if_pos rfl, haf] at h; cases h
      exact List.mem_filterMap.mpr ⟨s, hin, if_pos ((archName s).mpr hne)⟩
    | os af hk haf hin =>
      rw [hasKey_single] at hk; subst hk
      rw [if_neg (by decide), if_neg (by decide), if_pos rfl, haf] at h; cases h
      exact List.mem_filterMap.mpr ⟨[], hin, rfl⟩
    | key k' v' hk h1 h2 h3 =>
      simp only [List.mem_singleton, Prod.mk.injEq] at hk
      obtain ⟨rfl, rfl⟩ := hk
      rw [if_neg h1, if_neg h2, if_neg h3] at h
      cases h; simp

theorem affectedProblem_iff {a : AdvisoryFile} (m : TomlTable) (f : Finding) :
    AffectedProblem a m f ↔ ∃ kv ∈ m, AffectedProblem a [kv] f := by
  constructor
  · intro h
    have hk' : ∀ {n : String}, HasKey m n → ∃ kv ∈ m, HasKey [kv] n :=
      fun ⟨w, hw⟩ => ⟨_, hw, w, by simp⟩
    cases h with
    | function af p reqs hk haf hin hne =>
      obtain ⟨kv, hm, hk⟩ := hk' hk; exact ⟨kv, hm, .function af p reqs hk haf hin hne⟩
    | arch af s hk haf hin hne =>
      obtain ⟨kv, hm, hk⟩ := hk' hk; exact ⟨kv, hm, .arch af s hk haf hin hne⟩
    | os af hk haf hin => obtain ⟨kv, hm, hk⟩ := hk' hk; exact ⟨kv, hm, .os af hk haf hin⟩
    | key k v hk h1 h2 h3 => exact ⟨(k, v), hk, .key k v (by simp) h1 h2 h3⟩
  · rintro ⟨kv, hm, h⟩
    have hk' : ∀ {n : String}, HasKey [kv] n → HasKey m n := by
      rintro n ⟨w, hw⟩
      simp only [List.mem_singleton] at hw
      exact ⟨w, hw ▸ hm⟩
    cases h with
    | function af p reqs hk haf hin hne => exact .function af p reqs (hk' hk) haf hin hne
    | arch af s hk haf hin hne => exact .arch af s (hk' hk) haf hin hne
    | os af hk haf hin => exact .os af (hk' hk) haf hin
    | key k v hk h1 h2 h3 =>
      simp only [List.mem_singleton] at hk
      exact .key k v (hk ▸ hm) h1 h2 h3

theorem lintAffected_mem {a : AdvisoryFile} {m : TomlTable} {fs : List Finding}
    (h : lintAffected a (.table m) = .ok fs) (f : Finding) : f ∈ fs ↔ AffectedProblem a m f := by
  unfold lintAffected at h
  rw [concatMap_mem m h f, affectedProblem_iff]
  have hok := (concatMap_ok m).mp ⟨fs, h⟩
  constructor
  · rintro ⟨kv, hm, gs, hg, hf⟩
    exact ⟨kv, hm, (lintAffectedKey_mem (v := kv.2) hg f).mp hf⟩
  · rintro ⟨kv, hm, hp⟩
    obtain ⟨gs, hg⟩ := hok kv hm
    exact ⟨kv, hm, gs, hg, (lintAffectedKey_mem (v := kv.2) hg f).mpr hp⟩

/-! ### The whole document -/

theorem lintVersions_mem (m : TomlTable) (f : Finding) :
    f ∈ lintVersions (.table m) ↔ ∃ k v, (k, v) ∈ m ∧ k ≠ "patched".toList ∧ k ≠ "unaffected".toList ∧
      f = .unknownKey (some "versions".toList) k := by
  unfold lintVersions
  rw [List.mem_filterMap]
  constructor
  · rintro ⟨⟨k, v⟩, hm, h⟩
    split at h
    · cases h
    · rename_i hn
      cases h
      exact ⟨k, v, hm, fun e => hn (.inl e), fun e => hn (.inr e), rfl⟩
  · rintro ⟨k, v, hm, h1, h2, rfl⟩
    exact ⟨(k, v), hm, if_neg (by rintro (e | e); exacts [h1 e, h2 e])⟩

theorem lintTopKey_advisory (a : AdvisoryFile) (draft : Option Bool) (v : Toml) :
    lintTopKey a draft ("advisory".toList, v) = lintMetadata a draft v :=
  if_pos rfl

theorem lintTopKey_versions (a : AdvisoryFile) (draft : Option Bool) (v : Toml) :
    lintTopKey a draft ("versions".toList, v) = .ok (lintVersions v) :=
  (if_neg (show ¬ "versions".toList = "advisory".toList by decide)).trans (if_pos rfl)

theorem lintTopKey_affected (a : AdvisoryFile) (draft : Option Bool) (v : Toml) :
    lintTopKey a draft ("affected".toList, v) = lintAffected a v :=
  (if_neg (show ¬ "affected".toList = "advisory".toList by decide)).trans
    ((if_neg (show ¬ "affected".toList = "versions".toList by decide)).trans (if_pos rfl))

theorem lintTopKey_else (a : AdvisoryFile) (draft : Option Bool) (k : Str) (v : Toml)
    (h1 : k ≠ "advisory".toList) (h2 : k ≠ "versions".toList) (h3 : k ≠ "affected".toList) :
    lintTopKey a draft (k, v) = .ok [.unknownKey none k] := by
  unfold lintTopKey
  dsimp only
  rw [if_neg h1, if_neg h2, if_neg h3]

theorem lintDocument_mem {a : AdvisoryFile} {draft : Option Bool} {t : TomlTable} {gs : List Finding}
    (hl : lintAdvisory a draft t = .ok gs) (md : Str) (f : Finding) :
    f ∈ lintMentions md ++ gs ↔ Problem a t md draft f := by
  unfold lintAdvisory at hl
  rw [List.mem_append, lintMentions_mem, concatMap_mem t hl f]
  have hok := (concatMap_ok t).mp ⟨gs, hl⟩
  constructor
  · rintro (⟨n, rfl, hn⟩ | ⟨⟨k, v⟩, hm, hs, hg, hf⟩)
    · exact .mention n hn
    · by_cases h1 : k = "advisory".toList
      · subst h1
        rw [lintTopKey_advisory] at hg
        cases v with
        | table m =>
          simp only [lintMetadata] at hg
          exact .metadata m f hm ((lintMetaKeys_mem hg f).mp hf)
        | _ =>
          cases hg
          simp only [List.mem_singleton] at hf
          subst hf
          exact .notTable _ hm (by intro m e; cases e)
      by_cases h2 : k = "versions".toList
      · subst h2
        rw [lintTopKey_versions] at hg
        cases hg
        cases v with
        | table m =>
          obtain ⟨k, v, hkv, h1, h2, rfl⟩ := (lintVersions_mem m f).mp hf
          exact .versions m k v hm hkv h1 h2
        | _ => cases hf
      by_cases h3 : k = "affected".toList
      · subst h3
        rw [lintTopKey_affected] at hg
        cases v with
        | table m => exact .affected m f hm ((lintAffected_mem hg f).mp hf)
        | _ => cases hg; cases hf
      · rw [lintTopKey_else a draft k v h1 h2 h3] at hg
        cases hg
        simp only [List.mem_singleton] at hf
        subst hf
        exact .key k v hm h1 h2 h3
  · intro hp
    cases hp with
    | mention n hn => exact .inl ⟨n, rfl, hn⟩
    | notTable v hm hv =>
      refine .inr ⟨_, hm, [.notTable], ?_, List.mem_singleton.mpr rfl⟩
      rw [lintTopKey_advisory]
      cases v with
      | table m => exact absurd rfl (hv m)
      | _ => rfl
    | metadata m _ hm hmp =>
      obtain ⟨hs, hg⟩ := hok _ hm
      refine .inr ⟨_, hm, hs, hg, ?_⟩
      rw [lintTopKey_advisory] at hg
      simp only [lintMetadata] at hg
      exact (lintMetaKeys_mem hg f).mpr hmp
    | versions m k v hm hkv h1 h2 =>
      exact .inr ⟨_, hm, lintVersions (.table m), lintTopKey_versions _ _ _,
        (lintVersions_mem m _).mpr ⟨k, v, hkv, h1, h2, rfl⟩⟩
    | affected m _ hm hap =>
      obtain ⟨hs, hg⟩ := hok _ hm
      refine .inr ⟨_, hm, hs, hg, ?_⟩
      rw [lintTopKey_affected] at hg
      exact (lintAffected_mem hg f).mpr hap
    | key k v hm h1 h2 h3 =>
      exact .inr ⟨_, hm, [.unknownKey none k], lintTopKey_else _ _ _ _ h1 h2 h3, List.mem_singleton.mpr rfl⟩

/-- **C24.**  If linting returns, the advisory is the parsed one and the findings are exactly the problems of
the document and its Markdown that the specification lists, so there is no finding if and only if the
document has none of these problems. -/
theorem C24_findings_exact (L : AdvLib) (s : Str) (draft : Option Bool) (a : AdvisoryFile)
    (fs : List Finding) (h : lintString L s draft = .ok (a, fs)) :
    ∃ parts t, Parts.parse s = .ok parts ∧ L.toml parts.frontMatter = some t ∧
      AdvisoryFile.fromStr L s = .ok a ∧
      (∀ f, f ∈ fs ↔ Problem a t parts.markdown draft f) ∧
      (fs = [] ↔ ∀ f, ¬ Problem a t parts.markdown draft f) := by
  unfold lintString at h
  cases ha : AdvisoryFile.fromStr L s with
  | err => rw [ha] at h; cases h
  | panic => rw [ha] at h; cases h
  | ok a' =>
    rw [ha] at h
    simp only [Outcome.bind_ok] at h
    cases hp : Parts.parse s with
    | err => rw [hp] at h; cases h
    | panic => rw [hp] at h; cases h
    | ok parts =>
      rw [hp] at h
      simp only [Outcome.bind_ok] at h
      cases ht : L.toml parts.frontMatter with
      | none => rw [ht] at h; cases h
      | some t =>
        rw [ht] at h
        simp only [ofOption, Outcome.bind_ok] at h
        cases hl : lintAdvisory a' draft t with
        | err => rw [hl] at h; cases h
        | panic => rw [hl] at h; cases h
        | ok gs =>
          rw [hl] at h
          simp only [Outcome.bind_ok] at h
          cases h
          have key : ∀ f, f ∈ lintMentions parts.markdown ++ gs ↔ Problem a t parts.markdown draft f :=
            fun f => lintDocument_mem hl _ f
          refine ⟨parts, t, rfl, ht, rfl, key, ?_⟩
          rw [List.eq_nil_iff_forall_not_mem]
          exact forall_congr' fun f => not_congr (key f)

end Verif.Props
