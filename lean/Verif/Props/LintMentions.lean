import Verif.Props.Linter
import Verif.Spec.LintTranscript

/-!
# C95: the messages about user mentions
-/

namespace Verif.Props

open Verif.Adv Verif.Lint Verif.AdminLint Verif.Spec

/-- A word is `user` and then closing parentheses. -/
theorem trimParens_iff (w user : Str) :
    (w.reverse.dropWhile (· == ')')).reverse = user ↔ ∃ n, w = user ++ List.replicate n ')' ∧ user.getLast? ≠ some ')' := by
  constructor
  · rintro rfl
    refine ⟨(w.reverse.takeWhile (· == ')')).length, ?_, ?_⟩
    · have h1 : w.reverse.takeWhile (· == ')') = List.replicate (w.reverse.takeWhile (· == ')')).length ')' := by
        rw [List.eq_replicate_iff]
        exact ⟨rfl, fun b hb => by simpa using mem_takeWhile _ _ hb⟩
      have h2 : w.reverse = w.reverse.takeWhile (· == ')') ++ w.reverse.dropWhile (· == ')') :=
        List.takeWhile_append_dropWhile.symm
      have h3 := congrArg List.reverse h2
      rw [List.reverse_reverse, List.reverse_append] at h3
      conv at h3 => rhs; rhs; rw [h1, List.reverse_replicate]
      exact h3
    · rw [List.getLast?_reverse]
      intro h
      have := List.head?_dropWhile_not (p := (· == ')')) (l := w.reverse)
      rw [h] at this
      simp at this
  · rintro ⟨n, rfl, h⟩
    rw [List.reverse_append, List.reverse_replicate, List.dropWhile_append_of_pos (by simp)]
    cases hu : user.reverse with
    | nil => simp [List.reverse_eq_nil_iff.mp hu]
    | cons c r =>
      have hc : c ≠ ')' := by
        rintro rfl
        apply h
        rw [← List.reverse_reverse user, hu, List.getLast?_reverse]
        rfl
      rw [List.dropWhile_cons_of_neg (by simpa using hc), ← hu, List.reverse_reverse]

theorem partUser_iff (p user : Str) : partUser p = some user ↔ Mentions p user := by
  unfold Mentions partUser
  cases p with
  | nil => simp
  | cons c t =>
    by_cases hc : asciiAlnum c = true
    · have hw := alnum_not_white hc
      have hfw : firstWord (c :: t) = some ((c :: t).takeWhile fun c => !isWhite c) := by
        unfold firstWord
        rw [List.dropWhile_cons, if_neg (by simp [hw])]
        simp [hw]
      simp only [hc, Bool.not_true, Bool.false_eq_true, if_false, hfw, List.head?_cons, Option.some.injEq]
      rw [← trimParens_iff]
      split
      · next h =>
        simp only [List.any_eq_true, Bool.or_eq_true, beq_iff_eq] at h
        obtain ⟨x, hx, hxx⟩ := h
        refine ⟨(fun h => by cases h), ?_⟩
        rintro ⟨-, h, -⟩
        have := h x hx
        tauto
      · next h =>
        simp only [List.any_eq_true, Bool.or_eq_true, beq_iff_eq, not_exists, not_and] at h
        simp only [Option.some.injEq]
        constructor
        · intro e
          exact ⟨⟨c, rfl, hc⟩, fun x hx => by have := h x hx; tauto, e⟩
        · rintro ⟨-, -, e⟩; exact e
    · simp [hc]

theorem mentions_at {p user : Str} (h : Mentions p user) : MentionAt p := ⟨h.1, h.2.1⟩

theorem mentions_same {p q user : Str} (h : MentionAt p ↔ MentionAt q)
    (ht : MentionAt p → p.takeWhile (fun c => !isWhite c) = q.takeWhile (fun c => !isWhite c)) :
    Mentions p user ↔ Mentions q user := by
  constructor
  · intro hp
    have hm := mentions_at hp
    exact ⟨(h.mp hm).1, (h.mp hm).2, by rw [← ht hm]; exact hp.2.2⟩
  · intro hq
    have hm := h.mpr (mentions_at hq)
    exact ⟨hm.1, hm.2, by rw [ht hm]; exact hq.2.2⟩

private theorem takeWhile_white (a : Str) (w : Char) (r : Str) (hw : isWhite w = true) :
    (a ++ w :: r).takeWhile (fun c => !isWhite c) = a.takeWhile (fun c => !isWhite c) := by
  induction a with
  | nil => simp [hw]
  | cons x a ih => simp only [List.cons_append, List.takeWhile_cons, ih]

theorem mentions_white (a : Str) (w : Char) (r : Str) (hw : isWhite w = true) (user : Str) :
    Mentions (a ++ w :: r) user ↔ Mentions a user :=
  mentions_same (mentionAt_white a w r hw) fun _ => takeWhile_white a w r hw

private theorem white_of_mention {a b : Str} (h : MentionAt (a ++ '@' :: b)) : ∃ a1 w a2, a = a1 ++ w :: a2 ∧ isWhite w = true := by
  by_contra hno
  have hall : ∀ x ∈ a, (fun c => !isWhite c) x = true := by
    intro x hx
    obtain ⟨a1, a2, e⟩ := List.append_of_mem hx
    by_contra hx'
    exact hno ⟨a1, x, a2, e, by simpa using hx'⟩
  have : '@' ∈ (a ++ '@' :: b).takeWhile (fun c => !isWhite c) := by
    rw [List.takeWhile_append_of_pos hall, List.takeWhile_cons, if_pos (by decide)]
    simp
  exact absurd rfl (h.2 '@' this).2.1

theorem mentions_cut (a b user : Str) : Mentions (a ++ '@' :: b) user ↔ Mentions (a ++ ['@']) user := by
  refine mentions_same (mentionAt_cut a b) fun h => ?_
  obtain ⟨a1, w, a2, rfl, hw⟩ := white_of_mention h
  rw [List.append_assoc, List.append_assoc, List.cons_append, List.cons_append, takeWhile_white _ _ _ hw,
    takeWhile_white _ _ _ hw]

theorem splitInclusive_shape (s : Str) : ∀ h t, splitInclusive '@' s = h :: t →
    h = s ∨ ∃ a b, h = a ++ ['@'] ∧ s = a ++ '@' :: b := by
  induction s with
  | nil => intro h t e; cases e
  | cons x xs ih =>
    intro h t e
    unfold splitInclusive at e
    split at e
    · rename_i hx
      cases e
      exact .inr ⟨[], xs, rfl, by rw [hx]; rfl⟩
    · cases hs : splitInclusive '@' xs with
      | nil =>
        rw [hs] at e
        cases e
        left
        cases xs with
        | nil => rfl
        | cons y ys =>
          unfold splitInclusive at hs
          split at hs
          · cases hs
          · split at hs <;> cases hs
      | cons h' t' =>
        rw [hs] at e
        cases e
        rcases ih h' _ hs with rfl | ⟨a, b, rfl, rfl⟩
        · exact .inl rfl
        · exact .inr ⟨x :: a, b, rfl, rfl⟩

theorem partUser_head {s h : Str} {t : List Str} (e : splitInclusive '@' s = h :: t) : partUser h = partUser s := by
  apply Option.ext
  intro u
  rw [partUser_iff, partUser_iff]
  rcases splitInclusive_shape s h t e with rfl | ⟨a, b, rfl, rfl⟩
  · exact Iff.rfl
  · exact (mentions_cut a b u).symm

/-- The user that line `n` mentions first, by going through the text. -/
def seekUser : Str → Nat → Option Str
  | [], _ => none
  | x :: xs, 0 => if x = '\n' then none else ((if x = '@' then partUser xs else none).or (seekUser xs 0))
  | x :: xs, n + 1 => if x = '\n' then seekUser xs n else seekUser xs (n + 1)

theorem not_mentions_nil (u : Str) : ¬ Mentions [] u := fun h => not_mentionAt_nil (mentions_at h)

theorem seekUser_iff (s : Str) (n : Nat) (u : Str) : seekUser s n = some u ↔ FirstMention s n u := by
  induction s generalizing n with
  | nil =>
    refine ⟨(fun h => by cases n <;> cases h), ?_⟩
    rintro ⟨pre, post, h, -⟩
    have := congrArg List.length h
    simp at this
  | cons x xs ih =>
    -- a mention that is not at the first character
    have later : ∀ m k, k = m + (if x = '\n' then 1 else 0) →
        (¬ (x = '@' ∧ k = 0 ∧ ∃ v, Mentions xs v)) → (FirstMention (x :: xs) k u ↔ FirstMention xs m u) := by
      intro m k hk hno
      constructor
      · rintro ⟨pre, post, h, hc, hm, hmin⟩
        cases pre with
        | nil =>
          simp only [List.nil_append, List.cons.injEq] at h
          obtain ⟨rfl, rfl⟩ := h
          exact absurd ⟨rfl, by simpa using hc.symm, u, hm⟩ hno
        | cons y pre =>
          simp only [List.cons_append, List.cons.injEq] at h
          obtain ⟨rfl, rfl⟩ := h
          rw [List.count_cons] at hc
          simp only [beq_iff_eq] at hc
          refine ⟨pre, post, rfl, by omega, hm, fun pre' post' u' e hc' hm' => ?_⟩
          have := hmin (x :: pre') post' u' (by rw [e]; rfl) (by rw [List.count_cons]; simp only [beq_iff_eq]; omega) hm'
          simpa using this
      · rintro ⟨pre, post, rfl, hc, hm, hmin⟩
        refine ⟨x :: pre, post, rfl, by rw [List.count_cons]; simp only [beq_iff_eq]; omega, hm, ?_⟩
        intro pre' post' u' e hc' hm'
        cases pre' with
        | nil =>
          simp only [List.nil_append, List.cons.injEq] at e
          obtain ⟨rfl, rfl⟩ := e
          exact absurd ⟨rfl, by simpa using hc'.symm, u', hm'⟩ hno
        | cons y pre' =>
          simp only [List.cons_append, List.cons.injEq] at e
          obtain ⟨rfl, e⟩ := e
          rw [List.count_cons] at hc'
          simp only [beq_iff_eq] at hc'
          have := hmin pre' post' u' e (by omega) hm'
          simpa using this
    cases n with
    | succ n =>
      rw [seekUser]
      split
      · next hx => rw [ih]; exact (later n (n + 1) (by simp [hx]) (by simp)).symm
      · next hx => rw [ih]; exact (later (n + 1) (n + 1) (by simp [hx]) (by simp)).symm
    | zero =>
      rw [seekUser]
      split
      · next hx =>
        refine ⟨(fun h => by cases h), ?_⟩
        rintro ⟨pre, post, h, hc, -⟩
        cases pre with
        | nil => simp only [List.nil_append, List.cons.injEq] at h; rw [hx] at h; exact absurd h.1 (by decide)
        | cons y pre =>
          simp only [List.cons_append, List.cons.injEq] at h
          rw [List.count_cons, ← h.1, hx] at hc
          simp at hc
      · next hx =>
        by_cases hat : x = '@' ∧ ∃ v, Mentions xs v
        · obtain ⟨rfl, v, hv⟩ := hat
          rw [if_pos rfl, (partUser_iff _ _).mpr hv, Option.some_or, Option.some.injEq]
          constructor
          · rintro rfl
            exact ⟨[], xs, rfl, rfl, hv, fun _ _ _ _ _ _ => by simp⟩
          · rintro ⟨pre, post, h, -, hm, hmin⟩
            have := hmin [] xs v rfl rfl hv
            have : pre = [] := by simpa using this
            subst this
            simp only [List.nil_append, List.cons.injEq, true_and] at h
            subst h
            have h1 := (partUser_iff _ _).mpr hv
            have h2 := (partUser_iff _ _).mpr hm
            rw [h1] at h2
            exact Option.some.inj h2
        · have hno : (if x = '@' then partUser xs else none) = none := by
            split
            · next h =>
              cases hp : partUser xs with
              | none => rfl
              | some v => exact absurd ⟨h, v, (partUser_iff _ _).mp hp⟩ hat
            · rfl
          rw [hno, Option.none_or, ih]
          exact (later 0 0 (by simp [hx]) (by tauto)).symm

theorem lineUser_seek (l : Str) (h : '\n' ∉ l) : lineUser l = seekUser l 0 := by
  unfold lineUser
  induction l with
  | nil => rfl
  | cons x xs ih =>
    simp only [List.mem_cons, not_or] at h
    rw [seekUser, if_neg (fun e => h.1 e.symm), ← ih h.2, splitInclusive]
    by_cases hx : x = '@'
    · rw [if_pos hx, if_pos hx]
      simp only [List.drop_succ_cons, List.drop_zero]
      cases hs : splitInclusive '@' xs with
      | nil =>
        have : xs = [] := by
          cases xs with
          | nil => rfl
          | cons y ys =>
            unfold splitInclusive at hs
            split at hs
            · cases hs
            · split at hs <;> cases hs
        subst this
        rfl
      | cons p t =>
        rw [List.findSome?_cons, partUser_head hs]
        cases partUser xs with
        | none => simp
        | some v => simp
    · rw [if_neg hx, if_neg hx, Option.none_or]
      cases hs : splitInclusive '@' xs with
      | nil => simp
      | cons p t => simp

theorem seekUser_white (l : Str) (h : '\n' ∉ l) (w : Char) (hw : isWhite w = true) : seekUser (l ++ [w]) 0 = seekUser l 0 := by
  induction l with
  | nil =>
    rw [List.nil_append, seekUser]
    have : w ≠ '@' := by rintro rfl; exact absurd hw (by decide)
    simp [seekUser, this]
  | cons x xs ih =>
    simp only [List.mem_cons, not_or] at h
    rw [List.cons_append, seekUser, seekUser, ih h.2]
    have : partUser (xs ++ [w]) = partUser xs := by
      apply Option.ext
      intro u
      rw [partUser_iff, partUser_iff, mentions_white _ _ _ hw]
    rw [this]

theorem stripCr_seek (l : Str) (h : '\n' ∉ l) : lineUser (stripCr l) = seekUser l 0 := by
  unfold stripCr
  split
  · next hl =>
    obtain ⟨l', rfl⟩ : ∃ l', l = l' ++ ['\r'] := by
      have hne : l ≠ [] := by rintro rfl; simp at hl
      refine ⟨l.dropLast, ?_⟩
      have := List.dropLast_append_getLast hne
      rw [List.getLast?_eq_some_getLast hne] at hl
      simp only [Option.some.injEq] at hl
      rw [hl] at this
      exact this.symm
    have h' : '\n' ∉ l' := fun hm => h (List.mem_append_left _ hm)
    rw [List.dropLast_concat, lineUser_seek _ h', seekUser_white _ h' _ (by decide)]
  · exact lineUser_seek l h

theorem linesOf_seek (ps : List Str) (hps : ∀ p ∈ ps, '\n' ∉ p) (n : Nat) :
    (linesOf ps)[n]?.bind lineUser = ps[n]?.bind fun p => seekUser p 0 := by
  induction ps generalizing n with
  | nil => simp [linesOf]
  | cons l rest ih =>
    have hl := hps l (by simp)
    cases rest with
    | nil =>
      unfold linesOf
      cases l with
      | nil => cases n <;> simp [seekUser]
      | cons c t =>
        cases n with
        | zero => simpa using lineUser_seek _ hl
        | succ n => simp
    | cons x r =>
      rw [linesOf]
      · cases n with
        | zero => simpa using stripCr_seek l hl
        | succ n =>
          simp only [List.getElem?_cons_succ]
          exact ih (fun p hp => hps p (by simp [hp])) n
      · simp

theorem splitC_seek (s : Str) (n : Nat) : ((splitC '\n' s)[n]?.bind fun p => seekUser p 0) = seekUser s n := by
  induction s generalizing n with
  | nil => cases n <;> simp [splitC, seekUser]
  | cons x xs ih =>
    unfold splitC
    by_cases hx : x = '\n'
    · rw [if_pos hx]
      cases n with
      | zero => simp [seekUser, hx]
      | succ n => simp [seekUser, hx, ih]
    · rw [if_neg hx]
      cases hs : splitC '\n' xs with
      | nil => exact absurd hs (splitC_ne_nil _ _)
      | cons h t =>
        have ihn := ih n
        rw [hs] at ihn
        cases n with
        | zero =>
          simp only [List.getElem?_cons_zero, Option.bind_some] at ihn ⊢
          rw [seekUser, seekUser, if_neg hx, if_neg hx, ihn]
          congr 1
          split
          · have := joinC_splitC '\n' xs
            rw [hs] at this
            cases t with
            | nil => rw [← this]; rfl
            | cons y ys =>
              rw [joinC_cons _ _ (by simp)] at this
              rw [← this]
              apply Option.ext
              intro u
              rw [partUser_iff, partUser_iff]
              exact (mentions_white h '\n' _ (by decide) u).symm
          · rfl
        | succ n =>
          simp only [List.getElem?_cons_succ] at ihn ⊢
          rw [seekUser, if_neg hx, ihn]

theorem lines_seek (s : Str) (n : Nat) : (lines s)[n]?.bind lineUser = seekUser s n := by
  unfold lines
  rw [linesOf_seek _ (not_mem_splitC '\n' s), splitC_seek]

theorem mem_mentionNotes (front : Nat) (ls : List Str) (i : Nat) (u : Str) (k : Nat) :
    (u, k) ∈ mentionNotes front i ls ↔ ∃ n, k = front + 4 + i + n ∧ ls[n]?.bind lineUser = some u := by
  induction ls generalizing i with
  | nil => simp [mentionNotes]
  | cons l ls ih =>
    have split : (∃ n, k = front + 4 + i + n ∧ (l :: ls)[n]?.bind lineUser = some u) ↔
        (k = front + 4 + i ∧ lineUser l = some u) ∨ ∃ n, k = front + 4 + (i + 1) + n ∧ ls[n]?.bind lineUser = some u := by
      constructor
      · rintro ⟨n, h1, h2⟩
        cases n with
        | zero => exact .inl ⟨h1, by simpa using h2⟩
        | succ n => exact .inr ⟨n, by omega, by simpa using h2⟩
      · rintro (⟨h1, h2⟩ | ⟨n, h1, h2⟩)
        · exact ⟨0, h1, by simpa using h2⟩
        · exact ⟨n + 1, by omega, by simpa using h2⟩
    rw [split, ← ih, mentionNotes]
    cases h : lineUser l with
    | none => simp
    | some v =>
      simp only [List.mem_cons, Prod.mk.injEq, Option.some.injEq]
      constructor
      · rintro (⟨rfl, rfl⟩ | h)
        · exact .inl ⟨rfl, rfl⟩
        · exact .inr h
      · rintro (⟨rfl, rfl⟩ | h)
        · exact .inl ⟨rfl, rfl⟩
        · exact .inr h

/-- **Property C95** (mentions): the messages name exactly the users that lines of the Markdown mention first; the numbers
count from the lines of the front matter and four more. -/
theorem C95_mentions (parts : Parts) (user : Str) (k : Nat) :
    (user, k) ∈ mentionMessages parts ↔
      ∃ n, k = (lines parts.frontMatter).length + 4 + n ∧ FirstMention parts.markdown n user := by
  unfold mentionMessages
  have hl : ∀ n, (lines parts.markdown)[n]?.bind lineUser = some user ↔ FirstMention parts.markdown n user := by
    intro n; rw [lines_seek, seekUser_iff]
  split
  · rw [mem_mentionNotes]
    simp only [hl, Nat.add_zero]
  · next h =>
    simp only [List.not_mem_nil, false_iff]
    rintro ⟨n, -, pre, post, e, -⟩
    apply h
    rw [List.contains_iff_mem, e]
    simp

theorem partMention_isSome (p : Str) : partMention p = (partUser p).isSome := by
  unfold partMention partUser
  cases p with
  | nil => rfl
  | cons c t =>
    simp only
    by_cases hc : asciiAlnum c = true
    · simp only [hc, Bool.not_true, Bool.false_eq_true, if_false]
      cases firstWord (c :: t) with
      | none => rfl
      | some w =>
        dsimp only
        cases h : w.any fun c => c == '.' || c == '@' || c == '`'
        · rw [if_neg (by decide)]; rfl
        · rw [if_pos rfl]; rfl
    · simp [hc]

theorem lineMention_isSome (l : Str) : lineMention l = (lineUser l).isSome := by
  unfold lineMention lineUser
  induction (splitInclusive '@' l).drop 1 with
  | nil => rfl
  | cons p ps ih =>
    rw [List.any_cons, List.findSome?_cons, partMention_isSome, ih]
    cases partUser p <;> rfl

/-- **Property C95** (mentions): there is one message for each finding of this kind (C24), in the same order. -/
theorem C95_mention_findings (parts : Parts) :
    (mentionMessages parts).map (·.2) = (lintMentions parts.markdown).filterMap (fun
      | .mention n => some ((lines parts.frontMatter).length + 4 + n)
      | _ => none) := by
  unfold mentionMessages lintMentions
  split
  · generalize lines parts.markdown = ls
    generalize 0 = i
    induction ls generalizing i with
    | nil => rfl
    | cons l ls ih =>
      rw [mentionNotes, mentionsFrom, lineMention_isSome]
      cases lineUser l with
      | none => simpa using ih (i + 1)
      | some u => simpa using ih (i + 1)
  · rfl

theorem lines_length {s : Str} (hs : s ≠ []) (hl : s.getLast? ≠ some '\n') : (lines s).length = s.count '\n' + 1 := by
  have hlen : ∀ ps : List Str, ps ≠ [] → ps.getLast? ≠ some [] → (linesOf ps).length = ps.length := by
    intro ps
    induction ps with
    | nil => intro h; exact absurd rfl h
    | cons p ps ih =>
      intro _ hlast
      cases ps with
      | nil =>
        have : p ≠ [] := by rintro rfl; exact hlast rfl
        cases p with
        | nil => exact absurd rfl this
        | cons c t => simp [linesOf]
      | cons q r =>
        rw [linesOf]
        · simp only [List.length_cons]
          rw [ih (by simp) (by simpa using hlast)]
          simp
        · simp
  have hcount : ∀ s : Str, (splitC '\n' s).length = s.count '\n' + 1 := by
    intro s
    induction s with
    | nil => rfl
    | cons x xs ih =>
      unfold splitC
      split
      · next h => simp [h, ih]
      · next h =>
        rw [List.count_cons]
        cases hsx : splitC '\n' xs with
        | nil => exact absurd hsx (splitC_ne_nil _ _)
        | cons p t => rw [hsx] at ih; simpa [h] using ih
  have hlast : ∀ s : Str, s ≠ [] → s.getLast? ≠ some '\n' → (splitC '\n' s).getLast? ≠ some [] := by
    intro s
    induction s with
    | nil => intro h; exact absurd rfl h
    | cons x xs ih =>
      intro _ hl
      cases xs with
      | nil =>
        have : x ≠ '\n' := by rintro rfl; exact hl rfl
        simp [splitC, this]
      | cons y ys =>
        have ih' := ih (by simp) (by simpa using hl)
        rw [splitC]
        split
        · cases hsx : splitC '\n' (y :: ys) with
          | nil => exact absurd hsx (splitC_ne_nil _ _)
          | cons p t => rw [hsx] at ih'; simpa using ih'
        · cases hsx : splitC '\n' (y :: ys) with
          | nil => exact absurd hsx (splitC_ne_nil _ _)
          | cons p t =>
            rw [hsx] at ih'
            cases t with
            | nil => simp
            | cons q r => simpa using ih'
  unfold lines
  rw [hlen _ (splitC_ne_nil _ _) (hlast s hs hl), hcount]

/-- **Property C95** (line numbers): in a file with the usual layout, the number in a message is that of the line of the file:
that line mentions the user. -/
theorem C95_line_numbers (text : Str) (parts : Parts) (h : WellFormedFile text parts) (hu : UsualLayout text parts)
    (hne : parts.frontMatter ≠ []) (user : Str) (k : Nat) (hm : (user, k) ∈ mentionMessages parts) :
    ∃ pre post, text = pre ++ '@' :: post ∧ pre.count '\n' + 1 = k ∧ Mentions post user := by
  obtain ⟨n, rfl, pre, post, hmd, hn, hp, -⟩ := (C95_mentions parts user k).mp hm
  have hl : parts.frontMatter.getLast? ≠ some '\n' := by
    intro hl
    obtain ⟨⟨raw, rest, -, ⟨u, -, w, -, -, hw⟩, -⟩, -⟩ := h
    exact absurd (hw _ hl) (by decide)
  refine ⟨"```toml\n".toList ++ parts.frontMatter ++ "\n```\n\n".toList ++ pre, post, ?_, ?_, hp⟩
  · rw [hu, hmd]; simp only [List.append_assoc]
  · rw [lines_length hne hl]
    simp only [List.count_append, hn]
    have h1 : List.count '\n' "```toml\n".toList = 1 := by decide
    have h2 : List.count '\n' "\n```\n\n".toList = 3 := by decide
    rw [h1, h2]
    omega

end Verif.Props
