import Verif.Spec.Json
import Verif.Props.AssignerIds

/-!
# The printed text of a JSON value reads back as the value
-/

namespace Verif.Props

open Verif Verif.Spec List

theorem skipSpace_cons {c : Char} (h : isJsonSpace c = false) (r : Str) : skipSpace (c :: r) = c :: r := by
  unfold skipSpace
  rw [dropWhile_cons_of_neg (by rw [h]; decide)]

theorem hexOf_hexDigit : ∀ n < 16, hexOf (Json.hexDigit n) = some n := by decide

theorem toNat_ofNat_toNat (c : Char) : Char.ofNat c.toNat = c := Char.ofNat_toNat c

/-- An escaped character reads as the character. -/
theorem readChar_escape (c : Char) (r : Str) : readChar (Json.escapeChar c ++ r) = some (c, r) := by
  unfold Json.escapeChar
  by_cases h1 : c = '"'
  · subst h1; rfl
  rw [if_neg h1]
  by_cases h2 : c = '\\'
  · subst h2; rfl
  rw [if_neg h2]
  by_cases h3 : c.toNat = 8
  · rw [if_pos h3]
    have : c = Char.ofNat 8 := by rw [← h3]; exact (Char.ofNat_toNat c).symm
    subst this; rfl
  rw [if_neg h3]
  by_cases h4 : c.toNat = 9
  · rw [if_pos h4]
    have : c = Char.ofNat 9 := by rw [← h4]; exact (Char.ofNat_toNat c).symm
    subst this; rfl
  rw [if_neg h4]
  by_cases h5 : c.toNat = 10
  · rw [if_pos h5]
    have : c = Char.ofNat 10 := by rw [← h5]; exact (Char.ofNat_toNat c).symm
    subst this; rfl
  rw [if_neg h5]
  by_cases h6 : c.toNat = 12
  · rw [if_pos h6]
    have : c = Char.ofNat 12 := by rw [← h6]; exact (Char.ofNat_toNat c).symm
    subst this; rfl
  rw [if_neg h6]
  by_cases h7 : c.toNat = 13
  · rw [if_pos h7]
    have : c = Char.ofNat 13 := by rw [← h7]; exact (Char.ofNat_toNat c).symm
    subst this; rfl
  rw [if_neg h7]
  by_cases h8 : c.toNat < 32
  · rw [if_pos h8]
    have key : ∀ n < 32, hex4 '0' '0' (Json.hexDigit (n / 16)) (Json.hexDigit (n % 16)) = some n := by decide
    have hu : readChar (['\\', 'u', '0', '0', Json.hexDigit (c.toNat / 16), Json.hexDigit (c.toNat % 16)] ++ r)
        = match hex4 '0' '0' (Json.hexDigit (c.toNat / 16)) (Json.hexDigit (c.toNat % 16)) with
          | none => none
          | some n =>
            if n < 0xD800 ∨ 0xDFFF < n then some (Char.ofNat n, r)
            else if 0xDBFF < n then none
            else
              match r with
              | '\\' :: 'u' :: a' :: b' :: x' :: y' :: r =>
                match hex4 a' b' x' y' with
                | none => none
                | some m =>
                  if 0xDC00 ≤ m ∧ m ≤ 0xDFFF then
                    some (Char.ofNat (0x10000 + (n - 0xD800) * 0x400 + (m - 0xDC00)), r)
                  else none
              | _ => none := rfl
    rw [hu, key _ h8]
    simp only
    rw [if_pos (by omega), Char.ofNat_toNat]
  rw [if_neg h8]
  show readChar (c :: r) = _
  unfold readChar
  simp only
  rw [if_neg (by simp only [not_or]; exact ⟨h1, h8⟩), if_pos h2]

/-- No escaped character begins with a quotation mark. -/
theorem escape_head (c : Char) : ∃ d r, Json.escapeChar c = d :: r ∧ d ≠ '"' := by
  unfold Json.escapeChar
  by_cases h : c = '"'
  · exact ⟨_, _, if_pos h, by decide⟩
  rw [if_neg h]
  repeat' split
  all_goals exact ⟨_, _, rfl, by first | decide | exact h⟩

theorem readString_escaped (s : Str) : ∀ (n : Nat) (r : Str), s.length < n →
    readString n (s.flatMap Json.escapeChar ++ '"' :: r) = some (s, r) := by
  induction s with
  | nil =>
    intro n r h
    cases n with
    | zero => exact absurd h (Nat.lt_irrefl _)
    | succ n => rfl
  | cons c s ih =>
    intro n r h
    cases n with
    | zero => exact absurd h (Nat.not_lt_zero _)
    | succ n =>
      obtain ⟨d, t, hd, hne⟩ := escape_head c
      have hr := readChar_escape c (s.flatMap Json.escapeChar ++ '"' :: r)
      rw [flatMap_cons, append_assoc]
      unfold readString
      rw [hd] at hr ⊢
      rw [cons_append] at hr ⊢
      split
      · rename_i heq
        exact absurd (cons.inj heq).1 hne
      · rw [hr]
        simp only
        rw [ih n r (by simpa using h)]
        rfl

theorem escape_length (c : Char) : 1 ≤ (Json.escapeChar c).length := by
  obtain ⟨d, t, hd, -⟩ := escape_head c
  rw [hd]; simp

theorem escaped_length (s : Str) : s.length ≤ (s.flatMap Json.escapeChar).length := by
  induction s with
  | nil => simp
  | cons c s ih =>
    rw [flatMap_cons, length_append, length_cons]
    have := escape_length c
    omega

/-- A quoted string, after its opening mark. -/
theorem readString_quoted (s r : Str) : ∃ t, Json.quote s ++ r = '"' :: t ∧ readString (t.length + 1) t = some (s, r) := by
  refine ⟨s.flatMap Json.escapeChar ++ '"' :: r, ?_, ?_⟩
  · unfold Json.quote; simp
  · apply readString_escaped
    have := escaped_length s
    simp only [length_append, length_cons]
    omega

/-- What may follow a number. -/
def NumberStops (r : Str) : Prop :=
  ∀ c, r.head? = some c → c.isDigit = false ∧ c ≠ '.' ∧ c ≠ 'e' ∧ c ≠ 'E'

theorem takeWhile_digits (n : Nat) {r : Str} (h : NumberStops r) :
    (showNat n ++ r).takeWhile Char.isDigit = showNat n ∧ (showNat n ++ r).dropWhile Char.isDigit = r := by
  have hr : r.takeWhile Char.isDigit = [] ∧ r.dropWhile Char.isDigit = r := by
    cases r with
    | nil => exact ⟨rfl, rfl⟩
    | cons c r =>
      have := (h c rfl).1
      exact ⟨takeWhile_cons_of_neg (by rw [this]; decide), dropWhile_cons_of_neg (by rw [this]; decide)⟩
  constructor
  · rw [takeWhile_append_of_pos (fun c hc => isDigit_of_mem_showNat hc), hr.1, append_nil]
  · rw [dropWhile_append_of_pos (fun c hc => isDigit_of_mem_showNat hc), hr.2]

theorem showNat_head (n : Nat) : 0 < n → (showNat n).head? ≠ some '0' := by
  induction n using Nat.strong_induction_on with
  | _ n ih =>
    intro hn
    by_cases h : n < 10
    · have key : ∀ n < 10, 0 < n → (showNat n).head? ≠ some '0' := by decide
      exact key n h hn
    · have := Nat.toDigits_append_toDigits (b := 10) (n := n / 10) (d := n % 10) (by decide) (by omega) (by omega)
      rw [Nat.div_add_mod] at this
      unfold showNat
      rw [← this, head?_append]
      have h1 := ih (n / 10) (by omega) (by omega)
      unfold showNat at h1
      cases hd : (Nat.toDigits 10 (n / 10)).head? with
      | none => exact absurd (head?_eq_none_iff.mp hd) Nat.toDigits_ne_nil
      | some c => rw [hd] at h1; exact h1

theorem readNumber_show (n : Nat) {r : Str} (h : NumberStops r) : readNumber (showNat n ++ r) = some (n, r) := by
  unfold readNumber
  obtain ⟨h1, h2⟩ := takeWhile_digits n h
  simp only [h1, h2]
  rw [if_neg, if_neg, ofDigitChars_showNat]
  · rintro (h' | h' | h')
    · exact (h _ h').2.1 rfl
    · exact (h _ h').2.2.1 rfl
    · exact (h _ h').2.2.2 rfl
  · rintro (h' | ⟨h', hne⟩)
    · exact showNat_ne_nil n h'
    · by_cases hn : n = 0
      · subst hn; exact hne (by decide)
      · exact showNat_head n (by omega) h'

/-- The first character of a printed value. -/
theorem print_head (j : Json) : ∃ c r, Json.print j = c :: r ∧ isJsonSpace c = false ∧ c ≠ ']' := by
  cases j with
  | null => exact ⟨_, _, rfl, by decide, by decide⟩
  | bool b => cases b <;> exact ⟨_, _, rfl, by decide, by decide⟩
  | num n =>
    cases h : showNat n with
    | nil => exact absurd h (showNat_ne_nil n)
    | cons c r =>
      have hd : c.isDigit = true := isDigit_of_mem_showNat (n := n) (by rw [h]; exact mem_cons_self)
      refine ⟨c, r, h, ?_, ?_⟩
      · cases hs : isJsonSpace c with
        | false => rfl
        | true =>
          unfold isJsonSpace at hs
          simp only [Bool.or_eq_true, beq_iff_eq] at hs
          rcases hs with ((rfl | rfl) | rfl) | rfl <;> revert hd <;> decide
      · rintro rfl; revert hd; decide
  | str s => exact ⟨_, _, rfl, by decide, by decide⟩
  | arr l => exact ⟨_, _, rfl, by decide, by decide⟩
  | obj l => exact ⟨_, _, rfl, by decide, by decide⟩

theorem stops_cons {c : Char} (h : c = ',' ∨ c = ']' ∨ c = '}') (r : Str) : NumberStops (c :: r) := by
  intro d hd
  cases hd
  rcases h with rfl | rfl | rfl <;> decide

theorem readValue_num (n k : Nat) {r : Str} (h : NumberStops r) (hk : 0 < k) :
    readValue k (showNat n ++ r) = some (.num n, r) := by
  obtain ⟨c, t, hc, hs, -⟩ := print_head (.num n)
  change showNat n = _ at hc
  have hd : c.isDigit = true := isDigit_of_mem_showNat (n := n) (by rw [hc]; exact mem_cons_self)
  cases k with
  | zero => exact absurd hk (Nat.lt_irrefl _)
  | succ k =>
    have hr := readNumber_show n h
    rw [hc, cons_append] at hr ⊢
    unfold readValue
    rw [skipSpace_cons hs]
    split
    · rename_i heq; rw [(cons.inj heq).1] at hd; exact absurd hd (by decide)
    · rename_i heq; rw [(cons.inj heq).1] at hd; exact absurd hd (by decide)
    · rename_i heq; rw [(cons.inj heq).1] at hd; exact absurd hd (by decide)
    · rename_i heq; rw [(cons.inj heq).1] at hd; exact absurd hd (by decide)
    · rename_i heq; rw [(cons.inj heq).1] at hd; exact absurd hd (by decide)
    · rename_i heq; rw [(cons.inj heq).1] at hd; exact absurd hd (by decide)
    · rw [hr]; rfl

mutual

/-- The text of a value reads as the value, whatever follows (after a number: nothing that continues it). -/
theorem readValue_print (j : Json) (n : Nat) (r : Str) (hn : 2 * (Json.print j).length ≤ n)
    (hr : NumberStops r) : readValue n (Json.print j ++ r) = some (j, r) := by
  match n, j with
  | 0, j =>
    obtain ⟨c, t, hc, -⟩ := print_head j
    rw [hc] at hn
    simp at hn
  | n + 1, .null => unfold readValue; rfl
  | n + 1, .bool true => unfold readValue; rfl
  | n + 1, .bool false => unfold readValue; rfl
  | n + 1, .num k => unfold Json.print; exact readValue_num k _ hr (by omega)
  | n + 1, .str s =>
    obtain ⟨t, ht, hs⟩ := readString_quoted s r
    unfold Json.print
    rw [ht]
    unfold readValue
    rw [skipSpace_cons (by decide)]
    simp only
    rw [hs]
    rfl
  | n + 1, .arr [] => unfold readValue; rfl
  | n + 1, .arr (j :: l) =>
    have hi := readItems_print j l n r (by simp only [Json.print, length_cons] at hn; omega)
    unfold Json.print
    rw [cons_append]
    unfold readValue
    rw [skipSpace_cons (by decide)]
    simp only
    have hh : ∃ c t, Json.printItems (j :: l) ++ r = c :: t ∧ isJsonSpace c = false ∧ c ≠ ']' := by
      obtain ⟨c, t, hc, h1, h2⟩ := print_head j
      cases l with
      | nil => unfold Json.printItems; rw [hc]; exact ⟨c, _, rfl, h1, h2⟩
      | cons k l => unfold Json.printItems; rw [hc]; exact ⟨c, _, rfl, h1, h2⟩
    obtain ⟨c, t, hc, h1, h2⟩ := hh
    rw [hc] at hi ⊢
    rw [skipSpace_cons h1]
    split
    · rename_i heq; exact absurd (cons.inj heq).1 h2
    · rw [hi]; rfl
  | n + 1, .obj [] => unfold readValue; rfl
  | n + 1, .obj ((k, j) :: l) =>
    have hi := readMembers_print k j l n r (by simp only [Json.print, length_cons] at hn; omega)
    unfold Json.print
    rw [cons_append]
    unfold readValue
    rw [skipSpace_cons (by decide)]
    simp only
    have hh : ∃ t, Json.printMembers ((k, j) :: l) ++ r = '"' :: t := by
      cases l with
      | nil => unfold Json.printMembers Json.quote; exact ⟨_, rfl⟩
      | cons m l => unfold Json.printMembers Json.quote; exact ⟨_, rfl⟩
    obtain ⟨t, hc⟩ := hh
    rw [hc] at hi ⊢
    rw [skipSpace_cons (by decide)]
    split
    · rename_i heq; exact absurd (cons.inj heq).1 (by decide)
    · rw [hi]; rfl

theorem readItems_print (j : Json) (l : List Json) (n : Nat) (r : Str)
    (hn : 2 * (Json.printItems (j :: l)).length ≤ n) :
    readItems n (Json.printItems (j :: l) ++ r) = some (j :: l, r) := by
  match n, l with
  | 0, l =>
    exfalso
    cases l <;> simp [Json.printItems] at hn
  | n + 1, [] =>
    have hv := readValue_print j n (']' :: r) (by simp only [Json.printItems, length_append, length_cons] at hn; omega)
      (stops_cons (by simp) r)
    unfold Json.printItems
    rw [append_assoc, singleton_append]
    unfold readItems
    rw [hv]
    simp only
    rw [skipSpace_cons (by decide)]
    rfl
  | n + 1, k :: l =>
    have hv := readValue_print j n (',' :: (Json.printItems (k :: l) ++ r))
      (by simp only [Json.printItems, length_append, length_cons] at hn; omega) (stops_cons (by simp) _)
    have hi := readItems_print k l n r
      (by rw [Json.printItems, length_append, length_cons] at hn; omega)
    rw [Json.printItems, append_assoc, cons_append]
    unfold readItems
    rw [hv]
    simp only
    rw [skipSpace_cons (by decide)]
    simp only
    rw [hi]
    rfl

theorem readMembers_print (k : Str) (j : Json) (l : List (Str × Json)) (n : Nat) (r : Str)
    (hn : 2 * (Json.printMembers ((k, j) :: l)).length ≤ n) :
    readMembers n (Json.printMembers ((k, j) :: l) ++ r) = some ((k, j) :: l, r) := by
  match n, l with
  | 0, l =>
    exfalso
    cases l <;> simp [Json.printMembers] at hn
  | n + 1, [] =>
    have hv := readValue_print j n ('}' :: r)
      (by simp only [Json.printMembers, length_append, length_cons] at hn; omega) (stops_cons (by simp) r)
    obtain ⟨t, ht, hs⟩ := readString_quoted k (':' :: (Json.print j ++ '}' :: r))
    have he : Json.printMembers [(k, j)] ++ r = '"' :: t := by
      rw [← ht]; unfold Json.printMembers; simp
    rw [he]
    unfold readMembers
    rw [skipSpace_cons (by decide)]
    simp only
    rw [hs]
    simp only
    rw [skipSpace_cons (by decide)]
    simp only
    rw [hv]
    simp only
    rw [skipSpace_cons (by decide)]
    rfl
  | n + 1, (k', j') :: l =>
    have hv := readValue_print j n (',' :: (Json.printMembers ((k', j') :: l) ++ r))
      (by simp only [Json.printMembers, length_append, length_cons] at hn; omega) (stops_cons (by simp) _)
    have hi := readMembers_print k' j' l n r
      (by rw [Json.printMembers] at hn; simp only [length_append, length_cons] at hn; omega)
    obtain ⟨t, ht, hs⟩ := readString_quoted k (':' :: (Json.print j ++ ',' :: (Json.printMembers ((k', j') :: l) ++ r)))
    have he : Json.printMembers ((k, j) :: (k', j') :: l) ++ r = '"' :: t := by
      rw [← ht, Json.printMembers]; simp
    rw [he]
    unfold readMembers
    rw [skipSpace_cons (by decide)]
    simp only
    rw [hs]
    simp only
    rw [skipSpace_cons (by decide)]
    simp only
    rw [hv]
    simp only
    rw [skipSpace_cons (by decide)]
    simp only
    rw [hi]
    rfl

end

/-- The text of a JSON value reads as that value. -/
theorem readJson_print (j : Json) : readJson (Json.print j) = some j := by
  unfold readJson
  have h := readValue_print j (2 * (Json.print j).length + 1) [] (by omega) (by intro c hc; cases hc)
  rw [append_nil] at h
  rw [h]
  rfl

/-! ## The text is one line -/

theorem escape_visible (c : Char) : ∀ d ∈ Json.escapeChar c, 32 ≤ d.toNat := by
  unfold Json.escapeChar
  have hex : ∀ n < 16, 32 ≤ (Json.hexDigit n).toNat := by decide
  intro d hd
  repeat' split at hd
  all_goals first
    | (rename_i h; simp only [mem_singleton] at hd; subst hd; omega)
    | (simp only [mem_cons, not_mem_nil, or_false] at hd
       rcases hd with rfl | rfl | rfl | rfl | rfl | rfl
       · decide
       · decide
       · decide
       · decide
       · exact hex _ (by omega)
       · exact hex _ (by omega))
    | (simp only [mem_cons, not_mem_nil, or_false] at hd; rcases hd with rfl | rfl <;> decide)

theorem quote_visible (s : Str) : ∀ d ∈ Json.quote s, 32 ≤ d.toNat := by
  intro d hd
  unfold Json.quote at hd
  rcases mem_cons.mp hd with rfl | hd
  · decide
  rcases mem_append.mp hd with hd | hd
  · obtain ⟨c, _, hc⟩ := mem_flatMap.mp hd
    exact escape_visible c d hc
  · cases mem_singleton.mp hd; decide

theorem showNat_visible (n : Nat) : ∀ d ∈ showNat n, 32 ≤ d.toNat := by
  intro d hd
  have := isDigit_of_mem_showNat hd
  unfold Char.isDigit at this
  simp only [Bool.and_eq_true, decide_eq_true_eq] at this
  have h1 := this.1
  exact le_trans (by decide) h1

mutual

theorem print_visible (j : Json) : ∀ d ∈ Json.print j, 32 ≤ d.toNat := by
  match j with
  | .null => unfold Json.print; decide
  | .bool true => unfold Json.print; decide
  | .bool false => unfold Json.print; decide
  | .num n => unfold Json.print; exact showNat_visible n
  | .str s => unfold Json.print; exact quote_visible s
  | .arr l =>
    unfold Json.print
    intro d hd
    rcases mem_cons.mp hd with rfl | hd
    · decide
    · exact printItems_visible l d hd
  | .obj l =>
    unfold Json.print
    intro d hd
    rcases mem_cons.mp hd with rfl | hd
    · decide
    · exact printMembers_visible l d hd

theorem printItems_visible (l : List Json) : ∀ d ∈ Json.printItems l, 32 ≤ d.toNat := by
  match l with
  | [] => unfold Json.printItems; decide
  | [j] =>
    unfold Json.printItems
    intro d hd
    rcases mem_append.mp hd with hd | hd
    · exact print_visible j d hd
    · cases mem_singleton.mp hd; decide
  | j :: k :: l =>
    have ih := printItems_visible (k :: l)
    rw [Json.printItems]
    intro d hd
    rcases mem_append.mp hd with hd | hd
    · exact print_visible j d hd
    · rcases mem_cons.mp hd with rfl | hd
      · decide
      · exact ih d hd

theorem printMembers_visible (l : List (Str × Json)) : ∀ d ∈ Json.printMembers l, 32 ≤ d.toNat := by
  match l with
  | [] => unfold Json.printMembers; decide
  | [(k, j)] =>
    unfold Json.printMembers
    intro d hd
    rcases mem_append.mp hd with hd | hd
    · exact quote_visible k d hd
    rcases mem_cons.mp hd with rfl | hd
    · decide
    rcases mem_append.mp hd with hd | hd
    · exact print_visible j d hd
    · cases mem_singleton.mp hd; decide
  | (k, j) :: m :: l =>
    have ih := printMembers_visible (m :: l)
    rw [Json.printMembers]
    intro d hd
    rcases mem_append.mp hd with hd | hd
    · exact quote_visible k d hd
    rcases mem_cons.mp hd with rfl | hd
    · decide
    rcases mem_append.mp hd with hd | hd
    · exact print_visible j d hd
    rcases mem_cons.mp hd with rfl | hd
    · decide
    · exact ih d hd

end

/-- White space around the text does no harm. -/
theorem readJson_line (j : Json) : readJson (Json.print j ++ ['\n']) = some j := by
  unfold readJson
  have h := readValue_print j (2 * (Json.print j ++ ['\n']).length + 1) ['\n']
    (by simp only [length_append]; omega)
    (by intro c hc; cases hc; decide)
  rw [h]
  rfl

end Verif.Props
