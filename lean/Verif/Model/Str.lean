import Verif.Model.Basic

/-!
# String functions of the Rust standard library, on `List Char`
-/

namespace Verif

/-- `str::split(c)`: the pieces between occurrences of `c` (always at least one piece). -/
def splitC (c : Char) : Str → List Str
  | [] => [[]]
  | x :: xs =>
    if x = c then [] :: splitC c xs
    else
      match splitC c xs with
      | [] => [[x]]
      | h :: t => (x :: h) :: t

/-- Joining pieces with a separator character (the inverse of `splitC`). -/
def joinC (c : Char) : List Str → Str
  | [] => []
  | [s] => s
  | s :: t => s ++ c :: joinC c t

/-- `str::starts_with(prefix)`. -/
def startsWith (s : Str) (p : String) : Bool := p.toList.isPrefixOf s

/-- `str::ends_with(suffix)`. -/
def endsWith (s : Str) (p : String) : Bool := p.toList.isSuffixOf s

/-- Drop one leading `+`. -/
def stripPlus : Str → Str
  | [] => []
  | c :: rest => if c = '+' then rest else c :: rest

/-- `str::parse::<uN>` for an unsigned type with values below `bound`: an optional leading `+`, then at
least one ASCII digit and nothing else, and the value must fit. -/
def parseUnsigned (bound : Nat) (s : Str) : Option Nat :=
  let ds := stripPlus s
  if ds.isEmpty then none
  else if ds.all Char.isDigit then
    let n := Nat.ofDigitChars 10 ds 0
    if n < bound then some n else none
  else none

/-- `str::parse::<u32>`. -/
def parseU32 (s : Str) : Option Nat := parseUnsigned (2 ^ 32) s

/-- Decimal text of a number (`{}`). -/
def showNat (n : Nat) : Str := Nat.toDigits 10 n

/-- `{n:04}`: decimal text, padded on the left with zeros to at least `w` characters. -/
def showNatPad (w n : Nat) : Str :=
  List.replicate (w - (showNat n).length) '0' ++ showNat n

/-! ### Facts -/

theorem splitC_ne_nil (c : Char) (s : Str) : splitC c s ≠ [] := by
  cases s with
  | nil => simp [splitC]
  | cons x xs =>
    unfold splitC; split
    · simp
    · split <;> simp

theorem joinC_cons (c : Char) (s : Str) {t : List Str} (ht : t ≠ []) :
    joinC c (s :: t) = s ++ c :: joinC c t := by
  cases t with
  | nil => exact absurd rfl ht
  | cons _ _ => rfl

theorem joinC_splitC (c : Char) (s : Str) : joinC c (splitC c s) = s := by
  induction s with
  | nil => rfl
  | cons x xs ih =>
    unfold splitC
    split
    · rename_i h; subst h
      rw [joinC_cons _ _ (splitC_ne_nil _ _), ih]; rfl
    · cases hs : splitC c xs with
      | nil => exact absurd hs (splitC_ne_nil _ _)
      | cons h t =>
        rw [hs] at ih
        simp only
        cases t with
        | nil => simp [joinC] at ih ⊢; exact ih
        | cons y ys => simp [joinC] at ih ⊢; exact ih

theorem not_mem_splitC (c : Char) (s : Str) : ∀ p ∈ splitC c s, c ∉ p := by
  induction s with
  | nil => simp [splitC]
  | cons x xs ih =>
    unfold splitC
    split
    · simpa using ih
    · rename_i h
      cases hs : splitC c xs with
      | nil => exact absurd hs (splitC_ne_nil _ _)
      | cons y t =>
        rw [hs] at ih
        intro p hp
        simp only [List.mem_cons] at hp ih
        rcases hp with rfl | hp
        · intro hc
          rcases List.mem_cons.mp hc with rfl | hc
          · exact h rfl
          · exact ih y (Or.inl rfl) hc
        · exact ih p (Or.inr hp)

theorem splitC_of_not_mem {c : Char} {s : Str} (h : c ∉ s) : splitC c s = [s] := by
  induction s with
  | nil => rfl
  | cons x xs ih =>
    simp only [List.mem_cons, not_or] at h
    unfold splitC
    rw [if_neg (fun e => h.1 e.symm), ih h.2]

theorem splitC_append {c : Char} {s : Str} (h : c ∉ s) (t : Str) :
    splitC c (s ++ c :: t) = s :: splitC c t := by
  induction s with
  | nil => simp [splitC]
  | cons x xs ih =>
    simp only [List.mem_cons, not_or] at h
    rw [List.cons_append, splitC, if_neg (fun e => h.1 e.symm), ih h.2]

theorem splitC_joinC {c : Char} {l : List Str} (hl : l ≠ []) (h : ∀ p ∈ l, c ∉ p) :
    splitC c (joinC c l) = l := by
  induction l with
  | nil => exact absurd rfl hl
  | cons s t ih =>
    cases t with
    | nil => exact splitC_of_not_mem (h s (by simp))
    | cons y ys =>
      rw [joinC_cons _ _ (by simp), splitC_append (h s (by simp)), ih (by simp) (fun p hp => h p (by simp [hp]))]

theorem parseUnsigned_lt {b n : Nat} {s : Str} (h : parseUnsigned b s = some n) : n < b := by
  unfold parseUnsigned at h
  simp only at h
  split at h
  · cases h
  · split at h
    · split at h
      · rename_i hlt; cases h; exact hlt
      · cases h
    · cases h

theorem showNat_ne_nil (n : Nat) : showNat n ≠ [] := Nat.toDigits_ne_nil

theorem isDigit_of_mem_showNat {n : Nat} {c : Char} (h : c ∈ showNat n) : c.isDigit :=
  Nat.isDigit_of_mem_toDigits (by decide) (by decide) h

theorem plus_not_digit : Char.isDigit '+' = false := by decide
theorem dash_not_digit : Char.isDigit '-' = false := by decide

theorem parseUnsigned_digits {b : Nat} {s : Str} (hne : s ≠ []) (hd : ∀ c ∈ s, c.isDigit = true) :
    parseUnsigned b s = if Nat.ofDigitChars 10 s 0 < b then some (Nat.ofDigitChars 10 s 0) else none := by
  unfold parseUnsigned
  have h1 : stripPlus s = s := by
    cases s with
    | nil => rfl
    | cons c rest =>
      rw [stripPlus, if_neg]
      rintro rfl
      have := hd '+' (by simp); rw [plus_not_digit] at this; cases this
  simp only [h1]
  rw [if_neg (by simpa using hne), if_pos (by simpa using hd)]

/-- Printing then parsing gives the number back. -/
theorem parseUnsigned_showNat {b n : Nat} (h : n < b) : parseUnsigned b (showNat n) = some n := by
  rw [parseUnsigned_digits (showNat_ne_nil n) (fun c hc => isDigit_of_mem_showNat hc)]
  simp [showNat, Nat.ofDigitChars_ten_toDigits, h]

theorem isDigit_of_mem_showNatPad {w n : Nat} {c : Char} (h : c ∈ showNatPad w n) : c.isDigit := by
  unfold showNatPad at h
  rcases List.mem_append.mp h with h | h
  · rw [List.eq_of_mem_replicate h]; decide
  · exact isDigit_of_mem_showNat h

theorem showNatPad_ne_nil (w n : Nat) : showNatPad w n ≠ [] := by
  simp [showNatPad, showNat_ne_nil]

theorem ofDigitChars_showNatPad (w n : Nat) : Nat.ofDigitChars 10 (showNatPad w n) 0 = n := by
  unfold showNatPad
  rw [Nat.ofDigitChars_append, Nat.ofDigitChars_replicate_zero]
  simp [showNat, Nat.ofDigitChars_ten_toDigits]

theorem parseUnsigned_showNatPad {b w n : Nat} (h : n < b) : parseUnsigned b (showNatPad w n) = some n := by
  rw [parseUnsigned_digits (showNatPad_ne_nil w n) (fun c hc => isDigit_of_mem_showNatPad hc)]
  simp [ofDigitChars_showNatPad, h]

theorem dash_not_mem_showNatPad (w n : Nat) : '-' ∉ showNatPad w n := by
  intro h; have := isDigit_of_mem_showNatPad h; rw [dash_not_digit] at this; cases this

theorem dash_not_mem_showNat (n : Nat) : '-' ∉ showNat n := by
  intro h; have := isDigit_of_mem_showNat h; rw [dash_not_digit] at this; cases this

theorem startsWith_iff {s : Str} {p : String} : startsWith s p = true ↔ ∃ t, s = p.toList ++ t := by
  unfold startsWith
  rw [List.isPrefixOf_iff_prefix]
  exact ⟨fun ⟨t, h⟩ => ⟨t, h.symm⟩, fun ⟨t, h⟩ => ⟨t, h.symm⟩⟩

end Verif
