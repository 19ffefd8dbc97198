import Verif.Model.Checksum

/-!
# C25: checksum text
-/

namespace Verif.Props

open Verif Verif.Lock

/-! ## Specification -/

/-- The sixteen lower-case hexadecimal digits in order of value. -/
def lowerHex : Str := "0123456789abcdef".toList

/-- `d` is a hexadecimal digit of value `n`, in either case. -/
def IsHexDigit (d : Char) (n : Nat) : Prop :=
  n < 16 ∧ (lowerHex[n]? = some d ∨ ("0123456789ABCDEF".toList)[n]? = some d)

/-- What the parser takes for one byte: two hexadecimal digits, or `+` and one digit. -/
inductive HexPair : Char → Char → Fin 256 → Prop where
  | two {c d : Char} {x y : Nat} {b : Fin 256} : IsHexDigit c x → IsHexDigit d y → b.val = 16 * x + y →
      HexPair c d b
  | plus {d : Char} {y : Nat} {b : Fin 256} : IsHexDigit d y → b.val = y → HexPair '+' d b

/-- `s` spells the bytes `bs`, two characters per byte. -/
inductive Spells : Str → List (Fin 256) → Prop where
  | nil : Spells [] []
  | cons {c d : Char} {b : Fin 256} {s : Str} {bs : List (Fin 256)} :
      HexPair c d b → Spells s bs → Spells (c :: d :: s) (b :: bs)

/-! ## Lemmas -/

private theorem isHexDigit_iff {d : Char} {n : Nat} : IsHexDigit d n ↔ hexVal d = some n := by
  constructor
  · rintro ⟨hn, h⟩
    have key : ∀ n < 16, (∀ d, lowerHex[n]? = some d → hexVal d = some n) ∧
        (∀ d, ("0123456789ABCDEF".toList)[n]? = some d → hexVal d = some n) := by
      intro n hn
      have h1 : ∀ n < 16, (lowerHex[n]?).all (fun d => decide (hexVal d = some n)) = true := by
        decide +kernel
      have h2 : ∀ n < 16, (("0123456789ABCDEF".toList)[n]?).all (fun d => decide (hexVal d = some n)) = true := by
        decide +kernel
      constructor
      · intro d hd
        have := h1 n hn
        rw [hd] at this
        exact of_decide_eq_true this
      · intro d hd
        have := h2 n hn
        rw [hd] at this
        exact of_decide_eq_true this
    rcases h with h | h
    · exact (key n hn).1 d h
    · exact (key n hn).2 d h
  · intro h
    unfold hexVal at h
    have hc : ∀ (c : Char) (k : Nat), c.toNat = k → c = Char.ofNat k := by
      intro c k hk; rw [← hk, Char.ofNat_toNat]
    split at h
    · rename_i hr
      obtain ⟨hl, hu⟩ := hr
      have hl' : 48 ≤ d.toNat := hl
      have hu' : d.toNat ≤ 57 := hu
      cases h
      have : ∀ k, 48 ≤ k → k ≤ 57 → IsHexDigit (Char.ofNat k) (k - 48) := by
        intro k h1 h2
        have : ∀ k ≤ 57, 48 ≤ k → (k - 48 < 16 ∧ lowerHex[k - 48]? = some (Char.ofNat k)) := by decide +kernel
        exact ⟨(this k h2 h1).1, Or.inl (this k h2 h1).2⟩
      have := this d.toNat hl' hu'
      rwa [Char.ofNat_toNat] at this
    · split at h
      · rename_i hr
        obtain ⟨hl, hu⟩ := hr
        have hl' : 97 ≤ d.toNat := hl
        have hu' : d.toNat ≤ 102 := hu
        cases h
        have : ∀ k, 97 ≤ k → k ≤ 102 → IsHexDigit (Char.ofNat k) (k - 97 + 10) := by
          intro k h1 h2
          have : ∀ k ≤ 102, 97 ≤ k → (k - 97 + 10 < 16 ∧ lowerHex[k - 97 + 10]? = some (Char.ofNat k)) := by
            decide +kernel
          exact ⟨(this k h2 h1).1, Or.inl (this k h2 h1).2⟩
        have := this d.toNat hl' hu'
        rwa [Char.ofNat_toNat] at this
      · split at h
        · rename_i hr
          obtain ⟨hl, hu⟩ := hr
          have hl' : 65 ≤ d.toNat := hl
          have hu' : d.toNat ≤ 70 := hu
          cases h
          have : ∀ k, 65 ≤ k → k ≤ 70 → IsHexDigit (Char.ofNat k) (k - 65 + 10) := by
            intro k h1 h2
            have : ∀ k ≤ 70, 65 ≤ k →
                (k - 65 + 10 < 16 ∧ ("0123456789ABCDEF".toList)[k - 65 + 10]? = some (Char.ofNat k)) := by
              decide +kernel
            exact ⟨(this k h2 h1).1, Or.inr (this k h2 h1).2⟩
          have := this d.toNat hl' hu'
          rwa [Char.ofNat_toNat] at this
        · cases h

private theorem hexVal_lt {c : Char} {n : Nat} (h : hexVal c = some n) : n < 16 :=
  (isHexDigit_iff.mpr h).1

private theorem hexVal_size {c : Char} {n : Nat} (h : hexVal c = some n) : c.utf8Size = 1 := by
  have : c.toNat ≤ 102 := by
    unfold hexVal at h
    split at h
    · rename_i hr; have : c.toNat ≤ 57 := hr.2; omega
    · split at h
      · rename_i hr; exact hr.2
      · split at h
        · rename_i hr; have : c.toNat ≤ 70 := hr.2; omega
        · cases h
  have hv : c.val ≤ 0x7f := by
    show c.val.toNat ≤ (0x7f : UInt32).toNat
    have h2 : c.val.toNat ≤ 102 := this
    have h3 : (0x7f : UInt32).toNat = 127 := by decide
    omega
  unfold Char.utf8Size
  simp [hv]

private theorem hexVal_plus : hexVal '+' = none := by decide

theorem hexPair_iff {c d : Char} {b : Fin 256} : HexPair c d b ↔ byteOfHex c d = some b := by
  unfold byteOfHex
  constructor
  · intro h
    cases h with
    | two hc hd hb =>
      rw [isHexDigit_iff] at hc hd
      have : c ≠ '+' := by rintro rfl; rw [hexVal_plus] at hc; cases hc
      rw [if_neg this, hc]
      simp only
      rw [hd]
      simp only [Option.some.injEq]
      apply Fin.ext
      have := hexVal_lt hc; have := hexVal_lt hd
      simp only [Fin.ofNat]; omega
    | plus hd hb =>
      rw [isHexDigit_iff] at hd
      rw [if_pos rfl, hd]
      simp only [Option.some.injEq]
      apply Fin.ext
      have := hexVal_lt hd
      simp only [Fin.ofNat]; omega
  · intro h
    split at h
    · rename_i hp; subst hp
      cases hd : hexVal d with
      | none => rw [hd] at h; cases h
      | some y =>
        rw [hd] at h
        simp only [Option.some.injEq] at h
        refine HexPair.plus (isHexDigit_iff.mpr hd) ?_
        rw [← h]; have := hexVal_lt hd
        simp only [Fin.ofNat]; omega
    · cases hc : hexVal c with
      | none => rw [hc] at h; cases h
      | some x =>
        rw [hc] at h
        cases hd : hexVal d with
        | none => rw [hd] at h; cases h
        | some y =>
          rw [hd] at h
          simp only [Option.some.injEq] at h
          refine HexPair.two (isHexDigit_iff.mpr hc) (isHexDigit_iff.mpr hd) ?_
          rw [← h]; have := hexVal_lt hc; have := hexVal_lt hd
          simp only [Fin.ofNat]; omega

theorem byteOfHex_size {c d : Char} {b : Fin 256} (h : byteOfHex c d = some b) :
    c.utf8Size = 1 ∧ d.utf8Size = 1 := by
  unfold byteOfHex at h
  split at h
  · rename_i hp; subst hp
    cases hd : hexVal d with
    | none => rw [hd] at h; cases h
    | some y => exact ⟨by decide, hexVal_size hd⟩
  · cases hc : hexVal c with
    | none => rw [hc] at h; cases h
    | some x =>
      rw [hc] at h
      cases hd : hexVal d with
      | none => rw [hd] at h; cases h
      | some y => exact ⟨hexVal_size hc, hexVal_size hd⟩

private theorem loop_ok {n : Nat} {s : Str} {bs : Checksum} (hs : byteLen s = 2 * n) :
    Checksum.loop n s = .ok bs ↔ Spells s bs ∧ bs.length = n := by
  induction n generalizing s bs with
  | zero =>
    have : s = [] := by
      cases s with
      | nil => rfl
      | cons c t => simp [byteLen] at hs; have := c.utf8Size_pos; omega
    subst this
    simp only [Checksum.loop, Outcome.ok.injEq]
    constructor
    · rintro rfl; exact ⟨.nil, rfl⟩
    · rintro ⟨h, _⟩; cases h; rfl
  | succ n ih =>
    cases s with
    | nil => simp [byteLen] at hs
    | cons c s =>
      simp only [Checksum.loop]
      split
      · rename_i hc1
        cases s with
        | nil => simp [byteLen, hc1] at hs; omega
        | cons d s =>
          simp only
          split
          · rename_i hd1
            have hs' : byteLen s = 2 * n := by
              simp only [byteLen, List.map_cons, List.sum_cons, hc1, hd1] at hs ⊢; omega
            cases hb : byteOfHex c d with
            | none =>
              simp only [reduceCtorEq, false_iff]
              rintro ⟨h, _⟩
              cases h with
              | cons hp _ => rw [hexPair_iff, hb] at hp; cases hp
            | some b =>
              simp only
              constructor
              · intro h
                cases hl : Checksum.loop n s with
                | ok bs' =>
                  rw [hl] at h; simp only [Outcome.ok.injEq] at h; subst h
                  have := (ih hs').mp hl
                  exact ⟨.cons (hexPair_iff.mpr hb) this.1, by simp [this.2]⟩
                | err => rw [hl] at h; cases h
                | panic => rw [hl] at h; cases h
              · rintro ⟨h, hlen⟩
                cases h with
                | @cons _ _ b' _ bs' hp hr =>
                  rw [hexPair_iff, hb] at hp; cases hp
                  have := (ih (bs := bs') hs').mpr ⟨hr, by simpa using hlen⟩
                  rw [this]
          · rename_i hd1
            simp only [reduceCtorEq, false_iff]
            rintro ⟨h, _⟩
            cases h with
            | cons hp _ => rw [hexPair_iff] at hp; exact hd1 (byteOfHex_size hp).2
      · rename_i hc1
        have : ¬ (Spells (c :: s) bs ∧ bs.length = n + 1) := by
          rintro ⟨h, _⟩
          cases h with
          | cons hp _ => rw [hexPair_iff] at hp; exact hc1 (byteOfHex_size hp).1
        split <;> simp [this]

private theorem spells_len {s : Str} {bs : List (Fin 256)} (h : Spells s bs) :
    byteLen s = 2 * bs.length ∧ s.length = 2 * bs.length := by
  induction h with
  | nil => simp [byteLen]
  | cons hp _ ih =>
    have := byteOfHex_size (hexPair_iff.mp hp)
    simp only [byteLen, List.map_cons, List.sum_cons, List.length_cons] at ih ⊢
    rw [this.1, this.2]; omega

private theorem byteHex_spells (b : Fin 256) : HexPair (hexDigit (b.val / 16)) (hexDigit (b.val % 16)) b := by
  have h : ∀ b : Fin 256, byteOfHex (hexDigit (b.val / 16)) (hexDigit (b.val % 16)) = some b := by
    decide +kernel
  exact hexPair_iff.mpr (h b)

private theorem show_spells (c : Checksum) : Spells c.show c := by
  induction c with
  | nil => exact .nil
  | cons b bs ih => exact .cons (byteHex_spells b) ih

/-! ## Theorems -/

/-- C25, acceptance: parsing returns a checksum exactly when the text spells its 32 bytes, two hexadecimal
digits (or `+` and one digit) per byte. -/
theorem C25_accepts_iff (s : Str) (c : Checksum) :
    Checksum.fromStr s = .ok c ↔ Spells s c ∧ c.length = 32 := by
  unfold Checksum.fromStr
  split
  · rename_i h
    simp only [reduceCtorEq, false_iff]
    rintro ⟨hs, hl⟩
    exact h (by rw [(spells_len hs).1, hl])
  · rename_i h
    exact loop_ok (by simpa using h)

/-- C25, round trip: the text of a checksum (32 bytes) parses back to it. -/
theorem C25_round_trip (c : Checksum) (h : c.length = 32) : Checksum.fromStr c.show = .ok c :=
  (C25_accepts_iff _ _).mpr ⟨show_spells c, h⟩

/-- The text printed for a checksum is 64 lower-case hexadecimal digits. -/
theorem C25_show_shape (c : Checksum) (h : c.length = 32) :
    c.show.length = 64 ∧ ∀ d ∈ c.show, d ∈ lowerHex := by
  refine ⟨by rw [(spells_len (show_spells c)).2, h], ?_⟩
  intro d hd
  unfold Checksum.show at hd
  obtain ⟨b, _, hb⟩ := List.mem_flatMap.mp hd
  have key : ∀ b : Fin 256, ∀ d ∈ byteHex b, d ∈ lowerHex := by decide +kernel
  exact key b d hb

/-- Distinct checksums print differently. -/
theorem C25_show_injective (c c' : Checksum) (h : c.length = 32) (h' : c'.length = 32)
    (he : c.show = c'.show) : c = c' := by
  have h1 := C25_round_trip c h
  rw [he, C25_round_trip c' h'] at h1
  cases h1; rfl

/-- C25: a text that is not 64 bytes long is an error (not a panic). -/
theorem C25_wrong_length (s : Str) (h : byteLen s ≠ 64) : Checksum.fromStr s = .err := by
  unfold Checksum.fromStr; rw [if_pos h]

private theorem loop_ascii {n : Nat} {s : Str} (h : ∀ c ∈ s, c.utf8Size = 1) (hl : s.length = 2 * n) :
    Checksum.loop n s ≠ .panic := by
  induction n generalizing s with
  | zero => simp [Checksum.loop]
  | succ n ih =>
    match s, hl with
    | c :: d :: s, hl =>
      have hc := h c (by simp)
      have hd := h d (by simp)
      have := ih (s := s) (fun x hx => h x (by simp [hx])) (by simp at hl; omega)
      simp only [Checksum.loop, hc, hd, if_true]
      cases byteOfHex c d with
      | none => simp
      | some b =>
        simp only
        cases hr : Checksum.loop n s <;> simp_all
    | [c], hl => simp at hl; omega

/-- C25: on ASCII text the parser never panics. -/
theorem C25_ascii_no_panic (s : Str) (h : ∀ c ∈ s, c.utf8Size = 1) : Checksum.fromStr s ≠ .panic := by
  unfold Checksum.fromStr
  split
  · simp
  · rename_i hl
    apply loop_ascii h
    have : byteLen s = s.length := by
      clear hl
      induction s with
      | nil => rfl
      | cons c s ih =>
        have := ih (fun x hx => h x (by simp [hx]))
        simp only [byteLen, List.map_cons, List.sum_cons, List.length_cons] at this ⊢
        rw [h c (by simp)]; omega
    simp only [ne_eq, Decidable.not_not] at hl
    omega

/-- C25, violation: parsing is not injective.  Upper case, lower case, and `+f` for `0f` all parse to the
same checksum. -/
theorem C25_not_injective :
    ∃ (s s' s'' : Str) (c : Checksum), s ≠ s' ∧ s' ≠ s'' ∧ s ≠ s'' ∧ Checksum.fromStr s = .ok c ∧
      Checksum.fromStr s' = .ok c ∧ Checksum.fromStr s'' = .ok c := by
  refine ⟨'0' :: 'f' :: List.replicate 62 '0', '0' :: 'F' :: List.replicate 62 '0',
    '+' :: 'f' :: List.replicate 62 '0', 15 :: List.replicate 31 0, ?_, ?_, ?_, ?_, ?_, ?_⟩ <;>
  decide +kernel

/-- C25, violation: some 64-byte texts make the parser panic (the slice cuts a character in two): one ASCII
character, then a two-byte one. -/
theorem C25_panics : ∃ s : Str, byteLen s = 64 ∧ Checksum.fromStr s = .panic := by
  refine ⟨'0' :: 'é' :: List.replicate 61 '0', ?_, ?_⟩ <;> decide +kernel

/-- Non-vacuity: a checksum of 32 different bytes, its text, and back. -/
example : Checksum.fromStr (Checksum.show ((List.range 32).map (Fin.ofNat 256 <| · * 8))) =
    .ok ((List.range 32).map (Fin.ofNat 256 <| · * 8)) := by decide +kernel

end Verif.Props
