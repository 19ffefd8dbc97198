import Verif.Model.Source

/-!
# Lemmas about percent encoding and URL cutting
-/

namespace Verif.Lock

/-! ### UTF-8 -/

theorem utf8EncodeChar_ascii {c : Char} (h : c.val ≤ 0x7f) : String.utf8EncodeChar c = [c.val.toUInt8] := by
  have h1 : c.val.toNat ≤ 127 := by
    have : c.val.toNat ≤ (0x7f : UInt32).toNat := h
    simpa using this
  unfold String.utf8EncodeChar
  simp only
  rw [if_pos h1]
  congr 1

theorem decodeOne_encode (c : Char) (bs : List UInt8) : decodeOne (String.utf8EncodeChar c ++ bs) = some c := by
  have hdec : (String.utf8EncodeChar c ++ bs).toByteArray.utf8DecodeChar? 0 = some c := by
    rw [List.toByteArray_append]
    exact ByteArray.utf8DecodeChar?_utf8EncodeChar_append
  by_cases h : c.val ≤ 0x7f
  · rw [utf8EncodeChar_ascii h]
    have h1 : c.val.toNat ≤ 127 := by
      have : c.val.toNat ≤ (0x7f : UInt32).toNat := h
      simpa using this
    have h2 : (c.val.toUInt8).toNat = c.val.toNat := by
      simp only [UInt32.toNat_toUInt8]; omega
    have h3 : c.val.toUInt8 < 128 := by
      rw [UInt8.lt_iff_toNat_lt, h2]
      have : (128 : UInt8).toNat = 128 := by decide
      omega
    simp only [decodeOne, List.cons_append, List.nil_append, if_pos h3, h2]
    exact congrArg some (Char.ofNat_toNat c)
  · unfold decodeOne
    cases hl : String.utf8EncodeChar c ++ bs with
    | nil =>
      have h0 := congrArg List.length hl
      rw [List.length_append, String.length_utf8EncodeChar] at h0
      have := c.utf8Size_pos
      simp at h0; omega
    | cons b t =>
      simp only
      split
      · -- a first byte below 128 decodes to an ASCII character
        rename_i hb
        exfalso
        have hcs : c.toNat > 127 := by
          have : ¬ c.val.toNat ≤ (0x7f : UInt32).toNat := h
          have e : (0x7f : UInt32).toNat = 127 := by decide
          rw [e] at this
          show c.val.toNat > 127
          omega
        have hb' : b.toNat < 128 := by
          have := UInt8.lt_iff_toNat_lt.mp hb
          have e : (128 : UInt8).toNat = 128 := by decide
          rwa [e] at this
        unfold String.utf8EncodeChar at hl
        have hcs' : c.val.toNat > 127 := hcs
        have hmax : c.val.toNat < 0x110000 := by
          have h0 := c.valid
          simp only [UInt32.isValidChar, Nat.isValidChar] at h0
          omega
        simp only at hl
        rw [if_neg (by omega)] at hl
        split at hl
        · simp only [List.cons_append, List.cons.injEq] at hl
          rw [← hl.1] at hb'
          simp at hb'
          omega
        · split at hl
          · simp only [List.cons_append, List.cons.injEq] at hl
            rw [← hl.1] at hb'
            simp at hb'
            omega
          · simp only [List.cons_append, List.cons.injEq] at hl
            rw [← hl.1] at hb'
            simp at hb'
            omega
      · rw [← hl]; exact hdec

theorem lossyN_utf8 (s : Str) : ∀ n, (utf8 s).length ≤ n → lossyN n (utf8 s) = s := by
  induction s with
  | nil => intro n _; cases n <;> rfl
  | cons c s ih =>
    intro n hn
    have hcons : utf8 (c :: s) = String.utf8EncodeChar c ++ utf8 s := by simp [utf8]
    rw [hcons] at hn ⊢
    have hlen : (String.utf8EncodeChar c).length = c.utf8Size := String.length_utf8EncodeChar c
    have hpos := c.utf8Size_pos
    rw [List.length_append, hlen] at hn
    obtain ⟨m, rfl⟩ : ∃ m, n = m + 1 := ⟨n - 1, by omega⟩
    unfold lossyN
    have hd := decodeOne_encode c (utf8 s)
    cases hl : String.utf8EncodeChar c ++ utf8 s with
    | nil =>
      have := congrArg List.length hl
      rw [List.length_append, hlen] at this
      simp at this; omega
    | cons b t =>
      simp only
      rw [← hl, hd]
      simp only
      rw [List.drop_append_of_le_length (by omega), ← hlen, List.drop_length, List.nil_append,
        ih m (by omega)]

theorem lossy_utf8 (s : Str) : lossy (utf8 s) = s := lossyN_utf8 s _ (Nat.le_refl _)

/-! ### Percent decoding -/

theorem hexVal_upper : ∀ n < 16, hexVal (hexDigitUpper n) = some n := by decide +kernel

theorem pctValue_upper (b : UInt8) :
    pctValue (hexDigitUpper (b.toNat / 16)) (hexDigitUpper (b.toNat % 16)) = some b := by
  have hb : b.toNat < 256 := b.toNat_lt
  unfold pctValue
  rw [hexVal_upper _ (by omega)]
  simp only
  rw [hexVal_upper _ (by omega)]
  simp only [Option.some.injEq]
  rw [show 16 * (b.toNat / 16) + b.toNat % 16 = b.toNat by omega]
  exact UInt8.ofNat_toNat

theorem formDecode_pct3 (h l : Char) (s : Str) : formDecode ('%' :: h :: l :: s) =
    match pctValue h l with
    | some b => b :: formDecode s
    | none => String.utf8EncodeChar '%' ++ formDecode (h :: l :: s) := by
  rw [formDecode]
  rw [if_neg (by decide)]
  exact if_pos rfl

theorem formDecode_pctByte (b : UInt8) (t : Str) : formDecode (pctByte b ++ t) = b :: formDecode t := by
  show formDecode ('%' :: _ :: _ :: t) = _
  rw [formDecode_pct3, pctValue_upper]

theorem formDecode_pctBytes (bs : List UInt8) (t : Str) :
    formDecode (bs.flatMap pctByte ++ t) = bs ++ formDecode t := by
  induction bs with
  | nil => rfl
  | cons b bs ih =>
    rw [List.flatMap_cons, List.append_assoc, formDecode_pctByte, ih]; rfl

theorem formDecode_plain {c : Char} (t : Str) (h1 : c ≠ '+') (h2 : c ≠ '%') :
    formDecode (c :: t) = String.utf8EncodeChar c ++ formDecode t := by
  match t with
  | [] => simp [formDecode, h1]
  | [d] => simp [formDecode, h1]
  | h :: l :: s => simp only [formDecode]; rw [if_neg h1, if_neg h2]

theorem formDecode_plus (t : Str) : formDecode ('+' :: t) = 32 :: formDecode t := by
  match t with
  | [] => simp [formDecode]
  | [d] => simp [formDecode]
  | h :: l :: s => rw [formDecode]; exact if_pos rfl

theorem formDecode_noPlusPct {s : Str} (h : ∀ c ∈ s, c ≠ '+' ∧ c ≠ '%') : formDecode s = utf8 s := by
  induction s with
  | nil => rfl
  | cons c s ih =>
    rw [formDecode_plain _ (h c (by simp)).1 (h c (by simp)).2, ih (fun x hx => h x (by simp [hx]))]
    simp [utf8]

theorem formDecode_byteSerialize (s : Str) : formDecode (byteSerialize s) = utf8 s := by
  induction s with
  | nil => rfl
  | cons c s ih =>
    have e : utf8 (c :: s) = String.utf8EncodeChar c ++ utf8 s := by simp [utf8]
    unfold byteSerialize at ih ⊢
    rw [List.flatMap_cons, e, ← ih]
    by_cases hk : (c.isAlphanum || decide (c ∈ ['*', '-', '.', '_'])) = true
    · rw [if_pos hk]
      apply formDecode_plain
      · rintro rfl; exact absurd hk (by decide)
      · rintro rfl; exact absurd hk (by decide)
    · rw [if_neg hk]
      by_cases hsp : c = ' '
      · subst hsp
        rw [if_pos rfl]
        exact formDecode_plus _
      · rw [if_neg hsp, formDecode_pctBytes]

/-- Characters whose encoding a query string decoder cannot see: everything it gives a meaning to
(`%`, `+`, hexadecimal digits) is kept. -/
theorem formDecode_pctEncode {keep : Char → Bool} (hp : keep '%' = true) (hplus : keep '+' = true)
    (hhex : ∀ c n, hexVal c = some n → keep c = true) (s : Str) :
    formDecode (pctEncode keep s) = formDecode s := by
  have hcons : ∀ c t, pctEncode keep (c :: t) =
      (if keep c then [c] else (String.utf8EncodeChar c).flatMap pctByte) ++ pctEncode keep t := by
    intro c t; simp [pctEncode]
  -- an encoded character starts with a kept character or with `%`
  have hne : ∀ c, keep c = false → ∃ u, (String.utf8EncodeChar c).flatMap pctByte = '%' :: u ∧
      ∃ h l v, u = h :: l :: v := by
    intro c _
    have hlen : (String.utf8EncodeChar c).length = c.utf8Size := String.length_utf8EncodeChar c
    have hpos := c.utf8Size_pos
    cases hl : String.utf8EncodeChar c with
    | nil => rw [hl] at hlen; simp at hlen; omega
    | cons b bs => exact ⟨_, rfl, _, _, _, rfl⟩
  have pctNone : ∀ l, pctValue '%' l = none := by
    intro l; unfold pctValue; rw [show hexVal '%' = none by decide]
  have pctNone2 : ∀ h, pctValue h '%' = none := by
    intro h; unfold pctValue
    rw [show hexVal '%' = none by decide]
    cases hexVal h <;> rfl
  have pctBad1 : ∀ h l, keep h = false → pctValue h l = none := by
    intro h l hk
    unfold pctValue
    cases hv : hexVal h with
    | none => rfl
    | some n => rw [hhex h n hv] at hk; cases hk
  have pctBad2 : ∀ h l, keep l = false → pctValue h l = none := by
    intro h l hk
    unfold pctValue
    cases hv : hexVal l with
    | none => cases hexVal h <;> rfl
    | some n => rw [hhex l n hv] at hk; cases hk
  -- strong induction on the length
  generalize hn : s.length = n
  induction n using Nat.strongRecOn generalizing s with
  | _ n ih =>
    match s, hn with
    | [], _ => rfl
    | c :: t, hn =>
      have iht := ih t.length (by simp at hn; omega) t rfl
      rw [hcons]
      by_cases hk : keep c = true
      · rw [if_pos hk]
        by_cases hplus' : c = '+'
        · subst hplus'
          simp only [List.cons_append, List.nil_append]
          rw [formDecode_plus, formDecode_plus, iht]
        · by_cases hpct : c = '%'
          · subst hpct
            simp only [List.cons_append, List.nil_append]
            match t, iht, hn with
            | [], _, _ => rfl
            | [d], iht, _ =>
              by_cases hd : keep d = true
              · have : pctEncode keep [d] = [d] := by simp [pctEncode, hd]
                rw [this]
              · obtain ⟨u, hu, h, l, v, rfl⟩ := hne d (by simpa using hd)
                have e : pctEncode keep [d] = '%' :: h :: l :: v := by
                  simp [pctEncode, hd, hu]
                rw [e] at iht ⊢
                rw [formDecode_pct3, pctNone]
                simp only
                rw [iht]
                simp [formDecode]
            | h :: l :: r, iht, hn =>
              have ihr := ih r.length (by simp at hn; omega) r rfl
              by_cases hh : keep h = true
              · have e1 : pctEncode keep (h :: l :: r) = h :: pctEncode keep (l :: r) := by
                  rw [hcons, if_pos hh]; rfl
                by_cases hl : keep l = true
                · have e2 : pctEncode keep (l :: r) = l :: pctEncode keep r := by
                    rw [hcons, if_pos hl]; rfl
                  rw [e1, e2] at iht ⊢
                  rw [formDecode_pct3, formDecode_pct3]
                  cases pctValue h l with
                  | some b => simp only; rw [ihr]
                  | none => simp only; rw [iht]
                · obtain ⟨u, hu, a, b, v, rfl⟩ := hne l (by simpa using hl)
                  have e2 : pctEncode keep (l :: r) = '%' :: a :: b :: (v ++ pctEncode keep r) := by
                    rw [hcons, if_neg hl, hu]; rfl
                  rw [e1, e2] at iht ⊢
                  rw [formDecode_pct3, pctNone2]
                  simp only
                  rw [iht, formDecode_pct3,
                    pctBad2 h l (by simpa using hl)]
              · obtain ⟨u, hu, a, b, v, rfl⟩ := hne h (by simpa using hh)
                have e1 : pctEncode keep (h :: l :: r) = '%' :: a :: b :: (v ++ pctEncode keep (l :: r)) := by
                  rw [hcons, if_neg hh, hu]; rfl
                rw [e1] at iht ⊢
                rw [formDecode_pct3, pctNone]
                simp only
                rw [iht, formDecode_pct3,
                  pctBad1 h l (by simpa using hh)]
          · simp only [List.cons_append, List.nil_append]
            rw [formDecode_plain _ hplus' hpct, formDecode_plain _ hplus' hpct, iht]
      · rw [if_neg hk, formDecode_pctBytes, iht]
        rw [formDecode_plain]
        · rintro rfl; exact hk hplus
        · rintro rfl; exact hk hp

/-! ### What encoded texts are made of -/

theorem hexDigitUpper_kept : ∀ n, keepFragment (hexDigitUpper n) = true ∧
    (∀ sp, keepQuery sp (hexDigitUpper n) = true) := by
  intro n
  by_cases h : n < 16
  · have key : ∀ n < 16, keepFragment (hexDigitUpper n) = true ∧
        (∀ sp, keepQuery sp (hexDigitUpper n) = true) := by decide +kernel
    exact key n h
  · have : hexDigitUpper n = '0' := by
      unfold hexDigitUpper
      rw [List.getD_eq_getElem?_getD, List.getElem?_eq_none, Option.getD_none]
      have : "0123456789ABCDEF".toList.length = 16 := by decide
      omega
    rw [this]
    decide +kernel

theorem kept_pctBytes {keep : Char → Bool} (hp : keep '%' = true) (hd : ∀ n, keep (hexDigitUpper n) = true)
    (bs : List UInt8) : ∀ c ∈ bs.flatMap pctByte, keep c = true := by
  intro c hc
  obtain ⟨b, _, hb⟩ := List.mem_flatMap.mp hc
  simp only [pctByte, List.mem_cons, List.not_mem_nil, or_false] at hb
  rcases hb with rfl | rfl | rfl
  · exact hp
  · exact hd _
  · exact hd _

theorem kept_pctEncode {keep : Char → Bool} (hp : keep '%' = true) (hd : ∀ n, keep (hexDigitUpper n) = true)
    (s : Str) : ∀ c ∈ pctEncode keep s, keep c = true := by
  intro c hc
  obtain ⟨x, _, hx⟩ := List.mem_flatMap.mp hc
  split at hx
  · rename_i hk; rw [List.mem_singleton] at hx; subst hx; exact hk
  · exact kept_pctBytes hp hd _ c hx

theorem pctEncode_of_kept {keep : Char → Bool} {s : Str} (h : ∀ c ∈ s, keep c = true) :
    pctEncode keep s = s := by
  induction s with
  | nil => rfl
  | cons c s ih =>
    have : pctEncode keep (c :: s) = (if keep c then [c] else (String.utf8EncodeChar c).flatMap pctByte) ++
      pctEncode keep s := by simp [pctEncode]
    rw [this, if_pos (h c (by simp)), ih (fun x hx => h x (by simp [hx]))]
    rfl

/-! ### Cutting -/

theorem cutC_of_not_mem {c : Char} {s : Str} (h : c ∉ s) : cutC c s = (s, none) := by
  induction s with
  | nil => rfl
  | cons x xs ih =>
    simp only [List.mem_cons, not_or] at h
    rw [cutC, if_neg (fun e => h.1 e.symm), ih h.2]

theorem cutC_append {c : Char} {s : Str} (h : c ∉ s) (t : Str) : cutC c (s ++ c :: t) = (s, some t) := by
  induction s with
  | nil => simp [cutC]
  | cons x xs ih =>
    simp only [List.mem_cons, not_or] at h
    rw [List.cons_append, cutC, if_neg (fun e => h.1 e.symm), ih h.2]

theorem cutC_optPart {c : Char} {s : Str} (h : c ∉ s) (t : Option Str) :
    cutC c (s ++ optPart c t) = (s, t) := by
  cases t with
  | none => simp [optPart, cutC_of_not_mem h]
  | some t => exact cutC_append h t

theorem cutC_eq {c : Char} {s a : Str} {b : Option Str} (h : cutC c s = (a, b)) :
    c ∉ a ∧ s = a ++ optPart c b := by
  induction s generalizing a b with
  | nil => simp only [cutC, Prod.mk.injEq] at h; obtain ⟨rfl, rfl⟩ := h; simp [optPart]
  | cons x xs ih =>
    unfold cutC at h
    split at h
    · rename_i hx; subst hx
      simp only [Prod.mk.injEq] at h; obtain ⟨rfl, rfl⟩ := h
      simp [optPart]
    · rename_i hx
      cases hr : cutC c xs with
      | mk a' b' =>
        rw [hr] at h
        simp only [Prod.mk.injEq] at h; obtain ⟨rfl, rfl⟩ := h
        have := ih hr
        refine ⟨?_, by rw [this.2]; rfl⟩
        simp only [List.mem_cons, not_or]
        exact ⟨fun e => hx e.symm, this.1⟩

/-! ### Cleaning -/

theorem dropTabs_id {s : Str} (h : ∀ c ∈ s, c ≠ '\t' ∧ c ≠ '\n' ∧ c ≠ '\r') : dropTabs s = s := by
  unfold dropTabs
  rw [List.filter_eq_self]
  intro c hc
  have := h c hc
  simp [this]

theorem dropWhile_id {p : Char → Bool} {s : Str} (h : ∀ c, s.head? = some c → p c = false) :
    s.dropWhile p = s := by
  cases s with
  | nil => rfl
  | cons c s =>
    have := h c rfl
    rw [List.dropWhile_cons, this]; rfl

theorem trimCtl_id {s : Str} (h1 : ∀ c, s.head? = some c → ' ' < c)
    (h2 : ∀ c, s.getLast? = some c → ' ' < c) : trimCtl s = s := by
  have aux : ∀ c : Char, ' ' < c → decide (c ≤ ' ') = false := by
    intro c hc
    apply decide_eq_false
    exact Char.not_le.mpr hc
  unfold trimCtl
  rw [dropWhile_id (s := s) (fun c hc => aux c (h1 c hc))]
  rw [dropWhile_id (s := s.reverse) (fun c hc => aux c (h2 c (by rwa [List.head?_reverse] at hc)))]
  simp

end Verif.Lock
