import Verif.Spec.SemverText
import Verif.Props.OsvExport
import Verif.Props.Json

/-!
# The texts of versions and requirements are read and written without loss
-/

namespace Verif.Props

open Verif Verif.Semver

/-- The text does not begin with such a character. -/
def NoHead (p : Char → Bool) (t : Str) : Prop := ∀ c, t.head? = some c → p c = false

theorem noHead_nil (p : Char → Bool) : NoHead p [] := by intro c h; cases h

theorem noHead_cons {p : Char → Bool} {c : Char} {t : Str} (h : p c = false) : NoHead p (c :: t) := by
  intro d hd; cases hd; exact h

theorem span_append {p : Char → Bool} {a t : Str} (ha : ∀ c ∈ a, p c = true) (ht : NoHead p t) :
    (a ++ t).takeWhile p = a ∧ (a ++ t).dropWhile p = t := by
  induction a with
  | nil =>
    cases t with
    | nil => exact ⟨rfl, rfl⟩
    | cons c t => have := ht c rfl; simp [this]
  | cons x xs ih =>
    have hx : p x = true := ha x (by simp)
    obtain ⟨h1, h2⟩ := ih fun c hc => ha c (by simp [hc])
    simp [hx, h1, h2]

theorem takeWhile_all {p : Char → Bool} (s : Str) : ∀ c ∈ s.takeWhile p, p c = true := by
  induction s with
  | nil => simp
  | cons x xs ih =>
    by_cases hx : p x = true
    · intro c hc
      rw [List.takeWhile_cons, if_pos hx] at hc
      rcases List.mem_cons.mp hc with rfl | hc
      · exact hx
      · exact ih c hc
    · intro c hc
      rw [List.takeWhile_cons, if_neg hx] at hc
      cases hc

theorem dropWhile_noHead {p : Char → Bool} (s : Str) : NoHead p (s.dropWhile p) := by
  induction s with
  | nil => exact noHead_nil p
  | cons x xs ih =>
    by_cases hx : p x = true
    · simpa [hx] using ih
    · simp only [List.dropWhile_cons, hx, if_false, Bool.false_eq_true]
      exact noHead_cons (by simpa using hx)

/-- Splitting a text at the first character without the property. -/
theorem span_iff {p : Char → Bool} {s a t : Str} :
    (s.takeWhile p = a ∧ s.dropWhile p = t) ↔ s = a ++ t ∧ (∀ c ∈ a, p c = true) ∧ NoHead p t := by
  constructor
  · rintro ⟨rfl, rfl⟩
    exact ⟨(List.takeWhile_append_dropWhile).symm, takeWhile_all s, dropWhile_noHead s⟩
  · rintro ⟨rfl, ha, ht⟩
    exact span_append ha ht

/-- Digits without superfluous zeros are the text of the number. -/
theorem showNat_of_digits {ds : Str} (hne : ds ≠ []) (hd : ∀ c ∈ ds, c.isDigit = true)
    (hz : ds.length ≤ 1 ∨ ds.head? ≠ some '0') : showNat (Nat.ofDigitChars 10 ds 0) = ds := by
  have hlen : 1 ≤ ds.length := List.length_pos_iff.mpr hne
  have hp := showNatPad_digits hlen rfl hd
  unfold showNatPad at hp
  rcases Nat.eq_zero_or_pos (ds.length - (showNat (Nat.ofDigitChars 10 ds 0)).length) with h0 | h0
  · rw [h0] at hp; simpa using hp
  · exfalso
    obtain ⟨k, hk⟩ : ∃ k, ds.length - (showNat (Nat.ofDigitChars 10 ds 0)).length = k + 1 := ⟨_, (Nat.succ_pred_eq_of_pos h0).symm⟩
    have h1 : 1 ≤ (showNat (Nat.ofDigitChars 10 ds 0)).length := List.length_pos_iff.mpr (showNat_ne_nil _)
    rcases hz with hz | hz
    · omega
    · apply hz
      rw [hk, List.replicate_succ] at hp
      rw [← hp]; rfl

theorem showNat_zeros (n : Nat) : (showNat n).length ≤ 1 ∨ (showNat n).head? ≠ some '0' := by
  rcases Nat.eq_zero_or_pos n with rfl | h
  · left; decide
  · exact .inr (showNat_head n h)

theorem readNumeric_iff {ds : Str} (hd : ∀ c ∈ ds, c.isDigit = true) (n : Nat) :
    readNumeric ds = some n ↔ n < 2 ^ 64 ∧ ds = showNat n := by
  unfold readNumeric
  constructor
  · intro h
    split at h
    · cases h
    · rename_i hc
      simp only [Bool.or_eq_true, List.isEmpty_iff, Bool.and_eq_true, decide_eq_true_eq, not_or, not_and] at hc
      dsimp only at h
      split at h
      · rename_i hlt
        cases h
        refine ⟨hlt, (showNat_of_digits hc.1 hd ?_).symm⟩
        by_cases h1 : 1 < ds.length
        · exact .inr (hc.2 h1)
        · exact .inl (by omega)
      · cases h
  · rintro ⟨hlt, rfl⟩
    have hz := showNat_zeros n
    have hc : ¬((showNat n).isEmpty || (decide (1 < (showNat n).length) && decide ((showNat n).head? = some '0'))) = true := by
      simp only [Bool.or_eq_true, List.isEmpty_iff, Bool.and_eq_true, decide_eq_true_eq, not_or, not_and]
      refine ⟨showNat_ne_nil n, fun h => ?_⟩
      rcases hz with hz | hz
      · omega
      · exact hz
    rw [if_neg hc, ofDigitChars_showNat]
    exact if_pos hlt

theorem takeNumeric_iff (s : Str) (n : Nat) (t : Str) :
    takeNumeric s = some (n, t) ↔ n < 2 ^ 64 ∧ s = showNat n ++ t ∧ NoHead Char.isDigit t := by
  unfold takeNumeric
  simp only [Option.map_eq_some_iff, Prod.mk.injEq]
  constructor
  · rintro ⟨m, hm, rfl, rfl⟩
    rw [readNumeric_iff (takeWhile_all s)] at hm
    exact ⟨hm.1, by rw [← hm.2, List.takeWhile_append_dropWhile], dropWhile_noHead s⟩
  · rintro ⟨hlt, rfl, ht⟩
    obtain ⟨h1, h2⟩ := span_append (a := showNat n) (fun c hc => isDigit_of_mem_showNat hc) ht
    exact ⟨n, by rw [h1, readNumeric_iff fun c hc => isDigit_of_mem_showNat hc]; exact ⟨hlt, rfl⟩, rfl, h2⟩

theorem isIdChar_of_isDigit {c : Char} (h : c.isDigit = true) : isIdChar c = true := by
  simp [isIdChar, Char.isAlphanum, h]

theorem readIdent_iff {s : Str} (hs : ∀ c ∈ s, isIdChar c = true) (i : Ident) :
    readIdent s = some i ↔ i.Valid ∧ s = i.text := by
  unfold readIdent
  constructor
  · intro h
    split at h
    · cases h
    · rename_i he
      split at h
      · rename_i hd
        simp only [List.all_eq_true] at hd
        split at h
        · cases h
        · rename_i hz
          cases h
          refine ⟨trivial, (showNat_of_digits (by simpa using he) hd ?_).symm⟩
          simp only [Bool.and_eq_true, decide_eq_true_eq, not_and] at hz
          by_cases h1 : 1 < s.length
          · exact .inr (hz h1)
          · exact .inl (by omega)
      · rename_i hd
        cases h
        refine ⟨⟨hs, ?_⟩, rfl⟩
        simpa using hd
  · rintro ⟨hv, rfl⟩
    cases i with
    | num n =>
      have hd : (Ident.num n).text.all Char.isDigit = true := by
        simp only [List.all_eq_true]; exact fun c hc => isDigit_of_mem_showNat hc
      have hz := showNat_zeros n
      rw [if_neg (by simpa [Ident.text] using showNat_ne_nil n), if_pos hd, if_neg, Ident.text, ofDigitChars_showNat]
      simp only [Bool.and_eq_true, decide_eq_true_eq, not_and]
      intro h1
      rcases hz with hz | hz
      · simp only [Ident.text] at h1; omega
      · exact hz
    | alpha a =>
      obtain ⟨-, c, hc, hcd⟩ := hv
      have hne : a ≠ [] := by rintro rfl; cases hc
      rw [if_neg (by simpa [Ident.text] using hne), if_neg]
      · rfl
      · simp only [List.all_eq_true, Ident.text, not_forall]
        exact ⟨c, hc, by simp [hcd]⟩

theorem readBuildId_iff {s : Str} (hs : ∀ c ∈ s, isIdChar c = true) (i : BuildId) :
    readBuildId s = some i ↔ i.Valid ∧ s = i.text := by
  unfold readBuildId
  constructor
  · intro h
    split at h
    · cases h
    · rename_i he
      have hne : s ≠ [] := by simpa using he
      split at h
      · rename_i hd
        simp only [List.all_eq_true] at hd
        cases h
        have hp := showNatPad_digits (List.length_pos_iff.mpr hne) rfl hd
        refine ⟨?_, hp.symm⟩
        have hl := congrArg List.length hp
        simp only [showNatPad, List.length_append, List.length_replicate] at hl
        simp only [BuildId.Valid]
        omega
      · rename_i hd
        cases h
        refine ⟨⟨hs, ?_⟩, rfl⟩
        simpa using hd
  · rintro ⟨hv, rfl⟩
    cases i with
    | num n w =>
      have hd : (BuildId.num n w).text.all Char.isDigit = true := by
        simp only [List.all_eq_true]; exact fun c hc => isDigit_of_mem_showNatPad hc
      rw [if_neg (by simpa [BuildId.text] using showNatPad_ne_nil w n), if_pos hd]
      simp only [BuildId.text, ofDigitChars_showNatPad]
      simp only [BuildId.Valid] at hv
      have : (showNatPad w n).length = w := by
        simp only [showNatPad, List.length_append, List.length_replicate]; omega
      rw [this]
    | alpha a =>
      obtain ⟨-, c, hc, hcd⟩ := hv
      have hne : a ≠ [] := by rintro rfl; cases hc
      rw [if_neg (by simpa [BuildId.text] using hne), if_neg]
      · rfl
      · simp only [List.all_eq_true, BuildId.text, not_forall]
        exact ⟨c, hc, by simp [hcd]⟩

theorem ident_chars {i : Ident} (h : i.Valid) : ∀ c ∈ i.text, isIdChar c = true := by
  cases i with
  | num n => exact fun c hc => isIdChar_of_isDigit (isDigit_of_mem_showNat hc)
  | alpha s => exact h.1

theorem buildId_chars {i : BuildId} (h : i.Valid) : ∀ c ∈ i.text, isIdChar c = true := by
  cases i with
  | num n w => exact fun c hc => isIdChar_of_isDigit (isDigit_of_mem_showNatPad hc)
  | alpha s => exact h.1

theorem readAll_iff {α : Type} (f : Str → Option α) (ss : List Str) (xs : List α) :
    readAll f ss = some xs ↔ List.Forall₂ (fun s x => f s = some x) ss xs := by
  induction ss generalizing xs with
  | nil => simp [readAll, eq_comm]
  | cons s ss ih =>
    simp only [readAll, Option.bind_eq_bind, Option.bind_eq_some_iff, Option.some.injEq, List.forall₂_cons_left_iff]
    constructor
    · rintro ⟨x, hx, ys, hys, rfl⟩; exact ⟨x, ys, hx, (ih ys).mp hys, rfl⟩
    · rintro ⟨x, ys, hx, hys, rfl⟩; exact ⟨x, hx, ys, (ih ys).mpr hys, rfl⟩

theorem mem_joinC {c d : Char} {l : List Str} (h : d ∈ joinC c l) : d = c ∨ ∃ p ∈ l, d ∈ p := by
  induction l with
  | nil => cases h
  | cons s t ih =>
    by_cases ht : t = []
    · subst ht; exact .inr ⟨s, by simp, h⟩
    · rw [joinC_cons c s ht] at h
      rcases List.mem_append.mp h with h | h
      · exact .inr ⟨s, by simp, h⟩
      · rcases List.mem_cons.mp h with h | h
        · exact .inl h
        · rcases ih h with h | ⟨p, hp, h⟩
          · exact .inl h
          · exact .inr ⟨p, by simp [hp], h⟩

theorem mem_of_mem_splitC {c d : Char} {s p : Str} (hp : p ∈ splitC c s) (hd : d ∈ p) : d ∈ s := by
  induction s generalizing p with
  | nil => simp [splitC] at hp; subst hp; cases hd
  | cons x xs ih =>
    unfold splitC at hp
    split at hp
    · rcases List.mem_cons.mp hp with rfl | hp
      · cases hd
      · exact List.mem_cons_of_mem _ (ih hp hd)
    · cases hsp : splitC c xs with
      | nil => exact absurd hsp (splitC_ne_nil c xs)
      | cons q qs =>
        simp only [hsp] at hp
        rcases List.mem_cons.mp hp with rfl | hp
        · rcases List.mem_cons.mp hd with rfl | hd
          · simp
          · exact List.mem_cons_of_mem _ (ih (by rw [hsp]; simp) hd)
        · exact List.mem_cons_of_mem _ (ih (by rw [hsp]; simp [hp]) hd)

section
variable {α : Type} {f : Str → Option α} {V : α → Prop} {txt : α → Str}

theorem takeIds_iff (hf : ∀ s : Str, (∀ c ∈ s, isIdChar c = true) → ∀ x, f s = some x ↔ V x ∧ s = txt x)
    (ht : ∀ x, V x → ∀ c ∈ txt x, isIdChar c = true) (s : Str) (l : List α) (t : Str) :
    takeIds f s = some (l, t) ↔ l ≠ [] ∧ (∀ x ∈ l, V x) ∧ s = joinC '.' (l.map txt) ++ t ∧ NoHead isIdOrDot t := by
  unfold takeIds
  simp only [Option.map_eq_some_iff, Prod.mk.injEq]
  constructor
  · rintro ⟨l', hl, rfl, rfl⟩
    rw [readAll_iff] at hl
    have hchars : ∀ p ∈ splitC '.' (s.takeWhile isIdOrDot), ∀ c ∈ p, isIdChar c = true := by
      intro p hp c hc
      have h1 := takeWhile_all s c (mem_of_mem_splitC hp hc)
      have h2 : c ≠ '.' := fun h => not_mem_splitC '.' _ p hp (h ▸ hc)
      simpa [isIdOrDot, h2] using h1
    have hkey : ∀ (ps : List Str) (xs : List α), List.Forall₂ (fun s x => f s = some x) ps xs →
        (∀ p ∈ ps, ∀ c ∈ p, isIdChar c = true) → (∀ x ∈ xs, V x) ∧ ps = xs.map txt := by
      intro ps xs h
      induction h with
      | nil => intro _; simp
      | cons hx _ ih =>
        intro hc
        obtain ⟨h1, h2⟩ := (hf _ (hc _ (by simp)) _).mp hx
        obtain ⟨h3, h4⟩ := ih fun p hp => hc p (by simp [hp])
        refine ⟨?_, by rw [List.map_cons, ← h2, ← h4]⟩
        intro x hx
        rcases List.mem_cons.mp hx with rfl | hx
        · exact h1
        · exact h3 x hx
    obtain ⟨h1, h2⟩ := hkey _ _ hl hchars
    refine ⟨?_, h1, ?_, dropWhile_noHead s⟩
    · rintro rfl
      exact splitC_ne_nil _ _ h2
    · rw [← h2, joinC_splitC, List.takeWhile_append_dropWhile]
  · rintro ⟨hne, hV, rfl, hh⟩
    have hall : ∀ c ∈ joinC '.' (l.map txt), isIdOrDot c = true := by
      intro c hc
      rcases mem_joinC hc with rfl | ⟨p, hp, hc⟩
      · decide
      · obtain ⟨x, hx, rfl⟩ := List.mem_map.mp hp
        simp [isIdOrDot, ht x (hV x hx) c hc]
    obtain ⟨h1, h2⟩ := span_append hall hh
    refine ⟨l, ?_, rfl, h2⟩
    have hdot : ∀ p ∈ l.map txt, '.' ∉ p := by
      intro p hp hd
      obtain ⟨x, hx, rfl⟩ := List.mem_map.mp hp
      have := ht x (hV x hx) _ hd
      exact absurd this (by decide)
    rw [h1, splitC_joinC (by simpa using hne) hdot, readAll_iff, List.forall₂_map_left_iff, List.forall₂_same]
    exact fun x hx => (hf _ (ht x (hV x hx)) x).mpr ⟨hV x hx, rfl⟩

end

theorem takePre_iff (s : Str) (p : Pre) (t : Str) :
    takePre s = some (p, t) ↔ (∀ i ∈ p, i.Valid) ∧ s = preText p ++ t ∧
      (p = [] → t.head? ≠ some '-') ∧ (p ≠ [] → NoHead isIdOrDot t) := by
  unfold takePre
  split
  · rename_i s'
    rw [takeIds_iff (V := Ident.Valid) (txt := Ident.text) (fun s h i => readIdent_iff h i) fun i h => ident_chars h]
    constructor
    · rintro ⟨hne, hv, rfl, hh⟩
      refine ⟨hv, ?_, fun h => absurd h hne, fun _ => hh⟩
      simp [preText, hne]
    · rintro ⟨hv, he, h1, h2⟩
      have hne : p ≠ [] := by
        rintro rfl
        have : t = '-' :: s' := by simpa [preText] using he.symm
        exact h1 rfl (by rw [this]; rfl)
      refine ⟨hne, hv, ?_, h2 hne⟩
      simpa [preText, hne] using he
  · rename_i hs
    constructor
    · rintro h
      cases h
      refine ⟨by simp, by simp [preText], fun _ h => ?_, fun h => absurd rfl h⟩
      cases s with
      | nil => cases h
      | cons c t => cases h; exact hs t rfl
    · rintro ⟨hv, rfl, h1, h2⟩
      cases p with
      | nil => simp [preText]
      | cons i p => exact absurd rfl (hs (joinC '.' ((i :: p).map Ident.text) ++ t))

theorem takeBuild_iff (s : Str) (b : List BuildId) (t : Str) :
    takeBuild s = some (b, t) ↔ (∀ i ∈ b, i.Valid) ∧ s = buildText b ++ t ∧
      (b = [] → t.head? ≠ some '+') ∧ (b ≠ [] → NoHead isIdOrDot t) := by
  unfold takeBuild
  split
  · rename_i s'
    rw [takeIds_iff (V := BuildId.Valid) (txt := BuildId.text) (fun s h i => readBuildId_iff h i) fun i h => buildId_chars h]
    constructor
    · rintro ⟨hne, hv, rfl, hh⟩
      refine ⟨hv, ?_, fun h => absurd h hne, fun _ => hh⟩
      simp [buildText, hne]
    · rintro ⟨hv, he, h1, h2⟩
      have hne : b ≠ [] := by
        rintro rfl
        have : t = '+' :: s' := by simpa [buildText] using he.symm
        exact h1 rfl (by rw [this]; rfl)
      refine ⟨hne, hv, ?_, h2 hne⟩
      simpa [buildText, hne] using he
  · rename_i hs
    constructor
    · rintro h
      cases h
      refine ⟨by simp, by simp [buildText], fun _ h => ?_, fun h => absurd rfl h⟩
      cases s with
      | nil => cases h
      | cons c t => cases h; exact hs t rfl
    · rintro ⟨hv, rfl, h1, h2⟩
      cases b with
      | nil => simp [buildText]
      | cons i b => exact absurd rfl (hs (joinC '.' ((i :: b).map BuildId.text) ++ t))

theorem takeDot_iff (s t : Str) : takeDot s = some t ↔ s = '.' :: t := by
  unfold takeDot
  split
  · simp
  · rename_i hs
    constructor
    · intro h; cases h
    · rintro rfl; exact absurd rfl (hs t)

theorem buildText_noHead (p : Char → Bool) (hp : p '+' = false) (b : List BuildId) : NoHead p (buildText b) := by
  unfold buildText
  split
  · exact noHead_nil p
  · exact noHead_cons hp

theorem suffix_noHead (p : Char → Bool) (h1 : p '-' = false) (q : Pre) (t : Str) (h2 : NoHead p t) :
    NoHead p (preText q ++ t) := by
  unfold preText
  split
  · simpa using h2
  · exact noHead_cons h1

/-- **Property C90** (a version): the texts that are read are exactly the texts of the versions. -/
theorem C90_version (s : Str) (v : Version) : readVersion s = some v ↔ v.Valid ∧ s = v.text := by
  unfold readVersion
  simp only [Option.bind_eq_bind, Option.bind_eq_some_iff, Prod.exists]
  constructor
  · rintro ⟨ma, s1, h1, s2, h2, mi, s3, h3, s4, h4, pa, s5, h5, pre, s6, h6, b, s7, h7, h⟩
    rw [takeNumeric_iff] at h1 h3 h5
    rw [takeDot_iff] at h2 h4
    rw [takePre_iff] at h6
    rw [takeBuild_iff] at h7
    split at h
    · rename_i he
      have he : s7 = [] := by simpa using he
      cases h
      refine ⟨⟨h1.1, h3.1, h5.1, h6.1, h7.1⟩, ?_⟩
      rw [h1.2.1, h2, h3.2.1, h4, h5.2.1, h6.2.1, h7.2.1, he, List.append_nil]
      rfl
    · cases h
  · rintro ⟨hv, rfl⟩
    refine ⟨v.major, _, (takeNumeric_iff _ _ _).mpr ⟨hv.major, rfl, noHead_cons (by decide)⟩, _,
      (takeDot_iff _ _).mpr rfl, v.minor, _, (takeNumeric_iff _ _ _).mpr ⟨hv.minor, rfl, noHead_cons (by decide)⟩, _,
      (takeDot_iff _ _).mpr rfl, v.patch, _, (takeNumeric_iff _ _ _).mpr ⟨hv.patch, rfl, ?_⟩, v.pre, buildText v.build,
      (takePre_iff _ _ _).mpr ⟨hv.pre, rfl, ?_, ?_⟩, v.build, [], (takeBuild_iff _ _ _).mpr ⟨hv.build, by simp, by simp, ?_⟩,
      by simp⟩
    · exact suffix_noHead _ (by decide) _ _ (buildText_noHead _ (by decide) _)
    · intro _ h
      exact absurd (buildText_noHead (· = '-') (by decide) v.build _ h) (by decide)
    · exact fun _ => buildText_noHead _ (by decide) _
    · exact fun _ => noHead_nil _

/-! ### Requirements -/

theorem takePart_value {s t : Str} {p : Part} (h : takePart s = some (p, t)) : ∀ n, p.value = some n → n < 2 ^ 64 := by
  intro n hn
  unfold takePart at h
  split at h
  · split at h
    · cases h; cases hn
    · obtain ⟨⟨m, t'⟩, hm, he⟩ := Option.map_eq_some_iff.mp h
      cases he
      cases hn
      exact ((takeNumeric_iff _ _ _).mp hm).1
  · cases h; cases hn

/-- A part is missing only if no dot follows. -/
theorem takePart_missing {s t : Str} (h : takePart s = some (.missing, t)) : t = s ∧ s.head? ≠ some '.' := by
  unfold takePart at h
  split at h
  · split at h
    · cases h
    · obtain ⟨⟨m, t'⟩, hm, he⟩ := Option.map_eq_some_iff.mp h
      cases he
  · rename_i hs
    cases h
    refine ⟨rfl, fun h => ?_⟩
    cases s with
    | nil => cases h
    | cons c t => cases h; exact hs t rfl

theorem takePart_of_head {s : Str} (h : s.head? ≠ some '.') : takePart s = some (.missing, s) := by
  unfold takePart
  split
  · exact absurd rfl h
  · rfl

theorem takeStar_digit {c : Char} (h : c.isDigit = true) (s : Str) : takeStar (c :: s) = none := by
  unfold takeStar
  split <;> first
    | rfl
    | (rename_i he; cases he; exact absurd h (by decide))

theorem showNat_cons (n : Nat) : ∃ c s, showNat n = c :: s ∧ c.isDigit = true := by
  cases h : showNat n with
  | nil => exact absurd h (showNat_ne_nil n)
  | cons c s => exact ⟨c, s, rfl, isDigit_of_mem_showNat (n := n) (by rw [h]; simp)⟩

theorem takePart_number {n : Nat} (hn : n < 2 ^ 64) {t : Str} (ht : NoHead Char.isDigit t) :
    takePart ('.' :: (showNat n ++ t)) = some (.number n, t) := by
  have h1 : takeNumeric (showNat n ++ t) = some (n, t) := (takeNumeric_iff _ _ _).mpr ⟨hn, rfl, ht⟩
  have h2 : takeStar (showNat n ++ t) = none := by
    obtain ⟨c, s, hc, hd⟩ := showNat_cons n
    rw [hc]; exact takeStar_digit hd _
  show (match takeStar (showNat n ++ t) with
    | some s => some (Part.star, s)
    | none => (takeNumeric (showNat n ++ t)).map fun x : Nat × Str => (Part.number x.1, x.2)) = _
  rw [h2, h1]; rfl

theorem takePart_star (t : Str) : takePart ('.' :: '*' :: t) = some (.star, t) := rfl

/-- **Property C90** (a comparator that is read): it has one of the shapes that can be written. -/
theorem takeComparator_valid {s t : Str} {c : Comparator} (h : takeComparator s = some (c, t)) : c.Valid := by
  unfold takeComparator at h
  simp only [Option.bind_eq_bind, Option.bind_eq_some_iff, Prod.exists] at h
  obtain ⟨ma, s1, h1, mi, s2, h2, pa, s3, h3, h⟩ := h
  split at h
  · cases h
  · rename_i hw
    simp only [Option.bind_eq_some_iff, Prod.exists] at h
    obtain ⟨pre, s4, h4, h⟩ := h
    cases h
    have hmi := takePart_value h2
    have hpa := takePart_value h3
    have hpre : pa.value = none → pre = [] := by
      intro hp
      cases pa with
      | number n => cases hp
      | missing => cases h4; rfl
      | star => cases h4; rfl
    have hval : ∀ i ∈ pre, i.Valid := by
      cases pa with
      | number n =>
        unfold takeSuffixIf takeSuffix at h4
        simp only [Option.bind_eq_bind, Option.bind_eq_some_iff, Prod.exists] at h4
        obtain ⟨p', s5, h5, b, s6, h6, h4⟩ := h4
        cases h4
        exact ((takePre_iff _ _ _).mp h5).1
      | missing => cases h4; simp
      | star => cases h4; simp
    refine ⟨⟨?_, hpre, ?_⟩, ((takeNumeric_iff _ _ _).mp h1).1, hmi, hpa, hval⟩
    · intro hm
      cases mi with
      | number n => cases hm
      | missing =>
        obtain ⟨rfl, hd⟩ := takePart_missing h2
        rw [takePart_of_head hd] at h3
        cases h3; rfl
      | star =>
        by_contra hp
        exact hw ⟨rfl, hp⟩
    · intro ho
      unfold opOf at ho
      split at ho
      · rename_i op hop
        exfalso
        subst ho
        revert hop
        unfold takeOp
        split <;> simp
      · split at ho
        · rename_i hstar
          rcases hstar with hstar | hstar
          · by_contra hp
            exact hw ⟨hstar, hp⟩
          · show pa.value = none
            rw [hstar]; rfl
        · cases ho

theorem readComparators_valid {n : Nat} {s : Str} {cs : List Comparator} (h : readComparators n s = some cs) :
    (∀ c ∈ cs, c.Valid) ∧ cs.length ≤ n := by
  induction n generalizing s cs with
  | zero => cases h
  | succ n ih =>
    unfold readComparators at h
    simp only [Option.bind_eq_bind, Option.bind_eq_some_iff, Prod.exists] at h
    obtain ⟨c, s1, h1, h⟩ := h
    have hc := takeComparator_valid h1
    split at h
    · cases h; exact ⟨by simpa using hc, by simp⟩
    · simp only [Option.bind_eq_some_iff] at h
      obtain ⟨cs', h2, h⟩ := h
      cases h
      obtain ⟨h3, h4⟩ := ih h2
      exact ⟨by simpa using ⟨hc, h3⟩, by simpa using h4⟩
    · cases h

/-- **Property C90** (a requirement that is read): it has one of the shapes that can be written. -/
theorem C90_req_valid {s : Str} {r : VersionReq} (h : readReq s = some r) : r.Valid := by
  unfold readReq at h
  split at h
  · split at h
    · cases h; exact ⟨by simp, by simp⟩
    · cases h
  · obtain ⟨cs, h1, rfl⟩ := Option.map_eq_some_iff.mp h
    obtain ⟨h2, h3⟩ := readComparators_valid h1
    exact ⟨h2, h3⟩

theorem takeOp_text {op : Op} {c : Char} (hc : c.isDigit = true) (s : Str) :
    takeOp (op.text ++ c :: s) = (if op = .wildcard then none else some op, c :: s) := by
  have hne : ∀ d : Char, d.isDigit = false → c ≠ d := by
    rintro d hd rfl; rw [hc] at hd; cases hd
  have h0 : takeOp (c :: s) = (none, c :: s) := by
    unfold takeOp
    split <;> first
      | rfl
      | (rename_i he; cases he; exact absurd hc (by decide))
  have h1 : takeOp ('>' :: c :: s) = (some .greater, c :: s) := by
    unfold takeOp
    split <;> first
      | (rename_i he; cases he; first | rfl | exact absurd hc (by decide))
      | (rename_i he; cases he)
      | (exfalso; simp_all)
  have h2 : takeOp ('<' :: c :: s) = (some .less, c :: s) := by
    unfold takeOp
    split <;> first
      | (rename_i he; cases he; first | rfl | exact absurd hc (by decide))
      | (rename_i he; cases he)
      | (exfalso; simp_all)
  cases op <;> first | exact h0 | exact h1 | exact h2 | rfl

theorem skipSpaces_noHead {s : Str} (h : NoHead (· = ' ') s) : skipSpaces s = s := by
  cases s with
  | nil => rfl
  | cons c t =>
    have := h c rfl
    unfold skipSpaces
    rw [List.dropWhile_cons, if_neg (by simpa using this)]

/-- The text ends here, or a comma follows. -/
def Ends (t : Str) : Prop := t = [] ∨ ∃ u, t = ',' :: u

theorem Ends.noHead {t : Str} (h : Ends t) {p : Char → Bool} (hp : p ',' = false) : NoHead p t := by
  rcases h with rfl | ⟨u, rfl⟩
  · exact noHead_nil p
  · exact noHead_cons hp

theorem Ends.head {t : Str} (h : Ends t) {c : Char} (hc : c ≠ ',') : t.head? ≠ some c := by
  rcases h with rfl | ⟨u, rfl⟩
  · simp
  · simpa using fun h => hc h.symm

theorem takeSuffix_text {pre : Pre} (hp : ∀ i ∈ pre, i.Valid) {t : Str} (ht : Ends t) :
    takeSuffix (preText pre ++ t) = some (pre, t) := by
  have h1 : takePre (preText pre ++ t) = some (pre, t) :=
    (takePre_iff _ _ _).mpr ⟨hp, rfl, fun _ => ht.head (by decide), fun _ => ht.noHead (by decide)⟩
  have h2 : takeBuild t = some ([], t) :=
    (takeBuild_iff _ _ _).mpr ⟨by simp, by simp [buildText], fun _ => ht.head (by decide), fun h => absurd rfl h⟩
  unfold takeSuffix
  simp [h1, h2]

theorem takeComparator_text {c : Comparator} (hc : c.Valid) {t : Str} (ht : Ends t) :
    takeComparator (c.text ++ t) = some (c, t) := by
  obtain ⟨⟨w1, w2, w3⟩, hma, hmi, hpa, hpre⟩ := hc
  obtain ⟨op, ma, mi, pa, pre⟩ := c
  simp only at w1 w2 w3 hma hmi hpa hpre
  have hspace : skipSpaces t = t := skipSpaces_noHead (ht.noHead (by decide))
  -- the operator and the first number
  have hfirst : ∀ u : Str, NoHead Char.isDigit u →
      takeOp (op.text ++ (showNat ma ++ u)) = (if op = .wildcard then none else some op, showNat ma ++ u) ∧
      takeNumeric (skipSpaces (showNat ma ++ u)) = some (ma, u) := by
    intro u hu
    obtain ⟨d, ds, hd, hdig⟩ := showNat_cons ma
    have hsp : skipSpaces (showNat ma ++ u) = showNat ma ++ u := by
      apply skipSpaces_noHead
      rw [hd]
      apply noHead_cons
      simp only [decide_eq_false_iff_not]
      rintro rfl; exact absurd hdig (by decide)
    refine ⟨?_, ?_⟩
    · rw [hd]; exact takeOp_text hdig _
    · rw [hsp]; exact (takeNumeric_iff _ _ _).mpr ⟨hma, rfl, hu⟩
  have hshape : ∀ (m p : Part) (u s2 s3 : Str), NoHead Char.isDigit u →
      (Comparator.mk op ma mi pa pre).text ++ t = op.text ++ (showNat ma ++ u) →
      takePart u = some (m, s2) → takePart s2 = some (p, s3) → ¬(m = .star ∧ p.value ≠ none) →
      takeSuffixIf p s3 = some (pre, t) → m.value = mi → p.value = pa →
      opOf (if op = .wildcard then none else some op) m p = op →
      takeComparator ((Comparator.mk op ma mi pa pre).text ++ t) = some (⟨op, ma, mi, pa, pre⟩, t) := by
    intro m p u s2 s3 hu he hm hp hw hs hmv hpv hop
    obtain ⟨h1, h2⟩ := hfirst u hu
    rw [he]
    unfold takeComparator
    simp only [h1, h2, hm, hp, hs, Option.bind_eq_bind, Option.bind_some]
    rw [if_neg hw, hop, hmv, hpv, hspace]
  by_cases hwild : op = .wildcard
  · subst hwild
    have hp0 : pa = none := w3 rfl
    subst hp0
    have hpre0 : pre = [] := w2 rfl
    subst hpre0
    cases mi with
    | none =>
      exact hshape .star .missing ('.' :: '*' :: t) t t (noHead_cons (by decide))
        (by simp [Comparator.text, partsText]) (takePart_star t) (takePart_of_head (ht.head (by decide)))
        (by simp [Part.value]) rfl rfl rfl (by decide)
    | some m =>
      exact hshape (.number m) .star ('.' :: (showNat m ++ '.' :: '*' :: t)) ('.' :: '*' :: t) t (noHead_cons (by decide))
        (by simp [Comparator.text, partsText]) (takePart_number (hmi m rfl) (noHead_cons (by decide))) (takePart_star t)
        (by simp) rfl rfl rfl (by simp [opOf])
  · have hop : ∀ m p, opOf (if op = .wildcard then none else some op) m p = op := by
      intro m p; rw [if_neg hwild]; rfl
    cases mi with
    | none =>
      have hp0 : pa = none := w1 rfl
      subst hp0
      have hpre0 : pre = [] := w2 rfl
      subst hpre0
      exact hshape .missing .missing t t t (ht.noHead (by decide)) (by simp [Comparator.text, partsText, hwild])
        (takePart_of_head (ht.head (by decide))) (takePart_of_head (ht.head (by decide))) (by simp) rfl rfl rfl (hop _ _)
    | some m =>
      cases pa with
      | none =>
        have hpre0 : pre = [] := w2 rfl
        subst hpre0
        exact hshape (.number m) .missing ('.' :: (showNat m ++ t)) t t (noHead_cons (by decide))
          (by simp [Comparator.text, partsText, hwild]) (takePart_number (hmi m rfl) (ht.noHead (by decide)))
          (takePart_of_head (ht.head (by decide))) (by simp) rfl rfl rfl (hop _ _)
      | some p =>
        have hnd : NoHead Char.isDigit (preText pre ++ t) := suffix_noHead _ (by decide) _ _ (ht.noHead (by decide))
        exact hshape (.number m) (.number p) ('.' :: (showNat m ++ '.' :: (showNat p ++ (preText pre ++ t))))
          ('.' :: (showNat p ++ (preText pre ++ t))) (preText pre ++ t) (noHead_cons (by decide))
          (by simp [Comparator.text, partsText]) (takePart_number (hmi m rfl) (noHead_cons (by decide)))
          (takePart_number (hpa p rfl) hnd) (by simp) (takeSuffix_text hpre ht) rfl rfl (hop _ _)

theorem comparator_head (c : Comparator) : ∃ d s, c.text = d :: s ∧ takeStar c.text = none ∧ d ≠ ' ' := by
  obtain ⟨d, ds, hd, hdig⟩ := showNat_cons c.major
  have hsp : d ≠ ' ' := by rintro rfl; exact absurd hdig (by decide)
  unfold Comparator.text
  rw [hd]
  cases c.op <;> first
    | exact ⟨_, _, rfl, takeStar_digit hdig _, hsp⟩
    | exact ⟨_, _, rfl, rfl, by decide⟩

theorem readComparators_text {n : Nat} {cs : List Comparator} (hne : cs ≠ []) (hv : ∀ c ∈ cs, c.Valid)
    (hn : cs.length ≤ n) : readComparators n (comparatorsText cs) = some cs := by
  induction n generalizing cs with
  | zero => exact absurd (List.length_eq_zero_iff.mp (Nat.le_zero.mp hn)) hne
  | succ n ih =>
    match cs, hne with
    | [c], _ =>
      have h := takeComparator_text (hv c (by simp)) (t := []) (.inl rfl)
      rw [List.append_nil] at h
      unfold readComparators
      simp only [comparatorsText, h, Option.bind_eq_bind, Option.bind_some]
    | c :: d :: cs, _ =>
      have h := takeComparator_text (hv c (by simp)) (t := ',' :: ' ' :: comparatorsText (d :: cs)) (.inr ⟨_, rfl⟩)
      have hsp : skipSpaces (' ' :: comparatorsText (d :: cs)) = comparatorsText (d :: cs) := by
        have : skipSpaces (' ' :: comparatorsText (d :: cs)) = skipSpaces (comparatorsText (d :: cs)) := rfl
        rw [this]
        apply skipSpaces_noHead
        obtain ⟨x, s, hx, -, hxs⟩ := comparator_head d
        intro y hy
        have : (comparatorsText (d :: cs)).head? = some x := by
          cases cs with
          | nil => simp [comparatorsText, hx]
          | cons e es => simp [comparatorsText, hx]
        rw [this] at hy
        cases hy
        simpa using hxs
      have h2 := ih (cs := d :: cs) (by simp) (fun c hc => hv c (by simp only [List.mem_cons] at hc ⊢; exact .inr hc)) (by simpa using hn)
      unfold readComparators
      simp only [comparatorsText, h, Option.bind_eq_bind, Option.bind_some, hsp, h2]

/-- **Property C90** (a requirement that is written): it is read again. -/
theorem C90_req_text {r : VersionReq} (hv : r.Valid) : readReq r.text = some r := by
  obtain ⟨cs⟩ := r
  cases cs with
  | nil => rfl
  | cons c cs =>
    obtain ⟨d, s, hd, hst, hds⟩ := comparator_head c
    have hhead : ∃ u, comparatorsText (c :: cs) = c.text ++ u := by
      cases cs with
      | nil => exact ⟨[], by simp [comparatorsText]⟩
      | cons e es => exact ⟨_, rfl⟩
    obtain ⟨u, hu⟩ := hhead
    have htext : (VersionReq.mk (c :: cs)).text = comparatorsText (c :: cs) := rfl
    have hsk : skipSpaces (comparatorsText (c :: cs)) = comparatorsText (c :: cs) := by
      apply skipSpaces_noHead
      rw [hu, hd]
      exact noHead_cons (by simpa using hds)
    have hstar : takeStar (comparatorsText (c :: cs)) = none := by
      rw [hu, hd]
      rw [hd] at hst
      unfold takeStar at hst ⊢
      split <;> first
        | rfl
        | (rename_i he; simp only [List.cons_append] at he; cases he; cases hst)
    unfold readReq
    rw [htext, hsk, hstar]
    simp only
    rw [readComparators_text (by simp) hv.comparators hv.atMost]
    rfl

end Verif.Props
