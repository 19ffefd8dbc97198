import Verif.Spec.PlatformGen
import Verif.Props.SyncText
import Verif.Props.SyncRun
import Mathlib.Tactic.IntervalCases

/-!
# C76: names given by the generator of the platform tables
-/

namespace Verif.Props

open Verif.PlatGen Verif.Spec Verif.Adv

theorem isLower_cases {P : Char → Prop} (h : ∀ c ∈ "abcdefghijklmnopqrstuvwxyz".toList, P c) (c : Char) (hc : c.isLower = true) :
    P c := by
  have hb : 97 ≤ c.toNat ∧ c.toNat ≤ 122 := by
    simp only [Char.isLower, Bool.and_eq_true, decide_eq_true_eq] at hc
    exact hc
  apply h
  rw [← Char.ofNat_toNat c]
  obtain ⟨h1, h2⟩ := hb
  generalize c.toNat = n at h1 h2
  interval_cases n <;> decide

theorem isUpper_cases {P : Char → Prop} (h : ∀ c ∈ "ABCDEFGHIJKLMNOPQRSTUVWXYZ".toList, P c) (c : Char) (hc : c.isUpper = true) :
    P c := by
  have hb : 65 ≤ c.toNat ∧ c.toNat ≤ 90 := by
    simp only [Char.isUpper, Bool.and_eq_true, decide_eq_true_eq] at hc
    exact hc
  apply h
  rw [← Char.ofNat_toNat c]
  obtain ⟨h1, h2⟩ := hb
  generalize c.toNat = n at h1 h2
  interval_cases n <;> decide

theorem toUpper_of_not_lower (c : Char) (h : ¬ c.isLower = true) : c.toUpper = c := by
  unfold Char.toUpper
  rw [dif_neg]
  intro hb
  exact h (by simp only [Char.isLower, Bool.and_eq_true, decide_eq_true_eq]; exact ⟨hb.1, hb.2⟩)

theorem toLower_of_not_upper (c : Char) (h : ¬ c.isUpper = true) : c.toLower = c := by
  unfold Char.toLower
  rw [dif_neg]
  intro hb
  exact h (by simp only [Char.isUpper, Bool.and_eq_true, decide_eq_true_eq]; exact ⟨hb.1, hb.2⟩)

theorem toLower_toUpper' (c : Char) : c.toUpper.toLower = c.toLower := by
  by_cases h : c.isLower = true
  · exact isLower_cases (P := fun c => c.toUpper.toLower = c.toLower) (by decide +kernel) c h
  · rw [toUpper_of_not_lower c h]

theorem toLower_toLower' (c : Char) : c.toLower.toLower = c.toLower := by
  by_cases h : c.isUpper = true
  · exact isUpper_cases (P := fun c => c.toLower.toLower = c.toLower) (by decide +kernel) c h
  · rw [toLower_of_not_upper c h, toLower_of_not_upper c h]

theorem bareName_append (a b : Str) : bareName (a ++ b) = bareName a ++ bareName b := by
  simp [bareName]

theorem bareName_upper (s : Str) : bareName (upper s) = bareName s := by
  unfold bareName upper
  rw [List.map_map]
  congr 2
  funext c
  exact toLower_toUpper' c

theorem bareName_lower (s : Str) : bareName (lower s) = bareName s := by
  unfold bareName lower
  rw [List.map_map]
  congr 2
  funext c
  exact toLower_toLower' c

theorem bareName_cons (c : Char) (s : Str) : bareName (c :: s) = bareName [c] ++ bareName s :=
  bareName_append [c] s

theorem bareName_title (b : Bool) (s : Str) : bareName (titleFrom b s) = bareName s := by
  induction s generalizing b with
  | nil => rfl
  | cons c s ih =>
    rw [titleFrom, bareName_cons c s]
    split
    · next h => rw [ih, h]; rfl
    split
    · rw [bareName_cons, bareName_cons c, ih]; rfl
    split
    · rw [bareName_cons, ih]
      congr 1
      exact bareName_upper [c]
    · rw [bareName_cons, ih]

theorem bareName_capitalEnd (s : Str) : bareName (capitalEnd s) = bareName s := by
  unfold capitalEnd
  split
  · rw [bareName_append, bareName_upper, ← bareName_append, List.take_append_drop]
  split
  · rw [bareName_append, bareName_upper, ← bareName_append, List.take_append_drop]
  · rfl

theorem lookup_mem_pair {α β : Type} [BEq α] [LawfulBEq α] {l : List (α × β)} {a : α} {b : β} (h : l.lookup a = some b) :
    (a, b) ∈ l := by
  induction l with
  | nil => cases h
  | cons x l ih =>
    obtain ⟨k, v⟩ := x
    rw [List.lookup_cons] at h
    split at h
    · next hk =>
      cases h
      rw [eq_of_beq hk]
      exact List.mem_cons_self
    · exact List.mem_cons_of_mem _ (ih h)

theorem bareName_variant (v : Str) : bareName (variantName v) = bareName (readAs (lower v)) := by
  unfold variantName
  cases h : special.lookup (lower v) with
  | some n =>
    have hm := lookup_mem_pair h
    have key : ∀ e ∈ special, bareName e.2 = bareName (readAs e.1) := by decide +kernel
    exact key _ hm
  | none =>
    have hr : readAs (lower v) = lower v := by
      have hne : ∀ k ∈ [[], "16".toList, "32".toList, "64".toList], lower v ≠ k := by
        intro k hk he
        rw [he] at h
        have : ∀ k ∈ [[], "16".toList, "32".toList, "64".toList], special.lookup k ≠ none := by decide +kernel
        exact this k hk h
      unfold readAs
      rw [if_neg (hne _ (by simp)), if_neg (hne _ (by simp)), if_neg (hne _ (by simp)), if_neg (hne _ (by simp))]
    simp only
    rw [hr, bareName_capitalEnd]
    unfold titlecase
    rw [bareName_title]

/-- **C76, variants never clash by accident.**  Two values get the same variant only if they agree up to case and
underscores, where the empty value reads `none` and the widths `u16`, `u32`, `u64`. -/
theorem C76_clash (a b : Str) (h : variantName a = variantName b) :
    bareName (readAs (a.map Char.toLower)) = bareName (readAs (b.map Char.toLower)) := by
  have := congrArg bareName h
  rwa [bareName_variant, bareName_variant] at this

theorem readAs_inj (a b : Str) (ha : a ∉ ["none".toList, "u16".toList, "u32".toList, "u64".toList])
    (hb : b ∉ ["none".toList, "u16".toList, "u32".toList, "u64".toList]) (h : readAs a = readAs b) : a = b := by
  have key : ∀ x y : Str, y ∉ ["none".toList, "u16".toList, "u32".toList, "u64".toList] → readAs x = readAs y →
      readAs x ≠ x → x = y := by
    intro x y hy hxy hx
    have hy' : readAs y ∈ ["none".toList, "u16".toList, "u32".toList, "u64".toList] →
        (y = [] ∧ readAs y = "none".toList) ∨ (y = "16".toList ∧ readAs y = "u16".toList) ∨
        (y = "32".toList ∧ readAs y = "u32".toList) ∨ (y = "64".toList ∧ readAs y = "u64".toList) := by
      unfold readAs
      split
      · next h => exact fun _ => Or.inl ⟨h, rfl⟩
      split
      · next h => exact fun _ => Or.inr (Or.inl ⟨h, rfl⟩)
      split
      · next h => exact fun _ => Or.inr (Or.inr (Or.inl ⟨h, rfl⟩))
      split
      · next h => exact fun _ => Or.inr (Or.inr (Or.inr ⟨h, rfl⟩))
      · exact fun h => absurd h hy
    have hx' : (x = [] ∧ readAs x = "none".toList) ∨ (x = "16".toList ∧ readAs x = "u16".toList) ∨
        (x = "32".toList ∧ readAs x = "u32".toList) ∨ (x = "64".toList ∧ readAs x = "u64".toList) := by
      revert hx
      unfold readAs
      split
      · next h => exact fun _ => Or.inl ⟨h, rfl⟩
      split
      · next h => exact fun _ => Or.inr (Or.inl ⟨h, rfl⟩)
      split
      · next h => exact fun _ => Or.inr (Or.inr (Or.inl ⟨h, rfl⟩))
      split
      · next h => exact fun _ => Or.inr (Or.inr (Or.inr ⟨h, rfl⟩))
      · exact fun h => absurd rfl h
    have hmem : readAs y ∈ ["none".toList, "u16".toList, "u32".toList, "u64".toList] := by
      rw [← hxy]
      rcases hx' with h | h | h | h <;> rw [h.2] <;> decide +kernel
    have n1 : "none".toList ≠ "u16".toList := by decide +kernel
    have n2 : "none".toList ≠ "u32".toList := by decide +kernel
    have n3 : "none".toList ≠ "u64".toList := by decide +kernel
    have n4 : "u16".toList ≠ "u32".toList := by decide +kernel
    have n5 : "u16".toList ≠ "u64".toList := by decide +kernel
    have n6 : "u32".toList ≠ "u64".toList := by decide +kernel
    rcases hx' with ⟨h1, h2⟩ | ⟨h1, h2⟩ | ⟨h1, h2⟩ | ⟨h1, h2⟩ <;>
      rcases hy' hmem with ⟨h3, h4⟩ | ⟨h3, h4⟩ | ⟨h3, h4⟩ | ⟨h3, h4⟩ <;>
      rw [h2, h4] at hxy <;> first | exact h1.trans h3.symm | (exfalso; revert hxy; first | exact n1 | exact n2 | exact n3 | exact n4 | exact n5 | exact n6 | exact n1.symm | exact n2.symm | exact n3.symm | exact n4.symm | exact n5.symm | exact n6.symm)
  by_cases h1 : readAs a = a
  · by_cases h2 : readAs b = b
    · rw [← h1, h, h2]
    · exact (key b a ha h.symm h2).symm
  · exact key a b hb h h1

/-- **C76, variants are distinct.**  Lower-case values without underscores, none of which is called `none`, `u16`, `u32` or
`u64`, get different variants if they are different. -/
theorem C76_variants_distinct (a b : Str) (ha : ∀ c ∈ a, c.toLower = c ∧ c ≠ '_') (hb : ∀ c ∈ b, c.toLower = c ∧ c ≠ '_')
    (hna : a ∉ ["none".toList, "u16".toList, "u32".toList, "u64".toList])
    (hnb : b ∉ ["none".toList, "u16".toList, "u32".toList, "u64".toList])
    (h : variantName a = variantName b) : a = b := by
  have hl : ∀ s : Str, (∀ c ∈ s, c.toLower = c ∧ c ≠ '_') → s.map Char.toLower = s := by
    intro s hs
    conv_rhs => rw [← List.map_id s]
    exact List.map_congr_left fun c hc => (hs c hc).1
  have hbare : ∀ s : Str, (∀ c ∈ s, c.toLower = c ∧ c ≠ '_') → bareName s = s := by
    intro s hs
    unfold bareName
    rw [hl s hs, List.filter_eq_self]
    intro c hc
    simpa using (hs c hc).2
  have hread : ∀ s : Str, (∀ c ∈ s, c.toLower = c ∧ c ≠ '_') → ∀ c ∈ readAs s, c.toLower = c ∧ c ≠ '_' := by
    intro s hs
    unfold readAs
    split
    · decide +kernel
    split
    · decide +kernel
    split
    · decide +kernel
    split
    · decide +kernel
    · exact hs
  have h1 := C76_clash a b h
  rw [hl a ha, hl b hb, hbare _ (hread a ha), hbare _ (hread b hb)] at h1
  exact readAs_inj a b hna hnb h1

example : variantName "freebsd".toList = "FreeBSD".toList ∧ variantName "solid_asp3".toList = "SolidAsp3".toList ∧
    variantName "x86_64".toList = "X86_64".toList ∧ variantName "FOObar".toList = "Foobar".toList ∧
    variantName "nonexistentos".toList = "NonexistentOS".toList ∧ variantName "PoWeRpC".toList = "PowerPc".toList := by
  decide +kernel

/-- **C76, violation.**  The conditions are needed: these pairs of different values get the same variant, and the file
written for an enum with both of them does not compile. -/
theorem C76_clashes :
    variantName "".toList = variantName "none".toList ∧ variantName "16".toList = variantName "u16".toList ∧
    variantName "64".toList = variantName "u64".toList ∧ variantName "solid_asp3".toList = variantName "solid__asp3".toList ∧
    variantName "aos".toList = variantName "a_o_s".toList ∧ variantName "msvc".toList = variantName "Msvc".toList := by
  decide +kernel

/-! ### Identifiers -/

theorem titleFrom_chars (s : Str) (hs : ∀ c ∈ s, IdentChar c) (b : Bool) : ∀ c ∈ titleFrom b s, IdentChar c := by
  induction s generalizing b with
  | nil => intro c hc; cases hc
  | cons x s ih =>
    have hx := hs x List.mem_cons_self
    have hs' : ∀ c ∈ s, IdentChar c := fun c hc => hs c (List.mem_cons_of_mem _ hc)
    intro c hc
    rw [titleFrom] at hc
    split at hc
    · exact ih hs' _ c hc
    split at hc
    · rcases List.mem_cons.mp hc with h | hc
      · exact Or.inr h
      rcases List.mem_cons.mp hc with h | hc
      · exact h ▸ hx
      · exact ih hs' _ c hc
    split at hc
    · next h =>
      rcases List.mem_cons.mp hc with hcu | hc
      · rw [Bool.and_eq_true] at h
        rw [hcu]
        exact Or.inl (isLower_cases (P := fun c => c.toUpper.isAlphanum = true) (by decide +kernel) x h.2)
      · exact ih hs' _ c hc
    · rcases List.mem_cons.mp hc with h | hc
      · exact h ▸ hx
      · exact ih hs' _ c hc

theorem isAlphanum_cases (c : Char) : c.isAlphanum = true ↔ c.isLower = true ∨ c.isUpper = true ∨ c.isDigit = true := by
  simp only [Char.isAlphanum, Char.isAlpha, Bool.or_eq_true]; tauto

/-- The first character of a title is a capital letter, or `_` before a digit. -/
theorem titleFrom_first (s : Str) (hs : ∀ c ∈ s, IdentChar c) (hl : ∀ c ∈ s, c.toLower = c) (hne : ∃ c ∈ s, c ≠ '_') :
    ∃ c r, titleFrom true s = c :: r ∧ (c.isUpper = true ∨ (c = '_' ∧ ∃ d r', r = d :: r' ∧ d.isDigit = true)) := by
  induction s with
  | nil => obtain ⟨c, hc, _⟩ := hne; cases hc
  | cons x s ih =>
    have hs' : ∀ c ∈ s, IdentChar c := fun c hc => hs c (List.mem_cons_of_mem _ hc)
    have hl' : ∀ c ∈ s, c.toLower = c := fun c hc => hl c (List.mem_cons_of_mem _ hc)
    rw [titleFrom]
    split
    · next hx =>
      refine ih hs' hl' ?_
      obtain ⟨c, hc, hcn⟩ := hne
      rcases List.mem_cons.mp hc with h | h
      · exact absurd (h.trans hx) hcn
      · exact ⟨c, h, hcn⟩
    · next hx =>
      have hxi : x.isAlphanum = true := (hs x List.mem_cons_self).resolve_right hx
      split
      · next hd =>
        rw [Bool.true_and] at hd
        exact ⟨_, _, rfl, Or.inr ⟨rfl, _, _, rfl, hd⟩⟩
      · next hd =>
        rw [Bool.true_and] at hd
        split
        · next hlo =>
          rw [Bool.true_and] at hlo
          exact ⟨_, _, rfl, Or.inl (isLower_cases (P := fun c => c.toUpper.isUpper = true) (by decide +kernel) x hlo)⟩
        · next hlo =>
          rw [Bool.true_and] at hlo
          rcases (isAlphanum_cases x).mp hxi with h | h | h
          · exact absurd h hlo
          · exact ⟨_, _, rfl, Or.inl h⟩
          · exact absurd h hd

theorem upper_chars (s : Str) (hs : ∀ c ∈ s, IdentChar c) : ∀ c ∈ upper s, IdentChar c := by
  intro c hc
  obtain ⟨x, hx, rfl⟩ := List.mem_map.mp hc
  by_cases h : x.isLower = true
  · exact Or.inl (isLower_cases (P := fun c => c.toUpper.isAlphanum = true) (by decide +kernel) x h)
  · rw [toUpper_of_not_lower x h]; exact hs x hx

theorem upper_first (s : Str) (c : Char) (r : Str) (h : s = c :: r) : upper s = c.toUpper :: upper r := by
  rw [h]; rfl

theorem toUpper_of_upper (c : Char) (h : c.isUpper = true) : c.toUpper = c :=
  isUpper_cases (P := fun c => c.toUpper = c) (by decide +kernel) c h

theorem toUpper_of_digit (c : Char) (h : c.isDigit = true) : c.toUpper = c := by
  apply toUpper_of_not_lower
  simp only [Char.isDigit, Char.isLower, Bool.and_eq_true, decide_eq_true_eq, UInt32.le_iff_toNat_le, not_and, not_le] at *
  intro h'
  have := h.2
  simp at *
  omega

/-- A capital start of at most three characters stays what it is, wherever the cut is. -/
theorem capital_first (s : Str) (n : Nat) (c : Char) (r : Str) (h : s = c :: r)
    (hc : c.isUpper = true ∨ (c = '_' ∧ ∃ d r', r = d :: r' ∧ d.isDigit = true)) :
    ∃ r₁, s.take n ++ upper (s.drop n) = c :: r₁ ∧ (c = '_' → r₁ ≠ []) := by
  subst h
  have hcu : c.toUpper = c := by
    rcases hc with h | ⟨h, _⟩
    · exact toUpper_of_upper c h
    · rw [h]; decide
  have hr : c = '_' → r ≠ [] := by
    intro h
    rcases hc with h' | ⟨_, d, r', hr, _⟩
    · rw [h] at h'; exact absurd h' (by decide)
    · rw [hr]; exact List.cons_ne_nil _ _
  cases n with
  | zero =>
    refine ⟨upper r, ?_, ?_⟩
    · simp [upper, hcu]
    · intro h
      have := hr h
      cases r with
      | nil => exact absurd rfl this
      | cons d r' => exact List.cons_ne_nil _ _
  | succ n =>
    refine ⟨r.take n ++ upper (r.drop n), rfl, ?_⟩
    intro h hnil
    have h1 := (List.append_eq_nil_iff.mp hnil)
    have h3 : r.drop n = [] := by simpa [upper] using h1.2
    have h2 := hr h
    rw [← List.take_append_drop n r, h1.1, h3] at h2
    exact h2 rfl

theorem capitalEnd_chars (s : Str) (hs : ∀ c ∈ s, IdentChar c) : ∀ c ∈ capitalEnd s, IdentChar c := by
  have hcut : ∀ n, ∀ c ∈ s.take n ++ upper (s.drop n), IdentChar c := by
    intro n c hc
    rcases List.mem_append.mp hc with h | h
    · exact hs c (List.mem_of_mem_take h)
    · exact upper_chars _ (fun x hx => hs x (List.mem_of_mem_drop hx)) c h
  unfold capitalEnd
  split
  · exact hcut _
  split
  · exact hcut _
  · exact hs

theorem capitalEnd_first (s : Str) (c : Char) (r : Str) (h : s = c :: r)
    (hc : c.isUpper = true ∨ (c = '_' ∧ ∃ d r', r = d :: r' ∧ d.isDigit = true)) :
    ∃ r₁, capitalEnd s = c :: r₁ ∧ (c = '_' → r₁ ≠ []) := by
  unfold capitalEnd
  split
  · exact capital_first s _ c r h hc
  split
  · exact capital_first s _ c r h hc
  · refine ⟨r, h, fun hu => ?_⟩
    rcases hc with h' | ⟨_, d, r', hr, _⟩
    · rw [hu] at h'; exact absurd h' (by decide)
    · rw [hr]; exact List.cons_ne_nil _ _

/-- **C76, variants are identifiers.**  A value of letters, digits and underscores that is not underscores alone gets a
variant that is an identifier, and none of the lower-case keywords of Rust; the only keyword it can be is `Self`, for the
value `self`. -/
theorem C76_identifier (v : Str) (hv : ∀ c ∈ v, IdentChar c) (hne : v = [] ∨ ∃ c ∈ v, c ≠ '_') :
    RustIdent (variantName v) ∧ (∃ c ∈ variantName v, c.isLower = false) ∧
      (variantName v = "Self".toList → bareName v = "self".toList) := by
  refine ⟨?_, ?_, ?_⟩
  rotate_left 2
  · intro h
    have := congrArg bareName h
    rw [bareName_variant] at this
    have hread : readAs (lower v) = lower v ∨ bareName (readAs (lower v)) ∈ ["none".toList, "u16".toList, "u32".toList, "u64".toList] := by
      unfold readAs
      split
      · right; decide +kernel
      split
      · right; decide +kernel
      split
      · right; decide +kernel
      split
      · right; decide +kernel
      · exact Or.inl rfl
    rcases hread with h' | h'
    · rw [h', bareName_lower] at this
      rw [this]; decide +kernel
    · rw [this] at h'
      exact absurd h' (by decide +kernel)
  all_goals
    unfold variantName
    cases h : special.lookup (lower v) with
    | some n =>
      have hm := lookup_mem_pair h
      first
        | (have key : ∀ e ∈ special, (∃ c ∈ e.2, c.isLower = false) := by decide +kernel
           exact key _ hm)
        | (have key : ∀ e ∈ special, (e.2.head?.any Char.isAlpha) = true ∧ ∀ x ∈ e.2, x.isAlphanum = true := by decide +kernel
           have := key _ hm
           cases n with
           | nil => exact absurd this.1 (by nofun)
           | cons c r =>
             exact ⟨c, r, rfl, Or.inl this.1, fun x hx => Or.inl (this.2 x (List.mem_cons_of_mem _ hx))⟩)
    | none =>
      have hv0 : v ≠ [] := by
        intro h0
        rw [h0] at h
        revert h; decide +kernel
      obtain ⟨w, hw, hwn⟩ := hne.resolve_left hv0
      have hlc : ∀ c ∈ lower v, IdentChar c := by
        intro c hc
        obtain ⟨x, hx, rfl⟩ := List.mem_map.mp hc
        by_cases hu : x.isUpper = true
        · exact Or.inl (isUpper_cases (P := fun c => c.toLower.isAlphanum = true) (by decide +kernel) x hu)
        · rw [toLower_of_not_upper x hu]; exact hv x hx
      have hll : ∀ c ∈ lower v, c.toLower = c := by
        intro c hc
        obtain ⟨x, hx, rfl⟩ := List.mem_map.mp hc
        exact toLower_toLower' x
      have hln : ∃ c ∈ lower v, c ≠ '_' := by
        refine ⟨w.toLower, List.mem_map_of_mem hw, ?_⟩
        by_cases hu : w.isUpper = true
        · exact isUpper_cases (P := fun c => c.toLower ≠ '_') (by decide +kernel) w hu
        · rw [toLower_of_not_upper w hu]; exact hwn
      obtain ⟨c, r, ht, hc⟩ := titleFrom_first (lower v) hlc hll hln
      obtain ⟨r₁, h1, h2⟩ := capitalEnd_first (titlecase (lower v)) c r ht hc
      have hchars := capitalEnd_chars (titlecase (lower v)) (titleFrom_chars (lower v) hlc true)
      simp only
      first
        | (refine ⟨c, by rw [h1]; exact List.mem_cons_self, ?_⟩
           rcases hc with hc | ⟨hc, _⟩
           · exact isUpper_cases (P := fun c => c.isLower = false) (by decide +kernel) c hc
           · rw [hc]; decide)
        | (refine ⟨c, r₁, h1, ?_, ?_⟩
           · rcases hc with hc | ⟨hc, _⟩
             · left; simp only [Char.isAlpha, Bool.or_eq_true]; exact Or.inl hc
             · exact Or.inr ⟨hc, h2 hc⟩
           · intro x hx
             exact hchars x (by rw [h1]; exact List.mem_cons_of_mem _ hx))

example : RustIdent (variantName "3ds".toList) ∧ variantName "3ds".toList = "_3ds".toList :=
  ⟨(C76_identifier "3ds".toList (by unfold IdentChar; decide +kernel) (Or.inr (by decide +kernel))).1, by decide +kernel⟩

/-- **C76, violation.**  The value `self` gets the keyword `Self`, and a value of underscores the empty name, on which the
generator panics. -/
theorem C76_bad_names (comment : Str → Option Str) :
    variantName "self".toList = "Self".toList ∧ variantLines comment "_".toList = .panic := by
  refine ⟨by decide +kernel, ?_⟩
  have : variantName "_".toList = [] := by decide +kernel
  unfold variantLines
  rw [this]

/-! ### Constants -/

/-- The character of a constant. -/
theorem constName_eq (s : Str) :
    constName s = s.map fun c => if c = '-' ∨ c = '.' then '_' else c.toUpper := by
  unfold constName upper
  rw [List.map_map, List.map_map]
  refine List.map_congr_left fun c _ => ?_
  simp only [Function.comp]
  by_cases hl : c.isLower = true
  · exact isLower_cases (P := fun c => (if (if c.toUpper = '-' then '_' else c.toUpper) = '.' then '_'
      else if c.toUpper = '-' then '_' else c.toUpper) = if c = '-' ∨ c = '.' then '_' else c.toUpper) (by decide +kernel) c hl
  · rw [toUpper_of_not_lower c hl]
    by_cases h1 : c = '-'
    · rw [h1]; decide
    · rw [if_neg h1]
      by_cases h2 : c = '.'
      · rw [h2]; decide
      · rw [if_neg h2, if_neg (by tauto)]

theorem toUpper_sep (c : Char) (h : c.toUpper = '_') : c = '_' := by
  by_cases hl : c.isLower = true
  · exact absurd h (isLower_cases (P := fun c => ¬ c.toUpper = '_') (by decide +kernel) c hl)
  · rwa [toUpper_of_not_lower c hl] at h

/-- **C76, constants.**  Two triples get the same constant exactly if they agree character by character up to case and up
to exchanging `-`, `.` and `_`. -/
theorem C76_const (a b : Str) : constName a = constName b ↔ List.Forall₂ SameInConst a b := by
  rw [constName_eq, constName_eq]
  have hcc : ∀ c d : Char, ((if c = '-' ∨ c = '.' then '_' else c.toUpper) = if d = '-' ∨ d = '.' then '_' else d.toUpper) ↔
      SameInConst c d := by
    intro c d
    have hu : ('-').toUpper = '-' ∧ ('.').toUpper = '.' ∧ ('_').toUpper = '_' := by decide
    unfold SameInConst Separator
    constructor
    · intro h
      split at h
      · next hc =>
        split at h
        · next hd => left; tauto
        · have := toUpper_sep d h.symm
          left; tauto
      · split at h
        · have := toUpper_sep c h
          left; tauto
        · exact Or.inr h
    · rintro (⟨hc, hd⟩ | h)
      · have : ∀ x : Char, (x = '-' ∨ x = '.' ∨ x = '_') → (if x = '-' ∨ x = '.' then '_' else x.toUpper) = '_' := by
          rintro x (rfl | rfl | rfl) <;> decide
        rw [this c hc, this d hd]
      · have inj : ∀ x y : Char, x.toUpper = y.toUpper → (x = '-' ∨ x = '.') → x = y := by
          intro x y hxy hx
          have hx' : x.toUpper = x := by rcases hx with rfl | rfl <;> decide
          rw [hx'] at hxy
          by_cases hl : y.isLower = true
          · exfalso
            have := isLower_cases (P := fun c => c.toUpper ≠ '-' ∧ c.toUpper ≠ '.') (by decide +kernel) y hl
            rcases hx with rfl | rfl
            · exact this.1 hxy.symm
            · exact this.2 hxy.symm
          · rwa [toUpper_of_not_lower y hl] at hxy
        by_cases h1 : c = '-' ∨ c = '.'
        · rw [← inj c d h h1]
        · by_cases h2 : d = '-' ∨ d = '.'
          · exact absurd (inj d c h.symm h2 ▸ h2) h1
          · rw [if_neg h1, if_neg h2, h]
  rw [← List.forall₂_eq_eq_eq, List.forall₂_map_left_iff, List.forall₂_map_right_iff]
  constructor
  · exact fun h => h.imp fun c d h => (hcc c d).mp h
  · exact fun h => h.imp fun c d h => (hcc c d).mpr h

/-- **C76, constants are identifiers.**  A triple of letters, digits, `-`, `.` and `_` that begins with a letter gets a
constant that is an identifier without lower-case letters (no keyword of Rust is). -/
theorem C76_const_identifier (c : Char) (r : Str) (hc : c.isAlpha = true)
    (hr : ∀ x ∈ r, x.isAlphanum = true ∨ Separator x) :
    RustIdent (constName (c :: r)) ∧ ∀ x ∈ constName (c :: r), x.isLower = false := by
  have hup : ∀ x : Char, x.isAlphanum = true → x.toUpper.isAlphanum = true ∧ x.toUpper.isLower = false := by
    intro x hx
    rcases (isAlphanum_cases x).mp hx with h | h | h
    · exact isLower_cases (P := fun c => c.toUpper.isAlphanum = true ∧ c.toUpper.isLower = false) (by decide +kernel) x h
    · exact isUpper_cases (P := fun c => c.toUpper.isAlphanum = true ∧ c.toUpper.isLower = false) (by decide +kernel) x h
    · have := toUpper_of_digit x h
      rw [this]
      refine ⟨hx, ?_⟩
      by_contra hl
      have hl' : x.isLower = true := by simpa using hl
      exact isLower_cases (P := fun c => ¬ c.isDigit = true) (by decide +kernel) x hl' h
  have hone : ∀ x : Char, (x.isAlphanum = true ∨ Separator x) →
      IdentChar (if x = '-' ∨ x = '.' then '_' else x.toUpper) ∧ (if x = '-' ∨ x = '.' then '_' else x.toUpper).isLower = false := by
    intro x hx
    rcases hx with h | rfl | rfl | rfl
    · split
      · exact ⟨Or.inr rfl, by decide⟩
      · exact ⟨Or.inl (hup x h).1, (hup x h).2⟩
    all_goals exact ⟨Or.inr (by decide), by decide⟩
  have hca : c.isAlphanum = true := by simp [Char.isAlphanum, hc]
  rw [constName_eq, List.map_cons]
  constructor
  · refine ⟨_, _, rfl, Or.inl ?_, ?_⟩
    · rcases (by simpa [Char.isAlpha] using hc : c.isUpper = true ∨ c.isLower = true) with h | h
      · exact isUpper_cases (P := fun c => (if c = '-' ∨ c = '.' then '_' else c.toUpper).isAlpha = true) (by decide +kernel) c h
      · exact isLower_cases (P := fun c => (if c = '-' ∨ c = '.' then '_' else c.toUpper).isAlpha = true) (by decide +kernel) c h
    · intro x hx
      obtain ⟨y, hy, rfl⟩ := List.mem_map.mp hx
      exact (hone y (hr y hy)).1
  · intro x hx
    rcases List.mem_cons.mp hx with rfl | hx
    · exact (hone c (Or.inl hca)).2
    · obtain ⟨y, hy, rfl⟩ := List.mem_map.mp hx
      exact (hone y (hr y hy)).2

example : constName "thumbv8m.main-none-eabihf".toList = "THUMBV8M_MAIN_NONE_EABIHF".toList ∧
    constName "a-b.c".toList = constName "A.b_c".toList := by decide +kernel

end Verif.Props
