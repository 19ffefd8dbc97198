import Verif.Spec.Assigner
import Mathlib.Data.Nat.Digits.Defs

/-!
# The title that `assign-id` prints (C53)
-/

namespace Verif.Props

open Verif.Adv Verif.Assign Verif.Spec

theorem joinComma_eq (l : List Str) : joinComma l = List.intercalate ", ".toList l := by
  induction l with
  | nil => rfl
  | cons a t ih =>
    cases t with
    | nil => simp [joinComma, List.intercalate]
    | cons b t =>
      rw [joinComma, ih]
      · simp [List.intercalate]
      · simp

theorem beforeLastComma_none {t : Str} (h : ',' ∉ t) : beforeLastComma t = none := by
  induction t with
  | nil => rfl
  | cons c t ih =>
    rw [beforeLastComma, ih (fun hm => h (List.mem_cons_of_mem _ hm))]
    simp only
    rw [if_neg]
    intro hp
    have : c = ',' := by
      have := List.isPrefixOf_iff_prefix.mp hp
      obtain ⟨r, hr⟩ := this
      have e := congrArg List.head? hr
      simpa using e.symm
    exact h (by simp [this])

theorem beforeLastComma_append {a b : Str} (h : ',' ∉ b) :
    beforeLastComma (a ++ ", ".toList ++ b) = some a := by
  induction a with
  | nil =>
    show beforeLastComma (',' :: ' ' :: b) = some []
    rw [beforeLastComma, beforeLastComma_none (by simpa using h)]
    simp [List.isPrefixOf]
  | cons c a ih =>
    rw [List.cons_append, List.cons_append, beforeLastComma, ih]

theorem beforeLastComma_some {t new : Str} (h : beforeLastComma t = some new) :
    ∃ b, t = new ++ ", ".toList ++ b := by
  induction t generalizing new with
  | nil => cases h
  | cons c t ih =>
    rw [beforeLastComma] at h
    cases hb : beforeLastComma t with
    | some r =>
      rw [hb] at h
      cases h
      obtain ⟨b, rfl⟩ := ih hb
      exact ⟨b, by simp⟩
    | none =>
      rw [hb] at h
      simp only at h
      split at h
      · rename_i hp
        cases h
        obtain ⟨b, hb⟩ := List.isPrefixOf_iff_prefix.mp hp
        exact ⟨b, by rw [← hb]; rfl⟩
      · cases h

theorem suffix_no_comma (n : Nat) : ',' ∉ " and ".toList ++ showNat n ++ " more".toList := by
  simp only [List.mem_append, not_or]
  refine ⟨⟨by decide, ?_⟩, by decide⟩
  intro h
  have := isDigit_of_mem_showNat h
  revert this
  decide

theorem count_more (new : Str) (n : Nat) :
    (new ++ " and ".toList ++ showNat n ++ " more".toList).count ',' = new.count ',' := by
  have : (" and ".toList ++ showNat n ++ " more".toList).count ',' = 0 :=
    List.count_eq_zero.mpr (suffix_no_comma n)
  rw [List.append_assoc, List.append_assoc, List.count_append, ← List.append_assoc, this, Nat.add_zero]

/-- With as much fuel as there are commas, more fuel changes nothing: the loop of the model is the loop of the
program. -/
theorem shorten_fuel (fuel : Nat) : ∀ (k : Nat) (t : Str), t.count ',' ≤ fuel →
    shorten (fuel + 1) k t = shorten fuel k t := by
  induction fuel with
  | zero =>
    intro k t h
    have hn : beforeLastComma t = none := beforeLastComma_none (List.count_eq_zero.mp (Nat.le_zero.mp h))
    rw [shorten, shorten, hn]
  | succ f ih =>
    intro k t h
    rw [shorten, shorten]
    cases hb : beforeLastComma t with
    | none => rfl
    | some new =>
      obtain ⟨b, hb'⟩ := beforeLastComma_some hb
      have hc : new.count ',' < t.count ',' := by
        rw [hb', List.count_append, List.count_append]
        have : (", ".toList).count ',' = 1 := by decide
        omega
      simp only
      rw [ih _ _ (by rw [count_more]; omega)]

theorem shorten_bound (fuel : Nat) : ∀ (k : Nat) (t : Str),
    (∀ r, shorten fuel k t = .ok r → byteLen r ≤ 255) ∧ shorten fuel k t ≠ .err := by
  induction fuel with
  | zero =>
    intro k t
    rw [shorten]
    split
    · rename_i h; exact ⟨fun r hr => by cases hr; exact h, by simp⟩
    · simp
  | succ f ih =>
    intro k t
    rw [shorten]
    split
    · rename_i h; exact ⟨fun r hr => by cases hr; exact h, by simp⟩
    · cases beforeLastComma t with
      | none => simp
      | some new => exact ih _ _

theorem intercalate_append (l : List Str) (hne : l ≠ []) (a : Str) :
    List.intercalate ", ".toList (l ++ [a]) = List.intercalate ", ".toList l ++ ", ".toList ++ a := by
  induction l with
  | nil => exact absurd rfl hne
  | cons b t ih =>
    cases t with
    | nil => simp [List.intercalate]
    | cons c t =>
      rw [← joinComma_eq, List.cons_append, List.cons_append, joinComma, joinComma_eq, ← List.cons_append,
        ih (by simp), ← joinComma_eq (b :: c :: t), joinComma, joinComma_eq]
      · simp [List.append_assoc]
      · simp
      · simp

/-- The first `k + 1` assignments: the first `k`, a comma, and the next. -/
theorem shown_succ (as : List Str) (k : Nat) (h1 : 1 ≤ k) (h : k < as.length) :
    List.intercalate ", ".toList (as.take (k + 1)) =
      List.intercalate ", ".toList (as.take k) ++ ", ".toList ++ as[k] := by
  rw [List.take_succ_eq_append_getElem h, intercalate_append]
  intro e
  have := congrArg List.length e
  rw [List.length_take, List.length_nil] at this
  omega

theorem titleWith_eq (as : List Str) (k : Nat) (h : k ≤ as.length) :
    ∃ suffix, ',' ∉ suffix ∧
      titleWith as k = "Assigned ".toList ++ List.intercalate ", ".toList (as.take k) ++ suffix := by
  unfold titleWith
  by_cases hk : k = as.length
  · rw [if_pos hk]
    exact ⟨[], by simp, by rw [hk, List.take_length, List.append_nil]⟩
  · rw [if_neg hk]
    exact ⟨_, suffix_no_comma (as.length - k), by simp [List.append_assoc]⟩

theorem shorten_step (as : List Str) (hc : ∀ a ∈ as, ',' ∉ a) (k : Nat) (h1 : 1 ≤ k) (h : k < as.length) :
    beforeLastComma (titleWith as (k + 1)) =
      some ("Assigned ".toList ++ List.intercalate ", ".toList (as.take k)) := by
  obtain ⟨suffix, hs, e⟩ := titleWith_eq as (k + 1) h
  rw [e, shown_succ as k h1 h,
    show "Assigned ".toList ++ (List.intercalate ", ".toList (as.take k) ++ ", ".toList ++ as[k]) ++ suffix =
      ("Assigned ".toList ++ List.intercalate ", ".toList (as.take k)) ++ ", ".toList ++ (as[k] ++ suffix) by
      simp only [List.append_assoc]]
  apply beforeLastComma_append
  rw [List.mem_append, not_or]
  exact ⟨hc _ (List.getElem_mem h), hs⟩

theorem shorten_last (as : List Str) (hc : ∀ a ∈ as, ',' ∉ a) (h : 1 ≤ as.length) :
    beforeLastComma (titleWith as 1) = none := by
  obtain ⟨suffix, hs, e⟩ := titleWith_eq as 1 h
  rw [e]
  apply beforeLastComma_none
  obtain ⟨a, t, rfl⟩ : ∃ a t, as = a :: t := by
    cases as with
    | nil => simp at h
    | cons a t => exact ⟨a, t, rfl⟩
  rw [List.mem_append, List.mem_append, not_or, not_or]
  refine ⟨⟨by decide, ?_⟩, hs⟩
  simp only [List.take_succ_cons, List.take_zero]
  simpa [List.intercalate] using hc a (by simp)

/-- The loop, started at the title that shows `k` assignments. -/
theorem shorten_from (as : List Str) (hc : ∀ a ∈ as, ',' ∉ a) (k : Nat) :
    ∀ fuel, 1 ≤ k → k ≤ as.length → k ≤ fuel + 1 →
    (∀ t, shorten fuel (as.length - k) (titleWith as k) = .ok t ↔
      ∃ k', 1 ≤ k' ∧ k' ≤ k ∧ t = titleWith as k' ∧ byteLen t ≤ 255 ∧
        ∀ k'', k' < k'' → k'' ≤ k → 255 < byteLen (titleWith as k'')) ∧
    (shorten fuel (as.length - k) (titleWith as k) = .panic ↔
      ∀ k', 1 ≤ k' → k' ≤ k → 255 < byteLen (titleWith as k')) := by
  induction k with
  | zero => intro fuel h; omega
  | succ k ih =>
    intro fuel h1 hk hf
    by_cases hl : byteLen (titleWith as (k + 1)) ≤ 255
    · have he : shorten fuel (as.length - (k + 1)) (titleWith as (k + 1)) = .ok (titleWith as (k + 1)) := by
        cases fuel <;> rw [shorten, if_pos hl]
      rw [he]
      constructor
      · intro t
        constructor
        · intro e; cases e
          exact ⟨k + 1, h1, Nat.le_refl _, rfl, hl, fun k'' a b => by omega⟩
        · rintro ⟨k', _, h2, rfl, _, h4⟩
          by_cases e : k' = k + 1
          · rw [e]
          · have := h4 (k + 1) (by omega) (Nat.le_refl _)
            omega
      · simp only [reduceCtorEq, false_iff]
        intro h
        have := h (k + 1) h1 (Nat.le_refl _)
        omega
    · have hl' : 255 < byteLen (titleWith as (k + 1)) := Nat.lt_of_not_le hl
      by_cases hk0 : k = 0
      · subst hk0
        have hn := shorten_last as hc hk
        have hcore : shorten fuel (as.length - (0 + 1)) (titleWith as (0 + 1)) = .panic := by
          cases fuel with
          | zero => rw [shorten, if_neg hl]
          | succ f => rw [shorten, if_neg hl, hn]
        rw [hcore]
        constructor
        · intro t
          simp only [reduceCtorEq, false_iff]
          rintro ⟨k', h1, h2, rfl, h3, _⟩
          have : k' = 1 := by omega
          subst this
          exact absurd h3 hl
        · simp only [true_iff]
          intro k' h1 h2
          have : k' = 1 := by omega
          subst this
          exact hl'
      · obtain ⟨f, rfl⟩ : ∃ f, fuel = f + 1 := ⟨fuel - 1, by omega⟩
        rw [shorten, if_neg hl, shorten_step as hc k (by omega) (by omega)]
        simp only
        have e1 : as.length - (k + 1) + 1 = as.length - k := by omega
        have e2 : "Assigned ".toList ++ List.intercalate ", ".toList (as.take k) ++ " and ".toList ++
            showNat (as.length - k) ++ " more".toList = titleWith as k := by
          unfold titleWith
          rw [if_neg (by omega)]
        rw [e1, e2]
        obtain ⟨i1, i2⟩ := ih f (by omega) (by omega) (by omega)
        constructor
        · intro t
          rw [i1 t]
          constructor
          · rintro ⟨k', a, b, c, d, e⟩
            refine ⟨k', a, by omega, c, d, fun k'' x y => ?_⟩
            by_cases hh : k'' = k + 1
            · rw [hh]; exact hl'
            · exact e k'' x (by omega)
          · rintro ⟨k', a, b, c, d, e⟩
            have hne : k' ≠ k + 1 := by
              intro hh
              rw [c, hh] at d
              omega
            exact ⟨k', a, by omega, c, d, fun k'' x y => e k'' x (by omega)⟩
        · rw [i2]
          constructor
          · intro h k' a b
            by_cases hh : k' = k + 1
            · rw [hh]; exact hl'
            · exact h k' a (by omega)
          · intro h k' a b
            exact h k' a (by omega)

theorem count_intercalate (as : List Str) (hc : ∀ a ∈ as, ',' ∉ a) :
    (List.intercalate ", ".toList as).count ',' = as.length - 1 := by
  rw [← joinComma_eq]
  induction as with
  | nil => rfl
  | cons a t ih =>
    have ha : a.count ',' = 0 := List.count_eq_zero.mpr (hc a (by simp))
    cases t with
    | nil => simpa [joinComma] using ha
    | cons b t =>
      rw [joinComma]
      · rw [List.count_append, List.count_append, ha, ih (fun x hx => hc x (by simp [hx]))]
        have : (", ".toList).count ',' = 1 := by decide
        simp only [List.length_cons]
        omega
      · simp

/-- **C53.**  A title that is printed has at most 255 bytes.  If no directory name contains a comma, it names
a first part of the assignments in order and the number of the others, if any, as many as fit; and the
program panics if and only if there are assignments and not even the first one fits. -/
theorem C53_title (as : List Assignment) :
    (∀ t, title as = .ok t → byteLen t ≤ 255) ∧ title as ≠ .err ∧
    ((∀ a ∈ as, ',' ∉ a.text) →
      (∀ t, title as = .ok t ↔
        (as = [] ∧ t = "Assigned ".toList) ∨
        ∃ k, 1 ≤ k ∧ k ≤ as.length ∧ t = titleWith (as.map Assignment.text) k ∧ byteLen t ≤ 255 ∧
          ∀ k', k < k' → k' ≤ as.length → 255 < byteLen (titleWith (as.map Assignment.text) k')) ∧
      (title as = .panic ↔
        as ≠ [] ∧ ∀ k, 1 ≤ k → k ≤ as.length → 255 < byteLen (titleWith (as.map Assignment.text) k))) := by
  refine ⟨(shorten_bound _ _ _).1, (shorten_bound _ _ _).2, fun hc => ?_⟩
  by_cases hn : as = []
  · subst hn
    have : title [] = .ok "Assigned ".toList := by decide +kernel
    rw [this]
    constructor
    · intro t
      constructor
      · intro h; cases h; exact .inl ⟨rfl, rfl⟩
      · rintro (⟨_, rfl⟩ | ⟨k, h1, h2, _⟩)
        · rfl
        · simp only [List.length_nil] at h2; omega
    · simp
  · have hlen : 1 ≤ as.length := by
      cases as with
      | nil => exact absurd rfl hn
      | cons a t => simp
    have hc' : ∀ a ∈ as.map Assignment.text, ',' ∉ a := by
      intro a ha
      obtain ⟨b, hb, rfl⟩ := List.mem_map.mp ha
      exact hc b hb
    have hl : (as.map Assignment.text).length = as.length := List.length_map _
    have et : "Assigned ".toList ++ joinComma (as.map Assignment.text) =
        titleWith (as.map Assignment.text) as.length := by
      unfold titleWith
      rw [if_pos hl.symm, joinComma_eq]
    have hcount : ("Assigned ".toList ++ joinComma (as.map Assignment.text)).count ',' = as.length - 1 := by
      rw [joinComma_eq, List.count_append, count_intercalate _ hc', hl]
      have : ("Assigned ".toList).count ',' = 0 := by decide
      omega
    have := shorten_from (as.map Assignment.text) hc' as.length (as.length - 1) hlen (by omega) (by omega)
    rw [hl, Nat.sub_self, ← et] at this
    unfold title
    simp only
    rw [hcount]
    constructor
    · intro t
      rw [this.1 t]
      simp [hn]
    · rw [this.2]
      simp [hn]

/-- Ten assignments; the last three do not fit. -/
def exAssignments : List Assignment :=
  List.replicate 10 ⟨"RUSTSEC-2024-0001".toList, "some-crate".toList⟩

/-- The hypothesis of `C53_title` holds of them, and seven are named. -/
example : (∀ a ∈ exAssignments, ',' ∉ a.text) ∧
    title exAssignments = .ok (titleWith (exAssignments.map Assignment.text) 7) := by
  refine ⟨?_, ?_⟩ <;> decide +kernel

/-- **C53, violation.**  A crate name alone can make the program panic. -/
theorem C53_panics (id : Str) (n : Nat) (h : 255 ≤ n) :
    title [⟨id, List.replicate n 'a'⟩] = .panic ∨ ',' ∈ id := by
  by_cases hm : ',' ∈ id
  · exact .inr hm
  · left
    have hb : ∀ s : Str, s.length ≤ byteLen s := by
      intro s
      induction s with
      | nil => simp [byteLen]
      | cons c t ih =>
        have : 1 ≤ c.utf8Size := Char.utf8Size_pos c
        simp only [byteLen, List.map_cons, List.sum_cons, List.length_cons] at ih ⊢
        omega
    refine ((C53_title _).2.2 ?_).2.mpr ⟨by simp, fun k h1 h2 => ?_⟩
    · intro a ha
      rw [List.mem_singleton.mp ha]
      unfold Assignment.text
      simp only [List.mem_append, not_or]
      refine ⟨⟨hm, by decide⟩, fun h => ?_⟩
      have := List.eq_of_mem_replicate h
      revert this; decide
    · have : k = 1 := by simp only [List.length_singleton] at h2; omega
      subst this
      refine Nat.lt_of_lt_of_le ?_ (hb _)
      unfold titleWith
      rw [if_pos (by rfl)]
      simp [List.intercalate, Assignment.text]
      omega

end Verif.Props
