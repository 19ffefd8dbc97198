import Mathlib.Data.List.Basic
import Mathlib.Data.List.Sort
import Mathlib.Data.List.Induction

/-!
# Grouping by a key: find the group and change it, or push a new one
-/

namespace Verif

variable {α β κ : Type} [DecidableEq κ]

/-- Change the first element with this key, or push a new one. -/
def upsert (key : α → κ) (k : κ) (new : α) (upd : α → α) : List α → List α
  | [] => [new]
  | a :: as => if key a = k then upd a :: as else a :: upsert key k new upd as

theorem upsert_keys (key : α → κ) (k : κ) (new : α) (upd : α → α) (hnew : key new = k)
    (hupd : ∀ a, key (upd a) = key a) (l : List α) :
    (upsert key k new upd l).map key = if k ∈ l.map key then l.map key else l.map key ++ [k] := by
  induction l with
  | nil => simp [upsert, hnew]
  | cons a l ih =>
    unfold upsert
    by_cases h : key a = k
    · rw [if_pos h]; simp [hupd, h]
    · rw [if_neg h, List.map_cons, ih]
      have : k ∈ List.map key (a :: l) ↔ k ∈ List.map key l := by
        rw [List.map_cons, List.mem_cons]
        exact ⟨fun hx => hx.resolve_left (fun e => h e.symm), .inr⟩
      by_cases hk : k ∈ List.map key l
      · rw [if_pos hk, if_pos (this.mpr hk)]; rfl
      · rw [if_neg hk, if_neg (fun x => hk (this.mp x))]; rfl

theorem upsert_nodup (key : α → κ) (k : κ) (new : α) (upd : α → α) (hnew : key new = k)
    (hupd : ∀ a, key (upd a) = key a) (l : List α) (h : (l.map key).Nodup) :
    ((upsert key k new upd l).map key).Nodup := by
  rw [upsert_keys key k new upd hnew hupd]
  split
  · exact h
  · rename_i hk
    rw [List.nodup_append]
    refine ⟨h, by simp, ?_⟩
    intro a ha b hb e
    rw [List.mem_singleton] at hb
    subst hb; subst e
    exact hk ha

theorem mem_upsert (key : α → κ) (k : κ) (new : α) (upd : α → α) (l : List α) (h : (l.map key).Nodup) (x : α) :
    x ∈ upsert key k new upd l ↔
      (x ∈ l ∧ key x ≠ k) ∨ (∃ y ∈ l, key y = k ∧ x = upd y) ∨ ((∀ y ∈ l, key y ≠ k) ∧ x = new) := by
  induction l with
  | nil => simp [upsert]
  | cons a l ih =>
    rw [List.map_cons, List.nodup_cons] at h
    unfold upsert
    by_cases ha : key a = k
    · rw [if_pos ha, List.mem_cons]
      have hl : ∀ y ∈ l, key y ≠ k := by
        intro y hy e
        exact h.1 (List.mem_map.mpr ⟨y, hy, by rw [e, ha]⟩)
      constructor
      · rintro (rfl | hx)
        · exact .inr (.inl ⟨a, List.mem_cons_self, ha, rfl⟩)
        · exact .inl ⟨List.mem_cons_of_mem _ hx, hl x hx⟩
      · rintro (⟨hx, hk⟩ | ⟨y, hy, hk, rfl⟩ | ⟨hn, -⟩)
        · rcases List.mem_cons.mp hx with rfl | hx
          · exact absurd ha hk
          · exact .inr hx
        · rcases List.mem_cons.mp hy with rfl | hy
          · exact .inl rfl
          · exact absurd hk (hl y hy)
        · exact absurd ha (hn a List.mem_cons_self)
    · rw [if_neg ha, List.mem_cons, ih h.2]
      constructor
      · rintro (rfl | ⟨hx, hk⟩ | ⟨y, hy, hk, rfl⟩ | ⟨hn, rfl⟩)
        · exact .inl ⟨List.mem_cons_self, ha⟩
        · exact .inl ⟨List.mem_cons_of_mem _ hx, hk⟩
        · exact .inr (.inl ⟨y, List.mem_cons_of_mem _ hy, hk, rfl⟩)
        · refine .inr (.inr ⟨fun y hy => ?_, rfl⟩)
          rcases List.mem_cons.mp hy with rfl | hy
          · exact ha
          · exact hn y hy
      · rintro (⟨hx, hk⟩ | ⟨y, hy, hk, rfl⟩ | ⟨hn, rfl⟩)
        · rcases List.mem_cons.mp hx with rfl | hx
          · exact .inl rfl
          · exact .inr (.inl ⟨hx, hk⟩)
        · rcases List.mem_cons.mp hy with rfl | hy
          · exact absurd hk ha
          · exact .inr (.inr (.inl ⟨y, hy, hk, rfl⟩))
        · exact .inr (.inr (.inr ⟨fun y hy => hn y (List.mem_cons_of_mem _ hy), rfl⟩))

/-- Group the values under their keys, in order. -/
def groupAll (key : α → κ) (init : κ → β → α) (upd : β → α → α) (ps : List (κ × β)) : List α :=
  ps.foldl (fun gs p => upsert key p.1 (init p.1 p.2) (upd p.2) gs) []

/-- The values under a key. -/
def valuesOf (ps : List (κ × β)) (k : κ) : List β := (ps.filter fun p => decide (p.1 = k)).map Prod.snd

theorem mem_valuesOf (ps : List (κ × β)) (k : κ) (b : β) : b ∈ valuesOf ps k ↔ (k, b) ∈ ps := by
  unfold valuesOf
  rw [List.mem_map]
  constructor
  · rintro ⟨⟨k', b'⟩, h, rfl⟩
    obtain ⟨h1, h2⟩ := List.mem_filter.mp h
    have : k' = k := by simpa using h2
    rw [← this]; exact h1
  · intro h
    exact ⟨(k, b), List.mem_filter.mpr ⟨h, by simp⟩, rfl⟩

/-- There is one group per key, made of its values in order. -/
theorem mem_groupAll (key : α → κ) (init : κ → β → α) (upd : β → α → α) (hinit : ∀ k b, key (init k b) = k)
    (hupd : ∀ b a, key (upd b a) = key a) (ps : List (κ × β)) :
    ((groupAll key init upd ps).map key).Nodup ∧
    ∀ x, x ∈ groupAll key init upd ps ↔
      ∃ b bs, valuesOf ps (key x) = b :: bs ∧ x = bs.foldl (fun s b => upd b s) (init (key x) b) := by
  unfold groupAll
  induction ps using List.reverseRecOn with
  | nil => simp [valuesOf]
  | append_singleton ps p ih =>
    obtain ⟨hn, hm⟩ := ih
    rw [List.foldl_append, List.foldl_cons, List.foldl_nil]
    refine ⟨upsert_nodup _ _ _ _ (hinit _ _) (hupd _) _ hn, fun x => ?_⟩
    rw [mem_upsert _ _ _ _ _ hn]
    have hv : ∀ k, valuesOf (ps ++ [p]) k = valuesOf ps k ++ if p.1 = k then [p.2] else [] := by
      intro k
      unfold valuesOf
      rw [List.filter_append, List.map_append]
      congr 1
      by_cases h : p.1 = k <;> simp [h]
    have hkey : ∀ (bs : List β) (a : α), key (bs.foldl (fun s b => upd b s) a) = key a := by
      intro bs
      induction bs with
      | nil => intro a; rfl
      | cons b bs ih => intro a; rw [List.foldl_cons, ih, hupd]
    rw [hv]
    constructor
    · rintro (⟨hx, hk⟩ | ⟨y, hy, hk, rfl⟩ | ⟨hnone, rfl⟩)
      · obtain ⟨b, bs, h1, h2⟩ := (hm x).mp hx
        rw [if_neg (fun e => hk e.symm), List.append_nil]
        exact ⟨b, bs, h1, h2⟩
      · obtain ⟨b, bs, h1, h2⟩ := (hm y).mp hy
        rw [hupd, hk, if_pos rfl]
        rw [hk] at h1 h2
        refine ⟨b, bs ++ [p.2], by rw [h1]; rfl, ?_⟩
        rw [List.foldl_append, ← h2]
        rfl
      · rw [hinit, if_pos rfl]
        have : valuesOf ps p.1 = [] := by
          cases hvs : valuesOf ps p.1 with
          | nil => rfl
          | cons b bs =>
            have hk : key (bs.foldl (fun s b => upd b s) (init p.1 b)) = p.1 := by rw [hkey, hinit]
            have hx := (hm (bs.foldl (fun s b => upd b s) (init p.1 b))).mpr ⟨b, bs, by rw [hk, hvs], by rw [hk]⟩
            exact absurd hk (hnone _ hx)
        rw [this]
        exact ⟨p.2, [], rfl, rfl⟩
    · rintro ⟨b, bs, h1, h2⟩
      by_cases hk : p.1 = key x
      · rw [if_pos hk] at h1
        rcases List.eq_nil_or_concat' bs with rfl | ⟨bs', b', rfl⟩
        · have hnil : valuesOf ps (key x) = [] := by
            have := congrArg List.length h1
            simp at this
            exact this
          rw [hnil, List.nil_append] at h1
          cases h1
          refine .inr (.inr ⟨fun y hy e => ?_, by rw [h2, hk]; rfl⟩)
          obtain ⟨b, bs, h3, -⟩ := (hm y).mp hy
          rw [e, hk, hnil] at h3
          cases h3
        · have h3 : valuesOf ps (key x) = b :: bs' ∧ [p.2] = [b'] := by
            have : valuesOf ps (key x) ++ [p.2] = (b :: bs') ++ [b'] := by rw [h1]; simp
            exact List.append_inj' this rfl
          have hb : p.2 = b' := by simpa using h3.2
          refine .inr (.inl ⟨bs'.foldl (fun s b => upd b s) (init (key x) b), ?_, ?_, ?_⟩)
          · rw [hm, hkey, hinit]
            exact ⟨b, bs', h3.1, rfl⟩
          · rw [hkey, hinit, hk]
          · rw [List.foldl_append] at h2
            rw [hb]
            exact h2
      · rw [if_neg hk, List.append_nil] at h1
        exact .inl ⟨(hm x).mpr ⟨b, bs, h1, h2⟩, fun e => hk e.symm⟩

/-- Sorting keeps the order of elements that are not told apart. -/
theorem filter_insertionSort (r : α → α → Prop) [DecidableRel r] (P : α → Bool)
    (h : ∀ a b, P a = true → P b = true → r a b) (l : List α) :
    (l.insertionSort r).filter P = l.filter P := by
  have ins : ∀ (x : α) (l : List α), (l.orderedInsert r x).filter P = (x :: l).filter P := by
    intro x l
    induction l with
    | nil => rfl
    | cons a l ih =>
      rw [List.orderedInsert_cons]
      split
      · rfl
      · rename_i hr
        rw [List.filter_cons, ih]
        cases hx : P x with
        | false => simp [List.filter_cons, hx]
        | true =>
          have : P a = false := by
            cases ha : P a with
            | false => rfl
            | true => exact absurd (h x a hx ha) hr
          simp [hx, this]
  induction l with
  | nil => rfl
  | cons x l ih =>
    rw [List.insertionSort_cons, ins, List.filter_cons, ih, List.filter_cons]

end Verif
