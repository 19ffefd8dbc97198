import Verif.Model.JsonPretty
import Verif.Props.Json

/-!
# The indented text reads as the value (for C82)
-/

namespace Verif.Props

open Verif.Spec List

theorem newline_space (d : Nat) : ∀ c ∈ Json.newline d, isJsonSpace c = true := by
  intro c hc
  unfold Json.newline at hc
  rcases mem_cons.mp hc with rfl | hc
  · decide
  · rw [eq_of_mem_replicate hc]; decide

theorem skipSpace_append {w : Str} (h : ∀ c ∈ w, isJsonSpace c = true) (s : Str) : skipSpace (w ++ s) = skipSpace s := by
  unfold skipSpace
  rw [dropWhile_append_of_pos h]

theorem readValue_space {w : Str} (h : ∀ c ∈ w, isJsonSpace c = true) (n : Nat) (s : Str) :
    readValue n (w ++ s) = readValue n s := by
  cases n with
  | zero => rfl
  | succ n => unfold readValue; rw [skipSpace_append h]

theorem newline_stops (d : Nat) (s : Str) : NumberStops (Json.newline d ++ s) := by
  intro c hc
  cases hc
  decide

theorem pretty_head (d : Nat) (j : Json) : ∃ c r, Json.pretty d j = c :: r := by
  cases j with
  | null => exact ⟨_, _, rfl⟩
  | bool b => cases b <;> exact ⟨_, _, rfl⟩
  | num n =>
    cases h : showNat n with
    | nil => exact absurd h (showNat_ne_nil n)
    | cons c r => exact ⟨c, r, h⟩
  | str s => exact ⟨_, _, rfl⟩
  | arr l => exact ⟨_, _, rfl⟩
  | obj l => exact ⟨_, _, rfl⟩

/-- After the first character of a value there is no closing bracket. -/
theorem pretty_start (d : Nat) (j : Json) (s : Str) :
    ∃ c r, Json.pretty d j ++ s = c :: r ∧ isJsonSpace c = false ∧ c ≠ ']' := by
  cases j with
  | null => exact ⟨_, _, rfl, by decide, by decide⟩
  | bool b => cases b <;> exact ⟨_, _, rfl, by decide, by decide⟩
  | num n =>
    obtain ⟨c, r, h, h1, h2⟩ := print_head (.num n)
    exact ⟨c, r ++ s, by unfold Json.print at h; unfold Json.pretty; rw [h]; rfl, h1, h2⟩
  | str t => exact ⟨_, _, rfl, by decide, by decide⟩
  | arr l => exact ⟨_, _, rfl, by decide, by decide⟩
  | obj l => exact ⟨_, _, rfl, by decide, by decide⟩

mutual

theorem readValue_pretty (d : Nat) (j : Json) (n : Nat) (r : Str) (hn : 2 * (Json.pretty d j).length ≤ n)
    (hr : NumberStops r) : readValue n (Json.pretty d j ++ r) = some (j, r) := by
  match n, j with
  | 0, j =>
    obtain ⟨c, t, hc⟩ := pretty_head d j
    rw [hc] at hn
    simp at hn
  | n + 1, .null => unfold readValue; rfl
  | n + 1, .bool true => unfold readValue; rfl
  | n + 1, .bool false => unfold readValue; rfl
  | n + 1, .num k => unfold Json.pretty; exact readValue_num k _ hr (by omega)
  | n + 1, .str s =>
    obtain ⟨t, ht, hs⟩ := readString_quoted s r
    unfold Json.pretty
    rw [ht]
    unfold readValue
    rw [skipSpace_cons (by decide)]
    simp only
    rw [hs]
    rfl
  | n + 1, .arr [] => unfold readValue; rfl
  | n + 1, .arr (j :: l) =>
    have hi := readItems_pretty d j l n r (by simp only [Json.pretty, length_cons] at hn; omega)
    unfold Json.pretty
    rw [cons_append]
    unfold readValue
    rw [skipSpace_cons (by decide)]
    simp only
    have hh : ∃ t, Json.prettyItems d (j :: l) ++ r = Json.newline (d + 1) ++ (Json.pretty (d + 1) j ++ t) := by
      cases l with
      | nil => unfold Json.prettyItems; exact ⟨_, by simp only [append_assoc]; rfl⟩
      | cons k l => rw [Json.prettyItems]; exact ⟨_, by simp only [append_assoc]; rfl⟩
    obtain ⟨t, ht⟩ := hh
    obtain ⟨c, u, hc, h1, h2⟩ := pretty_start (d + 1) j t
    rw [ht] at hi ⊢
    rw [hc] at hi ⊢
    rw [skipSpace_append (newline_space _), skipSpace_cons h1]
    split
    · rename_i heq; exact absurd (cons.inj heq).1 h2
    · have : readItems n (Json.newline (d + 1) ++ c :: u) = readItems n (c :: u) := by
        cases n with
        | zero => rfl
        | succ n => unfold readItems; rw [readValue_space (newline_space _)]
      rw [← this, hi]; rfl
  | n + 1, .obj [] => unfold readValue; rfl
  | n + 1, .obj ((k, j) :: l) =>
    have hi := readMembers_pretty d k j l n r (by simp only [Json.pretty, length_cons] at hn; omega)
    unfold Json.pretty
    rw [cons_append]
    unfold readValue
    rw [skipSpace_cons (by decide)]
    simp only
    have hh : ∃ t, Json.prettyMembers d ((k, j) :: l) ++ r = Json.newline (d + 1) ++ '"' :: t := by
      cases l with
      | nil => unfold Json.prettyMembers Json.quote; exact ⟨_, by simp only [append_assoc]; rfl⟩
      | cons m l => rw [Json.prettyMembers]; unfold Json.quote; exact ⟨_, by simp only [append_assoc]; rfl⟩
    obtain ⟨t, ht⟩ := hh
    rw [ht] at hi ⊢
    rw [skipSpace_append (newline_space _), skipSpace_cons (by decide)]
    split
    · rename_i heq; exact absurd (cons.inj heq).1 (by decide)
    · have : readMembers n (Json.newline (d + 1) ++ '"' :: t) = readMembers n ('"' :: t) := by
        cases n with
        | zero => rfl
        | succ n => unfold readMembers; rw [skipSpace_append (newline_space _)]
      rw [← this, hi]; rfl

theorem readItems_pretty (d : Nat) (j : Json) (l : List Json) (n : Nat) (r : Str)
    (hn : 2 * (Json.prettyItems d (j :: l)).length ≤ n) :
    readItems n (Json.prettyItems d (j :: l) ++ r) = some (j :: l, r) := by
  match n, l with
  | 0, l =>
    exfalso
    cases l <;> simp [Json.prettyItems, Json.newline] at hn
  | n + 1, [] =>
    have hv := readValue_pretty (d + 1) j n (Json.newline d ++ ']' :: r)
      (by simp only [Json.prettyItems, Json.newline, length_append, length_cons] at hn; omega)
      (newline_stops d _)
    unfold Json.prettyItems
    simp only [append_assoc, singleton_append]
    unfold readItems
    rw [readValue_space (newline_space _), hv]
    simp only
    rw [skipSpace_append (newline_space _), skipSpace_cons (by decide)]
    rfl
  | n + 1, k :: l =>
    have hv := readValue_pretty (d + 1) j n (',' :: (Json.prettyItems d (k :: l) ++ r))
      (by rw [Json.prettyItems] at hn; simp only [Json.newline, length_append, length_cons] at hn; omega)
      (stops_cons (by simp) _)
    have hi := readItems_pretty d k l n r
      (by rw [Json.prettyItems] at hn; simp only [Json.newline, length_append, length_cons] at hn; omega)
    rw [Json.prettyItems]
    simp only [append_assoc, cons_append]
    unfold readItems
    rw [readValue_space (newline_space _), hv]
    simp only
    rw [skipSpace_cons (by decide)]
    simp only
    rw [hi]
    rfl

theorem readMembers_pretty (d : Nat) (k : Str) (j : Json) (l : List (Str × Json)) (n : Nat) (r : Str)
    (hn : 2 * (Json.prettyMembers d ((k, j) :: l)).length ≤ n) :
    readMembers n (Json.prettyMembers d ((k, j) :: l) ++ r) = some ((k, j) :: l, r) := by
  match n, l with
  | 0, l =>
    exfalso
    cases l <;> simp [Json.prettyMembers, Json.newline] at hn
  | n + 1, [] =>
    have hv := readValue_pretty (d + 1) j n (Json.newline d ++ '}' :: r)
      (by simp only [Json.prettyMembers, Json.newline, length_append, length_cons] at hn; omega) (newline_stops d _)
    obtain ⟨t, ht, hs⟩ := readString_quoted k (':' :: ' ' :: (Json.pretty (d + 1) j ++ (Json.newline d ++ '}' :: r)))
    have he : Json.prettyMembers d [(k, j)] ++ r = Json.newline (d + 1) ++ '"' :: t := by
      rw [← ht]; unfold Json.prettyMembers; simp
    rw [he]
    unfold readMembers
    rw [skipSpace_append (newline_space _), skipSpace_cons (by decide)]
    simp only
    rw [hs]
    simp only
    rw [skipSpace_cons (by decide)]
    simp only
    rw [← singleton_append, readValue_space (by decide), hv]
    simp only
    rw [skipSpace_append (newline_space _), skipSpace_cons (by decide)]
    rfl
  | n + 1, (k', j') :: l =>
    have hv := readValue_pretty (d + 1) j n (',' :: (Json.prettyMembers d ((k', j') :: l) ++ r))
      (by rw [Json.prettyMembers] at hn; simp only [Json.newline, length_append, length_cons] at hn; omega)
      (stops_cons (by simp) _)
    have hi := readMembers_pretty d k' j' l n r
      (by rw [Json.prettyMembers] at hn; simp only [Json.newline, length_append, length_cons] at hn; omega)
    obtain ⟨t, ht, hs⟩ := readString_quoted k
      (':' :: ' ' :: (Json.pretty (d + 1) j ++ ',' :: (Json.prettyMembers d ((k', j') :: l) ++ r)))
    have he : Json.prettyMembers d ((k, j) :: (k', j') :: l) ++ r = Json.newline (d + 1) ++ '"' :: t := by
      rw [← ht, Json.prettyMembers]; simp
    rw [he]
    unfold readMembers
    rw [skipSpace_append (newline_space _), skipSpace_cons (by decide)]
    simp only
    rw [hs]
    simp only
    rw [skipSpace_cons (by decide)]
    simp only
    rw [← singleton_append, readValue_space (by decide), hv]
    simp only
    rw [skipSpace_cons (by decide)]
    simp only
    rw [hi]
    rfl

end

/-- The indented text of a JSON value reads as that value. -/
theorem readJson_pretty (j : Json) : readJson (Json.pretty 0 j) = some j := by
  unfold readJson
  have h := readValue_pretty 0 j (2 * (Json.pretty 0 j).length + 1) [] (by omega) (by intro c hc; cases hc)
  rw [append_nil] at h
  rw [h]
  rfl

/-- An example of the layout. -/
example : Json.pretty 0 (.obj [("a".toList, .arr [.num 1, .str "x".toList]), ("b".toList, .arr [])]) =
    "{\n  \"a\": [\n    1,\n    \"x\"\n  ],\n  \"b\": []\n}".toList := by decide +kernel

end Verif.Props
