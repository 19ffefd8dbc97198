import Verif.Spec.LockText
import Verif.Props.Json
import Verif.Props.AssignerIds

/-!
# Reading TOML line by line

Lemmas on `Verif/Spec/Toml.lean`: what the reader finds at the beginning of a text, and texts made of lines.
-/

namespace Verif.Toml

open Verif.Lock Verif.Spec

theorem run_ne {q c : Char} {r : Str} (h : c ≠ q) : run q (c :: r) = 0 := by
  unfold run
  simp [List.take_succ_cons, h]

/-- A string starts with a quotation mark or an apostrophe. -/
theorem string_head {s : Str} {p : Str × Str} (h : string s = some p) :
    ∃ c r, s = c :: r ∧ (c = '"' ∨ c = '\'') := by
  cases s with
  | nil => simp [string, run] at h
  | cons c r =>
    refine ⟨c, r, rfl, ?_⟩
    by_contra hc
    push Not at hc
    unfold string at h
    rw [run_ne hc.1, run_ne hc.2] at h
    simp [hc.1, hc.2] at h

theorem skipWs_cons {c : Char} {r : Str} (h : isWsp c = false) : skipWs (c :: r) = c :: r := by
  simp [skipWs, h]

theorem skipTrivia_cons {c : Char} {r : Str} (h : c = '"' ∨ c = '\'' ∨ c = ',' ∨ c = ']') :
    skipTrivia false (c :: r) = c :: r := by
  rcases h with rfl | rfl | rfl | rfl <;> rfl

/-- A string as a value. -/
theorem value_string {n : Nat} {s : Str} {v r : Str} (h : string s = some (v, r)) :
    value (n + 1) s = some (.str v, r) := by
  obtain ⟨c, t, rfl, hc⟩ := string_head h
  rw [value]
  simp only [hc, if_true, h, Option.map_some]

/-- A number as a value. -/
theorem value_number (n k : Nat) (rest : Str) :
    value (n + 1) (showNat k ++ '\n' :: rest) = some (.int k, '\n' :: rest) := by
  obtain ⟨c, t, hs⟩ : ∃ c t, showNat k = c :: t := List.exists_cons_of_ne_nil (showNat_ne_nil k)
  have hd : c.isDigit = true := isDigit_of_mem_showNat (n := k) (by rw [hs]; simp)
  have hne : ∀ x : Char, x.isDigit = false → c ≠ x := by
    rintro x hx rfl; rw [hd] at hx; cases hx
  have htw : (showNat k ++ '\n' :: rest).takeWhile Char.isDigit = showNat k := by
    rw [List.takeWhile_append_of_pos (fun c hc => isDigit_of_mem_showNat hc),
      List.takeWhile_cons_of_neg (by decide), List.append_nil]
  have hdw : (showNat k ++ '\n' :: rest).dropWhile Char.isDigit = '\n' :: rest := by
    rw [List.dropWhile_append_of_pos (fun c hc => isDigit_of_mem_showNat hc), List.dropWhile_cons_of_neg (by decide)]
  have hdig : digits (showNat k ++ '\n' :: rest) = some (k, '\n' :: rest) := by
    unfold digits
    simp only [htw, hdw]
    rw [if_neg]
    · simp only [List.head?_cons]
      rw [if_neg (by decide), Verif.Props.ofDigitChars_showNat]
    · rintro (h | ⟨h1, h2⟩)
      · exact showNat_ne_nil k h
      · cases k with
        | zero => exact h2 (by decide)
        | succ k => exact Verif.Props.showNat_head (k + 1) (by omega) h1
  have hint : integer (showNat k ++ '\n' :: rest) = some ((k : Int), '\n' :: rest) := by
    unfold integer
    rw [hs] at hdig ⊢
    simp only [List.cons_append] at hdig ⊢
    rw [if_neg (hne _ (by decide)), if_neg (hne _ (by decide)), hdig]
    rfl
  rw [hs] at hint ⊢
  simp only [List.cons_append] at hint ⊢
  rw [value]
  rw [if_neg (by rintro (h | h) <;> exact hne _ (by decide) h), if_neg (hne _ (by decide)), if_neg (hne _ (by decide)),
    if_neg (hne _ (by decide)), if_neg (hne _ (by decide)), hint]
  rfl

/-- An array of strings, one on each line. -/
theorem array_strings {q : Str → Str}
    (hq : ∀ s rest, rest.head? ≠ some '"' → rest.head? ≠ some '\'' → string (q s ++ rest) = some (s, rest))
    (ds : List Str) (n : Nat) (rest : Str) (hn : ds.length < n) :
    array n ('\n' :: (ds.flatMap (fun d => ' ' :: (q d ++ [',', '\n'])) ++ ']' :: rest)) =
      some (ds.map .str, rest) := by
  induction ds generalizing n with
  | nil =>
    cases n with
    | zero => simp at hn
    | succ n => rfl
  | cons d ds ih =>
    cases n with
    | zero => simp at hn
    | succ n =>
      cases n with
      | zero => simp at hn
      | succ n =>
        have h1 := hq d (',' :: '\n' :: (ds.flatMap (fun d => ' ' :: (q d ++ [',', '\n'])) ++ ']' :: rest))
          (by simp) (by simp)
        have h2 := value_string (n := n) h1
        obtain ⟨c, t, ht, hc⟩ := string_head h1
        have hsk : skipTrivia false ('\n' :: ((d :: ds).flatMap (fun d => ' ' :: (q d ++ [',', '\n'])) ++ ']' :: rest))
            = c :: t := by
          have : '\n' :: ((d :: ds).flatMap (fun d => ' ' :: (q d ++ [',', '\n'])) ++ ']' :: rest) =
              '\n' :: ' ' :: (c :: t) := by
            rw [← ht]
            simp [List.append_assoc]
          rw [this]
          show skipTrivia false (c :: t) = c :: t
          exact skipTrivia_cons (by tauto)
        rw [array, hsk]
        have he : expect ']' (c :: t) = none := by
          rcases hc with rfl | rfl <;> rfl
        rw [he]
        simp only
        rw [← ht, h2]
        simp only [Option.bind_some]
        rw [skipTrivia_cons (by tauto)]
        show ((array (n + 1) _).map fun q => ((.str d : Value) :: q.1, q.2)) = _
        rw [ih (n + 1) (by simpa using hn)]
        rfl

/-! ### Lines -/

/-- The text of one line (or of a statement over many lines) and what it says, whatever comes after it. -/
structure Chunk (t : Str) (o : Option Stmt) : Prop where
  nonempty : t ≠ []
  reads : ∀ n rest, (t ++ rest).length < n → line n (t ++ rest) = some (o, rest)

/-- All statements of a text made of lines. -/
theorem statements_chunks {cs : List (Str × Option Stmt)} (h : ∀ c ∈ cs, Chunk c.1 c.2) (n : Nat)
    (hn : (cs.flatMap (·.1)).length < n) : statements n (cs.flatMap (·.1)) = some (cs.filterMap (·.2)) := by
  induction cs generalizing n with
  | nil =>
    cases n with
    | zero => simp at hn
    | succ n => rfl
  | cons c cs ih =>
    cases n with
    | zero => simp at hn
    | succ n =>
      have hc := h c (by simp)
      obtain ⟨x, t, ht⟩ := List.exists_cons_of_ne_nil hc.nonempty
      rw [List.flatMap_cons] at hn ⊢
      have hr := hc.reads (n + 1) (cs.flatMap (·.1)) hn
      rw [ht, List.cons_append] at hr hn ⊢
      rw [statements]
      rw [hr]
      simp only [Option.bind_some]
      rw [ih (fun c hc => h c (by simp [hc])) n (by simp at hn ⊢; omega)]
      obtain ⟨_, o⟩ := c
      cases o <;> simp

/-- What follows `key = ` is read as a value. -/
theorem line_pair {n : Nat} {s k r : Str} {v : Value} {rest : Str} (hs : simpleKey s = some (k, ' ' :: '=' :: ' ' :: r))
    (hw : ∀ c t, r = c :: t → isWsp c = false) (hv : value (n + 1) r = some (v, '\n' :: rest)) :
    line (n + 1) s = some (some (.pair [k] v), rest) := by
  cases s with
  | nil => simp [simpleKey] at hs
  | cons c t =>
    have hc : c = '"' ∨ c = '\'' ∨ isBare c = true := by
      unfold simpleKey at hs
      by_contra hc
      push Not at hc
      simp [hc.1, hc.2.1, hc.2.2] at hs
    have hne : ∀ x : Char, isBare x = false → x ≠ '"' → x ≠ '\'' → c ≠ x := by
      rintro x h1 h2 h3 rfl
      rcases hc with rfl | rfl | h
      · exact h2 rfl
      · exact h3 rfl
      · rw [h] at h1; cases h1
    have hws : isWsp c = false := by
      have h1 := hne ' ' (by decide) (by decide) (by decide)
      have h2 := hne '\t' (by decide) (by decide) (by decide)
      simp [isWsp, h1, h2]
    have hk : key (n + 1) (c :: t) = some ([k], ' ' :: '=' :: ' ' :: r) := by
      rw [key, hs]
      rfl
    have hsk : skipWs (' ' :: r) = r := by
      show skipWs r = r
      cases r with
      | nil => rfl
      | cons c t => exact skipWs_cons (hw c t rfl)
    unfold line
    rw [skipWs_cons hws]
    simp only
    rw [if_neg (by rintro (h | h | h) <;> exact hne _ (by decide) (by decide) (by decide) h),
      if_neg (hne _ (by decide) (by decide) (by decide)), hk]
    simp only [Option.bind_some]
    rw [show skipWs (' ' :: '=' :: ' ' :: r) = '=' :: ' ' :: r from rfl]
    rw [show expect '=' ('=' :: ' ' :: r) = some (' ' :: r) from rfl]
    simp only [Option.bind_some]
    rw [hsk, hv]
    rfl

/-- A line `key = "…"`. -/
theorem chunk_string {key q : Str} {k v : Str}
    (hk : ∀ rest, rest.head? = some ' ' → simpleKey (key ++ rest) = some (k, rest))
    (hq : ∀ rest, rest.head? ≠ some '"' → rest.head? ≠ some '\'' → string (q ++ rest) = some (v, rest)) :
    Chunk (key ++ (" = ".toList ++ (q ++ ['\n']))) (some (.pair [k] (.str v))) := by
  refine ⟨by simp, ?_⟩
  intro n rest hn
  cases n with
  | zero => simp at hn
  | succ n =>
    have h1 := hq ('\n' :: rest) (by simp) (by simp)
    have heq : key ++ (" = ".toList ++ (q ++ ['\n'])) ++ rest = key ++ (' ' :: '=' :: ' ' :: (q ++ '\n' :: rest)) := by
      simp [List.append_assoc]
    rw [heq]
    refine line_pair (hk _ rfl) ?_ (value_string h1)
    intro c t hct
    obtain ⟨c', t', ht, hc⟩ := string_head h1
    rw [hct] at ht
    cases ht
    rcases hc with rfl | rfl <;> rfl

/-- A bare key. -/
theorem simpleKey_bare {k : Str} (hne : k ≠ []) (hk : ∀ c ∈ k, isBare c = true) {rest : Str} (hr : rest.head? = some ' ') :
    simpleKey (k ++ rest) = some (k, rest) := by
  obtain ⟨c, t, rfl⟩ := List.exists_cons_of_ne_nil hne
  have hc := hk c (by simp)
  have h1 : ∀ x : Char, isBare x = false → c ≠ x := by rintro x hx rfl; rw [hc] at hx; cases hx
  obtain ⟨t', rfl⟩ : ∃ t', rest = ' ' :: t' := by
    cases rest with
    | nil => simp at hr
    | cons x t' => simp at hr; exact ⟨t', by rw [hr]⟩
  unfold simpleKey
  rw [List.cons_append]
  simp only
  rw [if_neg (h1 _ (by decide)), if_neg (h1 _ (by decide)), if_pos hc, ← List.cons_append,
    List.takeWhile_append_of_pos hk, List.dropWhile_append_of_pos hk, List.takeWhile_cons_of_neg (by decide),
    List.dropWhile_cons_of_neg (by decide), List.append_nil]

/-- A line of an array of strings. -/
theorem chunk_strings {key : Str} {k : Str} {q : Str → Str} (ds : List Str)
    (hk : ∀ rest, rest.head? = some ' ' → simpleKey (key ++ rest) = some (k, rest))
    (hq : ∀ s rest, rest.head? ≠ some '"' → rest.head? ≠ some '\'' → string (q s ++ rest) = some (s, rest)) :
    Chunk (key ++ (" = [\n".toList ++ (ds.flatMap (fun d => ' ' :: (q d ++ [',', '\n'])) ++ [']', '\n'])))
      (some (.pair [k] (.arr (ds.map .str)))) := by
  refine ⟨by simp, ?_⟩
  intro n rest hn
  cases n with
  | zero => simp at hn
  | succ n =>
    have heq : key ++ (" = [\n".toList ++ (ds.flatMap (fun d => ' ' :: (q d ++ [',', '\n'])) ++ [']', '\n'])) ++ rest =
        key ++ (' ' :: '=' :: ' ' :: '[' :: ('\n' :: (ds.flatMap (fun d => ' ' :: (q d ++ [',', '\n'])) ++
          ']' :: '\n' :: rest))) := by
      simp [List.append_assoc]
    rw [heq] at hn ⊢
    refine line_pair (hk _ rfl) ?_ ?_
    · intro c t hct
      cases hct
      rfl
    · rw [value]
      show ((array n _).map fun p => (Value.arr p.1, p.2)) = _
      rw [array_strings hq]
      · rfl
      · have : ds.length ≤ (ds.flatMap (fun d => ' ' :: (q d ++ [',', '\n']))).length := by
          clear hn heq
          induction ds with
          | nil => simp
          | cons d ds ih => simp only [List.flatMap_cons, List.length_append, List.length_cons]; omega
        simp only [List.length_append, List.length_cons] at hn
        omega

/-- A line with a number. -/
theorem chunk_number {key : Str} {k : Str} (v : Nat)
    (hk : ∀ rest, rest.head? = some ' ' → simpleKey (key ++ rest) = some (k, rest)) :
    Chunk (key ++ (" = ".toList ++ (showNat v ++ ['\n']))) (some (.pair [k] (.int v))) := by
  refine ⟨by simp, ?_⟩
  intro n rest hn
  cases n with
  | zero => simp at hn
  | succ n =>
    have heq : key ++ (" = ".toList ++ (showNat v ++ ['\n'])) ++ rest =
        key ++ (' ' :: '=' :: ' ' :: (showNat v ++ '\n' :: rest)) := by
      simp [List.append_assoc]
    rw [heq]
    refine line_pair (hk _ rfl) ?_ (value_number n v rest)
    intro c t hct
    obtain ⟨c', t', hs⟩ : ∃ c t, showNat v = c :: t := List.exists_cons_of_ne_nil (showNat_ne_nil v)
    have hd : c'.isDigit = true := isDigit_of_mem_showNat (n := v) (by rw [hs]; simp)
    rw [hs] at hct
    cases hct
    by_contra hw
    simp only [isWsp, Bool.not_eq_false, Bool.or_eq_true, beq_iff_eq] at hw
    rcases hw with rfl | rfl <;> exact absurd hd (by decide)

theorem chunk_blank : Chunk ['\n'] none := by
  refine ⟨by simp, ?_⟩
  intro n rest _
  rfl

/-! ### The newlines at the end -/

/-- Without the last newline, the text does not end with a newline; if nothing is left, the line says nothing. -/
structure Ends (t : Str) (o : Option Stmt) : Prop where
  last : ∃ u, t = u ++ ['\n'] ∧ u.getLast? ≠ some '\n' ∧ (u = [] → o = none)

theorem trimRev_stop {c : Char} {r : Str} (h : c ≠ '\n') : trimRev ('\n' :: c :: r) = '\n' :: c :: r := by
  rw [trimRev, if_neg (fun hh => h hh.2)]

/-- Removing newlines at the end removes blank lines, no statement: what is left is made of the first lines. -/
theorem trim_chunks {cs : List (Str × Option Stmt)} (h : ∀ c ∈ cs, Ends c.1 c.2) :
    ∃ cs', cs' <+: cs ∧ cs'.filterMap (·.2) = cs.filterMap (·.2) ∧
      (trimRev (cs.flatMap (·.1)).reverse).reverse = cs'.flatMap (·.1) := by
  induction cs using List.reverseRecOn with
  | nil => exact ⟨[], by simp, rfl, rfl⟩
  | append_singleton cs c ih =>
    obtain ⟨u, hu, hl, hn⟩ := (h c (by simp)).last
    rw [List.flatMap_append, List.flatMap_cons, List.flatMap_nil, List.append_nil]
    cases u using List.reverseRecOn with
    | nil =>
      have hn := hn rfl
      rw [hu]
      cases cs using List.reverseRecOn with
      | nil =>
        refine ⟨[c], by simp, rfl, ?_⟩
        simp [hu, trimRev]
      | append_singleton cs d _ =>
        obtain ⟨w, hw, _, _⟩ := (h d (by simp)).last
        obtain ⟨cs', h1, h2, h3⟩ := ih (fun x hx => h x (by
          rcases List.mem_append.mp hx with hx | hx <;> simp_all))
        refine ⟨cs', h1.trans (List.prefix_append _ _), ?_, ?_⟩
        · rw [h2, List.filterMap_append (l' := [c])]
          simp [List.filterMap_cons, hn]
        · rw [← h3]
          simp only [List.flatMap_append, List.flatMap_cons, List.flatMap_nil, List.append_nil, hw,
            List.reverse_append, List.reverse_cons, List.reverse_nil, List.nil_append, List.cons_append]
          congr 1
    | append_singleton u x _ =>
      refine ⟨cs ++ [c], List.prefix_rfl, rfl, ?_⟩
      have hx : x ≠ '\n' := by
        rintro rfl
        exact hl (by simp)
      simp only [List.flatMap_append, List.flatMap_cons, List.flatMap_nil, List.append_nil, hu,
        List.reverse_append, List.reverse_cons, List.reverse_nil, List.nil_append, List.cons_append]
      rw [trimRev_stop hx]
      simp

end Verif.Toml
