import Verif.Model.Platform
import Verif.Spec.Platform
import Mathlib.Data.List.Infix
import Mathlib.Data.List.Pairwise
import Mathlib.Data.List.Lex
import Mathlib.Data.List.Nodup
import Mathlib.Tactic.Common

/-!
# C41, C42: platform requirements and the platform table
-/

namespace Verif.Props

open Verif Verif.Plat Verif.Spec

/-! ## Lemmas -/

theorem containsStr_iff : ∀ (t m : Str), containsStr t m = true ↔ ∃ a b, t = a ++ m ++ b
  | [], m => by
    simp only [containsStr, List.isEmpty_iff]
    constructor
    · rintro rfl; exact ⟨[], [], rfl⟩
    · rintro ⟨a, b, h⟩; simp at h; exact h.2.1
  | c :: t, m => by
    simp only [containsStr, Bool.or_eq_true, List.isPrefixOf_iff_prefix, containsStr_iff t m]
    constructor
    · rintro (⟨b, h⟩ | ⟨a, b, h⟩)
      · exact ⟨[], b, by simpa using h.symm⟩
      · exact ⟨c :: a, b, by simp [h]⟩
    · rintro ⟨a, b, h⟩
      cases a with
      | nil => left; exact ⟨b, by simpa using h.symm⟩
      | cons x a =>
        right
        simp only [List.cons_append, List.cons.injEq] at h
        exact ⟨a, b, h.2⟩

/-- A pattern without `*` matches itself only. -/
theorem glob_plain : ∀ (p t : Str), '*' ∉ p → (Glob p t ↔ t = p)
  | [], t, _ => by
    constructor
    · intro h; cases h; rfl
    · rintro rfl; exact .nil
  | c :: p, t, h => by
    simp only [List.mem_cons, not_or] at h
    constructor
    · intro g
      cases g with
      | lit _ _ t' _ g' => rw [(glob_plain p t' h.2).mp g']
      | star => exact absurd rfl h.1
    · rintro rfl
      exact .lit c p p (fun e => h.1 e.symm) ((glob_plain p p h.2).mpr rfl)

theorem glob_star (p t : Str) : Glob ('*' :: p) t ↔ ∃ a b, t = a ++ b ∧ Glob p b := by
  constructor
  · intro g
    cases g with
    | lit _ _ _ h => exact absurd rfl h
    | star a _ t' g' => exact ⟨a, t', rfl, g'⟩
  · rintro ⟨a, b, rfl, g⟩; exact .star a p b g

theorem glob_plain_append : ∀ (p q t : Str), '*' ∉ p → (Glob (p ++ q) t ↔ ∃ b, t = p ++ b ∧ Glob q b)
  | [], q, t, _ => by simp
  | c :: p, q, t, h => by
    simp only [List.mem_cons, not_or] at h
    constructor
    · intro g
      cases g with
      | lit _ _ t' _ g' =>
        obtain ⟨b, rfl, gb⟩ := (glob_plain_append p q t' h.2).mp g'
        exact ⟨b, rfl, gb⟩
      | star => exact absurd rfl h.1
    · rintro ⟨b, rfl, gb⟩
      exact .lit c (p ++ q) (p ++ b) (fun e => h.1 e.symm) ((glob_plain_append p q _ h.2).mpr ⟨b, rfl, gb⟩)

theorem glob_only_star (t : Str) : Glob ['*'] t :=
  (glob_star [] t).mpr ⟨t, [], by simp, .nil⟩

/-! ## C41 -/

open Classical in
/-- **C41, the four forms.**  For every requirement text and every platform: `*` matches; `*m*` is
substring search; `*m` (no trailing `*`) is suffix matching; `m*` (no leading `*`) is prefix matching; a text
with neither is compared for equality.  None of these panics. -/
theorem C41_forms (p : Platform) :
    (⟨['*']⟩ : PlatformReq).matches p = .ok true ∧
    (∀ m, (⟨'*' :: (m ++ ['*'])⟩ : PlatformReq).matches p = .ok (decide (∃ a b, p.triple = a ++ m ++ b))) ∧
    (∀ m, m ≠ [] → m.getLast? ≠ some '*' →
      (⟨'*' :: m⟩ : PlatformReq).matches p = .ok (decide (∃ a, p.triple = a ++ m))) ∧
    (∀ m, m ≠ [] → m.head? ≠ some '*' →
      (⟨m ++ ['*']⟩ : PlatformReq).matches p = .ok (decide (∃ b, p.triple = m ++ b))) ∧
    (∀ m, m ≠ [] → m.head? ≠ some '*' → m.getLast? ≠ some '*' →
      (⟨m⟩ : PlatformReq).matches p = .ok (decide (p.triple = m))) := by
  refine ⟨by simp [PlatformReq.matches], ?_, ?_, ?_, ?_⟩
  · intro m
    have : containsStr p.triple m = decide (∃ a b, p.triple = a ++ m ++ b) := by
      rw [Bool.eq_iff_iff, containsStr_iff]; simp
    simp [PlatformReq.matches, this]
  · intro m hm hl
    have : m.isSuffixOf p.triple = decide (∃ a, p.triple = a ++ m) := by
      rw [Bool.eq_iff_iff, List.isSuffixOf_iff_suffix, decide_eq_true_iff, List.IsSuffix]
      exact ⟨fun ⟨a, h⟩ => ⟨a, h.symm⟩, fun ⟨a, h⟩ => ⟨a, h.symm⟩⟩
    simp [PlatformReq.matches, hm, hl, this]
  · intro m hm hh
    obtain ⟨c, rest, rfl⟩ := List.exists_cons_of_ne_nil hm
    have hc : c ≠ '*' := by simpa using hh
    have : (c :: rest).isPrefixOf p.triple = decide (∃ b, p.triple = (c :: rest) ++ b) := by
      rw [Bool.eq_iff_iff, List.isPrefixOf_iff_prefix, decide_eq_true_iff, List.IsPrefix]
      exact ⟨fun ⟨a, h⟩ => ⟨a, h.symm⟩, fun ⟨a, h⟩ => ⟨a, h.symm⟩⟩
    have hd : (c :: (rest ++ ['*'])).dropLast = c :: rest := by
      rw [← List.cons_append, List.dropLast_concat]
    simp only [PlatformReq.matches, List.cons_append, hc, false_and, if_false, decide_false,
      Bool.false_eq_true, List.getLast?_append, List.getLast?_singleton, Option.some_or, decide_true, if_true, hd,
      this]
  · intro m hm hh hl
    obtain ⟨c, rest, rfl⟩ := List.exists_cons_of_ne_nil hm
    have hc : c ≠ '*' := by simpa using hh
    have hr : rest.getLast? ≠ some '*' := by
      cases rest with
      | nil => simp
      | cons d r => simpa [List.getLast?_cons_cons] using hl
    simp only [PlatformReq.matches, hc, false_and, if_false, decide_false, Bool.false_eq_true, hr]
    congr 1
    exact decide_eq_decide.mpr eq_comm

example : (⟨"*windows*".toList⟩ : PlatformReq).matches
    ⟨"x86_64-pc-windows-gnu".toList, .x86_64, .windows, .gnu, .little, .u64, .one⟩ = .ok true := by decide +kernel

/-- **C41, no panic.**  `matches` panics exactly for the empty text, which `from_str` does not accept, and it
never fails otherwise. -/
theorem C41_panic_iff (r : PlatformReq) (p : Platform) :
    r.matches p = .panic ↔ r.text = [] := by
  unfold PlatformReq.matches
  constructor
  · intro h
    split at h
    · assumption
    · simp only at h
      repeat' split at h
      all_goals exact absurd h (by simp)
  · intro h; rw [h]

theorem matches_ok (r : PlatformReq) (h : r.text ≠ []) (p : Platform) : ∃ b, r.matches p = .ok b := by
  unfold PlatformReq.matches
  split
  · contradiction
  · simp only
    repeat' split
    all_goals exact ⟨_, rfl⟩

theorem firstMatch_spec (r : PlatformReq) (h : r.text ≠ []) : ∀ ps : List Platform,
    (∃ p ∈ ps, r.matches p = .ok true ∧ firstMatch r ps = .ok (some p)) ∨
    ((∀ p ∈ ps, r.matches p = .ok false) ∧ firstMatch r ps = .ok none)
  | [] => by right; simp [firstMatch]
  | p :: ps => by
    obtain ⟨b, hb⟩ := matches_ok r h p
    cases b with
    | true => left; exact ⟨p, by simp, hb, by simp [firstMatch, hb]⟩
    | false =>
      rcases firstMatch_spec r h ps with ⟨q, hq, hm, hf⟩ | ⟨hn, hf⟩
      · left; exact ⟨q, by simp [hq], hm, by simp [firstMatch, hb, hf]⟩
      · right
        refine ⟨?_, by simp [firstMatch, hb, hf]⟩
        intro q hq
        rcases List.mem_cons.mp hq with rfl | hq
        · exact hb
        · exact hn q hq

/-- **C41, acceptance.**  `from_str` never panics; it accepts exactly the nonempty texts that match a known
platform, and keeps the text. -/
theorem C41_from_str (s : Str) (r : PlatformReq) :
    PlatformReq.fromStr s ≠ .panic ∧
    (PlatformReq.fromStr s = .ok r ↔ r = ⟨s⟩ ∧ s ≠ [] ∧ ∃ p ∈ Platform.all, r.matches p = .ok true) := by
  unfold PlatformReq.fromStr
  by_cases h : s = []
  · subst h; simp
  · rcases firstMatch_spec ⟨s⟩ h Platform.all with ⟨p, hp, hm, hf⟩ | ⟨hn, hf⟩
    · simp only [hf, List.isEmpty_iff, h, if_false, ne_eq, reduceCtorEq, not_false_eq_true, true_and,
        Outcome.ok.injEq]
      constructor
      · rintro rfl; exact ⟨rfl, p, hp, hm⟩
      · rintro ⟨rfl, _⟩; rfl
    · simp only [hf, List.isEmpty_iff, h, if_false, ne_eq, reduceCtorEq, not_false_eq_true, true_and,
        false_iff]
      rintro ⟨rfl, p, hp, hm⟩
      rw [hn p hp] at hm; cases hm

example : PlatformReq.fromStr "*-musl".toList = .ok ⟨"*-musl".toList⟩ ∧
    PlatformReq.fromStr "derp".toList = .err ∧ PlatformReq.fromStr [] = .err := by
  refine ⟨?_, ?_, ?_⟩ <;> decide +kernel

/-- **C41, accepted requirements never panic.** -/
theorem C41_accepted_no_panic (s : Str) (r : PlatformReq) (h : PlatformReq.fromStr s = .ok r) (p : Platform) :
    ∃ b, r.matches p = .ok b := by
  obtain ⟨rfl, hs, _⟩ := ((C41_from_str s r).2).mp h
  exact matches_ok _ hs p

/-- **C41, globbing.**  For a nonempty requirement whose only `*` are its first and last characters,
`matches` is glob matching: `*` stands for any text and every other character for itself. -/
theorem C41_glob (s : Str) (hs : s ≠ []) (hw : WildcardsAtEnds s) (p : Platform) :
    (⟨s⟩ : PlatformReq).matches p = .ok true ↔ Glob s p.triple := by
  obtain ⟨c, rest, rfl⟩ := List.exists_cons_of_ne_nil hs
  simp only [WildcardsAtEnds, List.drop_one, List.tail_cons] at hw
  obtain ⟨f1, f2, f3, f4, f5⟩ := C41_forms p
  by_cases hc : c = '*'
  · subst hc
    by_cases hr : rest = []
    · subst hr; simp [f1, glob_only_star]
    · by_cases hl : rest.getLast? = some '*'
      · obtain ⟨m, rfl⟩ : ∃ m, rest = m ++ ['*'] :=
          ⟨rest.dropLast, (List.dropLast_append_getLast? _ (by simp [hl])).symm⟩
        rw [f2 m]
        simp only [List.dropLast_concat] at hw
        simp only [Outcome.ok.injEq, decide_eq_true_eq]
        rw [glob_star]
        constructor
        · rintro ⟨a, b, h⟩
          refine ⟨a, m ++ b, by simp [h], (glob_plain_append m _ _ hw).mpr ⟨b, rfl, glob_only_star b⟩⟩
        · rintro ⟨a, b, h, g⟩
          obtain ⟨b', rfl, _⟩ := (glob_plain_append m _ _ hw).mp g
          exact ⟨a, b', by simp [h]⟩
      · rw [f3 rest hr hl]
        have hw' : '*' ∉ rest := by
          intro hm
          rw [← List.dropLast_append_getLast hr, List.mem_append] at hm
          rcases hm with hm | hm
          · exact hw hm
          · apply hl
            rw [List.getLast?_eq_some_getLast hr]
            simp at hm; rw [← hm]
        simp only [Outcome.ok.injEq, decide_eq_true_eq]
        rw [glob_star]
        constructor
        · rintro ⟨a, h⟩; exact ⟨a, rest, h, (glob_plain _ _ hw').mpr rfl⟩
        · rintro ⟨a, b, h, g⟩; rw [(glob_plain _ _ hw').mp g] at h; exact ⟨a, h⟩
  · by_cases hl : rest.getLast? = some '*'
    · obtain ⟨m, rfl⟩ : ∃ m, rest = m ++ ['*'] :=
        ⟨rest.dropLast, (List.dropLast_append_getLast? _ (by simp [hl])).symm⟩
      have := f4 (c :: m) (by simp) (by simpa using hc)
      rw [List.cons_append] at this
      rw [this]
      simp only [List.dropLast_concat] at hw
      have hw' : '*' ∉ c :: m := by simp [hw, Ne.symm hc]
      simp only [Outcome.ok.injEq, decide_eq_true_eq]
      have g := glob_plain_append (c :: m) ['*'] p.triple hw'
      rw [List.cons_append] at g
      rw [g]
      exact ⟨fun ⟨b, h⟩ => ⟨b, h, glob_only_star b⟩, fun ⟨b, h, _⟩ => ⟨b, h⟩⟩
    · have hl' : (c :: rest).getLast? ≠ some '*' := by
        cases rest with
        | nil => simpa using hc
        | cons d r => simpa [List.getLast?_cons_cons] using hl
      rw [f5 (c :: rest) (by simp) (by simpa using hc) hl']
      have hw' : '*' ∉ c :: rest := by
        intro hm
        rcases List.mem_cons.mp hm with h | hm
        · exact hc h.symm
        · have hr : rest ≠ [] := by rintro rfl; simp at hm
          rw [← List.dropLast_append_getLast hr, List.mem_append] at hm
          rcases hm with hm | hm
          · exact hw hm
          · apply hl
            rw [List.getLast?_eq_some_getLast hr]
            simp at hm; rw [← hm]
      simp [glob_plain _ _ hw']

example : WildcardsAtEnds "*windows*".toList ∧ ¬ WildcardsAtEnds "x86_64-*-gnu".toList ∧
    ¬ WildcardsAtEnds "***".toList := by decide

/-- No known target triple contains a `*`. -/
theorem no_star : ∀ p ∈ Platform.all, '*' ∉ p.triple := by
  have : (Platform.all.all fun p => !(p.triple.contains '*')) = true := by decide +kernel
  intro p hp hm
  have := List.all_eq_true.mp this p hp
  simp [hm] at this

/-- **C41, what is accepted is a glob.**  `from_str` accepts a text exactly if its only wildcards are at its
ends and, read as a glob, it matches some known platform; and then, for every known platform, `matches` is
glob matching.  (A glob with a wildcard in the middle, such as `x86_64-*-gnu`, is rejected even though it
has matches.) -/
theorem C41_accepted (s : Str) :
    ((PlatformReq.fromStr s).isOk = true ↔
      s ≠ [] ∧ WildcardsAtEnds s ∧ ∃ p ∈ Platform.all, Glob s p.triple) ∧
    (∀ r, PlatformReq.fromStr s = .ok r → ∀ p ∈ Platform.all, (r.matches p = .ok true ↔ Glob s p.triple)) := by
  -- a requirement matching a text without `*` has no interior `*`
  have key : ∀ p ∈ Platform.all, (⟨s⟩ : PlatformReq).matches p = .ok true → WildcardsAtEnds s := by
    intro p hp hm hw
    have hn := no_star p hp
    cases s with
    | nil => simp at hw
    | cons c rest =>
      simp only [List.drop_one, List.tail_cons] at hw
      have hr : rest ≠ [] := by rintro rfl; simp at hw
      unfold PlatformReq.matches at hm
      simp only [hr, and_false, if_false] at hm
      split at hm
      · split at hm
        · obtain ⟨a, b, h⟩ := (containsStr_iff _ _).mp (Outcome.ok.inj hm)
          exact hn (by rw [h]; simp [hw])
        · have := (List.isSuffixOf_iff_suffix.mp (Outcome.ok.inj hm)).subset (List.mem_of_mem_dropLast hw)
          exact hn this
      · split at hm
        · have := (List.isPrefixOf_iff_prefix.mp (Outcome.ok.inj hm)).subset
            (show '*' ∈ (c :: rest).dropLast by rw [List.dropLast_cons_of_ne_nil hr]; simp [hw])
          exact hn this
        · have h := of_decide_eq_true (Outcome.ok.inj hm)
          exact hn (by rw [← h]; simp [List.mem_of_mem_dropLast hw])
  have acc : (PlatformReq.fromStr s).isOk = true ↔ ∃ r, PlatformReq.fromStr s = .ok r := by
    cases PlatformReq.fromStr s <;> simp [Outcome.isOk]
  constructor
  · rw [acc]
    constructor
    · rintro ⟨r, h⟩
      obtain ⟨rfl, hs, p, hp, hm⟩ := ((C41_from_str s r).2).mp h
      have hw := key p hp hm
      exact ⟨hs, hw, p, hp, (C41_glob s hs hw p).mp hm⟩
    · rintro ⟨hs, hw, p, hp, g⟩
      exact ⟨⟨s⟩, ((C41_from_str s ⟨s⟩).2).mpr ⟨rfl, hs, p, hp, (C41_glob s hs hw p).mpr g⟩⟩
  · intro r h p hp
    obtain ⟨rfl, hs, q, hq, hm⟩ := ((C41_from_str s r).2).mp h
    exact C41_glob s hs (key q hq hm) p

example : (PlatformReq.fromStr "sparc*".toList).isOk = true ∧
    (PlatformReq.fromStr "x86_64-*-gnu".toList).isOk = false ∧
    (PlatformReq.fromStr "***".toList).isOk = false ∧ (PlatformReq.fromStr "**".toList).isOk = true := by
  refine ⟨?_, ?_, ?_, ?_⟩ <;> decide +kernel

/-- **C41, `matching_platforms`** lists exactly the matching platforms, in table order. -/
theorem C41_matching_platforms (s : Str) (r : PlatformReq) (h : PlatformReq.fromStr s = .ok r)
    (ps : List Platform) :
    matchingPlatforms r ps = .ok (ps.filter fun p => decide (r.matches p = .ok true)) := by
  induction ps with
  | nil => rfl
  | cons p ps ih =>
    obtain ⟨b, hb⟩ := C41_accepted_no_panic s r h p
    cases b <;> simp [matchingPlatforms, hb, ih]

/-! ## C42 -/

/-- Lexicographic comparison of texts, as a Boolean. -/
def ltStr : Str → Str → Bool
  | _, [] => false
  | [], _ :: _ => true
  | a :: s, b :: t => Nat.blt a.toNat b.toNat || (Nat.beq a.toNat b.toNat && ltStr s t)

theorem ltStr_sound : ∀ s t : Str, ltStr s t = true → s < t
  | s, [], h => by cases s <;> simp [ltStr] at h
  | [], _ :: _, _ => List.nil_lt_cons _ _
  | a :: s, b :: t, h => by
    simp only [ltStr, Bool.or_eq_true, Bool.and_eq_true, Nat.blt_eq, Nat.beq_eq] at h
    rw [List.cons_lt_cons_iff]
    rcases h with h | ⟨h, h'⟩
    · left; exact h
    · right
      exact ⟨Char.toNat_inj.mp h, ltStr_sound s t h'⟩

/-- Neighbouring texts are in ascending order. -/
def ascending : List Str → Bool
  | a :: b :: l => ltStr a b && ascending (b :: l)
  | _ => true

/-- The table is in strictly ascending order of the target triples. -/
theorem triples_sorted : (Platform.all.map Platform.triple).Pairwise (· < ·) := by
  have h : ∀ l : List Str, ascending l = true → l.IsChain (· < ·) := by
    intro l
    induction l with
    | nil => intro _; exact .nil
    | cons a l ih =>
      cases l with
      | nil => intro _; exact .singleton a
      | cons b l =>
        intro h
        simp only [ascending, Bool.and_eq_true] at h
        exact .cons_cons (ltStr_sound a b h.1) (ih h.2)
  rw [← List.isChain_iff_pairwise]
  exact h _ (by decide +kernel)

/-- **C42, uniqueness.**  No target triple occurs twice in the table. -/
theorem C42_unique : (Platform.all.map Platform.triple).Nodup :=
  triples_sorted.imp fun h e => by rw [e] at h; exact List.lt_irrefl _ h

theorem triple_inj {p q : Platform} (hp : p ∈ Platform.all) (hq : q ∈ Platform.all)
    (h : p.triple = q.triple) : p = q :=
  List.inj_on_of_nodup_map C42_unique hp hq h

/-- **C42, `find`.**  `Platform::find(t)` is `Some(p)` exactly if `p` is in the table and its target triple
is `t`; so it is `None` exactly for texts that are no target triple, and inverts `target_triple`. -/
theorem C42_find (t : Str) (p : Platform) :
    Platform.find t = some p ↔ p ∈ Platform.all ∧ p.triple = t := by
  unfold Platform.find
  constructor
  · intro h
    exact ⟨List.mem_of_find?_eq_some h, by simpa using List.find?_some h⟩
  · rintro ⟨hp, rfl⟩
    cases h : Platform.all.find? fun q => q.triple = p.triple with
    | none => exact absurd (List.find?_eq_none.mp h p hp) (by simp)
    | some q =>
      have hq := List.mem_of_find?_eq_some h
      have := List.find?_some h
      simp only [decide_eq_true_eq] at this
      rw [triple_inj hq hp this]

example : (Platform.find "x86_64-unknown-linux-gnu".toList).map (fun p => (p.os, p.tier)) = some (.linux, .one) ∧
    Platform.find "x86_64".toList = none := by
  refine ⟨?_, ?_⟩ <;> decide +kernel

/-- **C42, triples as requirements.**  The target triple of every platform is accepted as a requirement,
and it matches that platform and no other. -/
theorem C42_triple_req (p : Platform) (hp : p ∈ Platform.all) :
    PlatformReq.fromStr p.triple = .ok ⟨p.triple⟩ ∧
    ∀ q ∈ Platform.all, ((⟨p.triple⟩ : PlatformReq).matches q = .ok true ↔ q = p) := by
  have hn := no_star p hp
  have hne : p.triple ≠ [] := by
    have : (Platform.all.all fun p => !p.triple.isEmpty) = true := by decide +kernel
    have := List.all_eq_true.mp this p hp
    simpa using this
  have hw : WildcardsAtEnds p.triple := fun h => hn (List.mem_of_mem_drop (List.mem_of_mem_dropLast h))
  have hg : ∀ q, (⟨p.triple⟩ : PlatformReq).matches q = .ok true ↔ q.triple = p.triple := fun q => by
    rw [C41_glob _ hne hw, glob_plain _ _ hn]
  exact ⟨((C41_from_str _ _).2).mpr ⟨rfl, hne, p, hp, (hg p).mpr rfl⟩,
    fun q hq => by rw [hg q]; exact ⟨fun h => triple_inj hq hp h, fun h => by rw [h]⟩⟩

/-- A name table: every value is listed under its own name, and nothing else is. -/
def NameTable {α : Type} (asStr : α → Str) (fromStr : Str → Option α) : Prop :=
  (∀ a, fromStr (asStr a) = some a) ∧ (∀ s a, fromStr s = some a → asStr a = s)

theorem lookup_asStr {α : Type} [DecidableEq α] (asStr : α → Str) :
    ∀ (table : List (Str × α)), (table.all fun e => decide (asStr e.2 = e.1)) = true →
      ∀ s a, table.lookup s = some a → asStr a = s
  | [], _, s, a, h => by simp at h
  | (k, x) :: t, ht, s, a, h => by
    simp only [List.all_cons, Bool.and_eq_true, decide_eq_true_eq] at ht
    rw [List.lookup_cons] at h
    by_cases e : s = k
    · subst e; simp at h; subst h; exact ht.1
    · have : (s == k) = false := by simpa using e
      rw [this] at h
      exact lookup_asStr asStr t ht.2 s a h

/-- **C42, names.**  For architectures, operating systems, environments, endiannesses, pointer widths and
tiers, `from_str` accepts exactly the strings `as_str` produces, and is its inverse. -/
theorem C42_names :
    NameTable Arch.asStr Arch.fromStr ∧ NameTable Os.asStr Os.fromStr ∧ NameTable Env.asStr Env.fromStr ∧
    NameTable Endian.asStr Endian.fromStr ∧ NameTable PointerWidth.asStr PointerWidth.fromStr ∧
    NameTable Tier.asStr Tier.fromStr := by
  refine ⟨⟨?_, lookup_asStr _ _ (by decide +kernel)⟩, ⟨?_, lookup_asStr _ _ (by decide +kernel)⟩,
    ⟨?_, lookup_asStr _ _ (by decide +kernel)⟩, ⟨?_, lookup_asStr _ _ (by decide +kernel)⟩,
    ⟨?_, lookup_asStr _ _ (by decide +kernel)⟩, ⟨?_, lookup_asStr _ _ (by decide +kernel)⟩⟩ <;>
  · intro a; cases a <;> decide +kernel

example : Os.fromStr "macos".toList = some .macOS ∧ Os.fromStr "darwin".toList = none ∧
    Os.fromStr "Linux".toList = none := by refine ⟨?_, ?_, ?_⟩ <;> decide +kernel

/-- **C42, numbers.**  The numeric forms of tiers and pointer widths are inverse to each other, the textual
pointer width is the decimal text of the number, and a tier's text is `tier` and its number. -/
theorem C42_numbers :
    (∀ t : Tier, Tier.tryFrom t.toUsize = some t) ∧ (∀ n t, Tier.tryFrom n = some t → t.toUsize = n) ∧
    (∀ w : PointerWidth, PointerWidth.tryFrom w.toU8 = some w) ∧
    (∀ n w, PointerWidth.tryFrom n = some w → w.toU8 = n) ∧
    (∀ w : PointerWidth, w.asStr = showNat w.toU8) ∧
    (∀ t : Tier, t.asStr = "tier".toList ++ showNat t.toUsize) := by
  refine ⟨by rintro (_ | _ | _) <;> rfl, ?_, by rintro (_ | _ | _) <;> rfl, ?_, ?_, ?_⟩
  · intro n t h
    unfold Tier.tryFrom at h
    split at h <;> first | (cases h; rfl) | cases h
  · intro n t h
    unfold PointerWidth.tryFrom at h
    split at h <;> first | (cases h; rfl) | cases h
  · rintro (_ | _ | _) <;> decide +kernel
  · rintro (_ | _ | _) <;> decide +kernel

end Verif.Props
