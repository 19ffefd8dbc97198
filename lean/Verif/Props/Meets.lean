import Verif.Spec.Meets
import Verif.Props.VersionsCargo
import Verif.Props.Binary
import Verif.Props.Newer

/-!
# C109: which versions meet a requirement
-/

namespace Verif.Props

open Verif Verif.Semver Verif.Osv Verif.Spec Verif.Bin Verif.Adv Verif.Rep

theorem above_1 (M a b d : Nat) : (∃ before x y rest rest', [M] = before ++ x :: rest ∧ [a, b, d] = before ++ y :: rest' ∧ x < y) ↔ M < a := by
  constructor
  · rintro ⟨before, x, y, rest, rest', h1, h2, h3⟩
    match before with
    | [] => simp at h1 h2; omega
    | _ :: _ => simp at h1
  · intro h; exact ⟨[], M, a, _, _, rfl, rfl, h⟩

theorem above_2 (M m a b d : Nat) :
    (∃ before x y rest rest', [M, m] = before ++ x :: rest ∧ [a, b, d] = before ++ y :: rest' ∧ x < y) ↔
      M < a ∨ (M = a ∧ m < b) := by
  constructor
  · rintro ⟨before, x, y, rest, rest', h1, h2, h3⟩
    match before with
    | [] => simp at h1 h2; omega
    | [_] => simp at h1 h2; omega
    | _ :: _ :: _ => simp at h1
  · rintro (h | ⟨rfl, h⟩)
    · exact ⟨[], M, a, _, _, rfl, rfl, h⟩
    · exact ⟨[M], m, b, _, _, rfl, rfl, h⟩

theorem below_1 (M a b d : Nat) : (∃ before x y rest rest', [M] = before ++ x :: rest ∧ [a, b, d] = before ++ y :: rest' ∧ y < x) ↔ a < M := by
  constructor
  · rintro ⟨before, x, y, rest, rest', h1, h2, h3⟩
    match before with
    | [] => simp at h1 h2; omega
    | _ :: _ => simp at h1
  · intro h; exact ⟨[], M, a, _, _, rfl, rfl, h⟩

theorem below_2 (M m a b d : Nat) :
    (∃ before x y rest rest', [M, m] = before ++ x :: rest ∧ [a, b, d] = before ++ y :: rest' ∧ y < x) ↔
      a < M ∨ (M = a ∧ b < m) := by
  constructor
  · rintro ⟨before, x, y, rest, rest', h1, h2, h3⟩
    match before with
    | [] => simp at h1 h2; omega
    | [_] => simp at h1 h2; omega
    | _ :: _ :: _ => simp at h1
  · rintro (h | ⟨rfl, h⟩)
    · exact ⟨[], M, a, _, _, rfl, rfl, h⟩
    · exact ⟨[M], m, b, _, _, rfl, rfl, h⟩

theorem keeps_1 (M a b d : Nat) :
    (∃ kept rest, [M] = kept ++ rest ∧ kept <+: [a, b, d] ∧ ((∃ n ∈ kept, n ≠ 0) ∨ rest = [])) ↔ M = a := by
  constructor
  · rintro ⟨kept, rest, h1, h2, h3⟩
    match kept with
    | [] => simp at h1 h3; subst h1; cases h3
    | [_] => simp at h1 h2; omega
    | _ :: _ :: _ => simp at h1
  · rintro rfl; exact ⟨[M], [], rfl, ⟨[b, d], rfl⟩, .inr rfl⟩

theorem keeps_2 (M m a b d : Nat) :
    (∃ kept rest, [M, m] = kept ++ rest ∧ kept <+: [a, b, d] ∧ ((∃ n ∈ kept, n ≠ 0) ∨ rest = [])) ↔
      M = a ∧ (M = 0 → m = b) := by
  constructor
  · rintro ⟨kept, rest, h1, h2, h3⟩
    match kept with
    | [] => simp at h1 h3; subst h1; cases h3
    | [_] =>
      simp at h1 h2 h3
      obtain ⟨rfl, rfl⟩ := h1
      simp at h3
      omega
    | [_, _] => simp at h1 h2; omega
    | _ :: _ :: _ :: _ => simp at h1
  · rintro ⟨rfl, h⟩
    by_cases hM : M = 0
    · exact ⟨[M, m], [], rfl, ⟨[d], by rw [h hM]; rfl⟩, .inr rfl⟩
    · exact ⟨[M], [m], rfl, ⟨[b, d], rfl⟩, .inl ⟨M, List.mem_singleton_self _, hM⟩⟩

theorem keeps_3 (M m p a b d : Nat) :
    (∃ kept rest, [M, m, p] = kept ++ rest ∧ kept <+: [a, b, d] ∧ ((∃ n ∈ kept, n ≠ 0) ∨ rest = [])) ↔
      M = a ∧ (M = 0 → m = b) ∧ (M = 0 → m = 0 → p = d) := by
  constructor
  · rintro ⟨kept, rest, h1, h2, h3⟩
    match kept with
    | [] => simp at h1 h3; subst h1; cases h3
    | [_] =>
      simp at h1 h2 h3
      obtain ⟨rfl, rfl⟩ := h1
      simp at h3
      omega
    | [_, _] =>
      simp at h1 h2 h3
      obtain ⟨rfl, rfl, rfl⟩ := h1
      simp at h3
      omega
    | [_, _, _] => simp at h1 h2; omega
    | _ :: _ :: _ :: _ :: _ => simp at h1
  · rintro ⟨rfl, h, h'⟩
    by_cases hM : M = 0
    · have hm := h hM
      subst hm
      by_cases hm : m = 0
      · exact ⟨[M, m, p], [], rfl, ⟨[], by rw [h' hM hm]; rfl⟩, .inr rfl⟩
      · exact ⟨[M, m], [p], rfl, ⟨[d], rfl⟩, .inl ⟨m, by simp, hm⟩⟩
    · exact ⟨[M], [m, p], rfl, ⟨[b, d], rfl⟩, .inl ⟨M, List.mem_singleton_self _, hM⟩⟩

private theorem cmp_swap (p q : Pre) : Pre.cmp q p = (Pre.cmp p q).swap := Std.OrientedCmp.eq_swap

private theorem cmp_eq (p q : Pre) : Pre.cmp p q = .eq ↔ p = q := Std.LawfulEqCmp.compare_eq_iff_eq

private theorem cmp_lt (p q : Pre) : Pre.cmp p q = .lt ↔ Pre.cmp q p = .gt := by
  rw [cmp_swap p q]; cases Pre.cmp p q <;> simp

private theorem exact_or (p q : Pre) : Pre.cmp q p ≠ .gt ↔ p = q ∨ Pre.cmp p q = .gt := by
  rw [cmp_swap p q, ← cmp_eq p q]; cases Pre.cmp p q <;> simp

private theorem exact_or' (p q : Pre) : Pre.cmp p q ≠ .gt ↔ p = q ∨ Pre.cmp p q = .lt := by
  rw [← cmp_eq p q]; cases Pre.cmp p q <;> simp

/-- The comparator of the crate, on every version. -/
theorem meets_iff {c : Comparator} (hwf : c.WF) (w : Version) : Meets c w ↔ c.matchesImpl w = true := by
  obtain ⟨op, M, mi, pa, pre⟩ := c
  obtain ⟨a, b, d, wpre, wb⟩ := w
  obtain ⟨h1, h2, h3⟩ := hwf
  have hnil : Pre.cmp wpre [] ≠ .lt ↔ wpre = [] := by cases wpre <;> simp [Pre.cmp]
  rcases mi with _ | m
  · obtain rfl : pa = none := h1 rfl
    obtain rfl : pre = [] := h2 rfl
    have hf : ¬ Full ⟨op, M, none, none, []⟩ := fun h => h.1 rfl
    unfold Meets
    simp only [hf, false_imp_iff, true_and, not_false_eq_true, true_imp_iff]
    cases op <;>
      simp only [Begins, Above, Below, Compatible, numbers, numbersOf, Option.toList, List.append_nil, above_1, below_1, keeps_1,
        Comparator.matchesImpl, matchesExact, matchesGreater, matchesLess, matchesTilde, matchesCaret] <;>
      simp <;> grind
  · rcases pa with _ | p
    · obtain rfl : pre = [] := h2 rfl
      have hf : ¬ Full ⟨op, M, some m, none, []⟩ := fun h => h.2 rfl
      unfold Meets
      simp only [hf, false_imp_iff, true_and, not_false_eq_true, true_imp_iff]
      cases op <;>
        simp only [Begins, Above, Below, Compatible, numbers, numbersOf, Option.toList, List.append_nil, above_2, below_2, keeps_2,
          Comparator.matchesImpl, matchesExact, matchesGreater, matchesLess, matchesTilde, matchesCaret] <;>
        simp <;> grind
    · have hf : Full ⟨op, M, some m, some p, pre⟩ := ⟨by simp, by simp⟩
      unfold Meets
      simp only [hf, true_imp_iff, not_true_eq_false, false_imp_iff, and_true]
      have e1 := exact_or wpre pre
      have e2 := exact_or' wpre pre
      have e3 := cmp_lt pre wpre
      cases op <;>
        simp only [PrecEq, precLT_nums, precLE_nums, named, Option.getD, Compatible, numbers, numbersOf, Option.toList,
          List.singleton_append, keeps_3,
          Comparator.matchesImpl, matchesExact, matchesGreater, matchesLess, matchesTilde, matchesCaret] <;>
        grind

/-- **Property C109**: `VersionReq::matches` is what `semver` documents, for all requirements and all versions, pre-releases
included. -/
theorem C109_meets {r : VersionReq} (hwf : ReqWF r) (w : Version) : r.isMatch w = true ↔ MeetsAll r w := by
  have hpre : ∀ c ∈ r.comparators, preIsCompatible c w = true ↔ c.pre ≠ [] ∧ numbers c = numbersOf w := by
    intro c hc
    obtain ⟨op, M, mi, pa, pre⟩ := c
    obtain ⟨a, b, d, wpre, wb⟩ := w
    have h1 := (hwf _ hc).1
    unfold preIsCompatible numbers numbersOf
    dsimp only at h1 ⊢
    rw [Bool.and_eq_true, Bool.and_eq_true, Bool.and_eq_true, decide_eq_true_eq, decide_eq_true_eq, decide_eq_true_eq,
      Bool.not_eq_true', List.isEmpty_eq_false_iff, and_comm]
    refine and_congr_right fun _ => ?_
    rcases mi with _ | m <;> rcases pa with _ | q <;> simp [and_assoc]
  unfold VersionReq.isMatch MeetsAll
  by_cases h : r.comparators.any (fun c => !c.matchesImpl w) = true
  · rw [if_pos h]
    obtain ⟨c, hc, hm⟩ := List.any_eq_true.mp h
    refine ⟨(fun h => by cases h), fun hall => ?_⟩
    have := (meets_iff (hwf c hc) w).mp (hall.1 c hc)
    rw [this] at hm; cases hm
  · rw [if_neg h]
    have hall : ∀ c ∈ r.comparators, Meets c w := by
      intro c hc
      rw [meets_iff (hwf c hc)]
      by_contra hm
      exact h (List.any_eq_true.mpr ⟨c, hc, by rw [Bool.not_eq_true] at hm; rw [hm]; rfl⟩)
    by_cases hw : w.pre = []
    · rw [hw]
      exact ⟨fun _ => ⟨hall, fun h => absurd rfl h⟩, fun _ => rfl⟩
    · rw [if_neg (by rwa [List.isEmpty_iff]), List.any_eq_true]
      refine ⟨fun ⟨c, hc, hm⟩ => ⟨hall, fun _ => ⟨c, hc, (hpre c hc).mp hm⟩⟩, fun h => ?_⟩
      obtain ⟨c, hc, hm⟩ := h.2 hw
      exact ⟨c, hc, (hpre c hc).mpr hm⟩

/-- **Property C109** (functions): the functions looked for in a binary are those listed with a requirement that the locked
version meets. -/
theorem C109_functions (v : Vulnerability) (path : List Str)
    (hwf : ∀ af, v.affected = some af → ∀ e ∈ af.functions, ∀ r ∈ e.2, ReqWF r) :
    (∃ l, affectedFunctions v = some l ∧ path ∈ l) ↔
      ∃ af reqs, v.affected = some af ∧ (path, reqs) ∈ af.functions ∧ ∃ r ∈ reqs, MeetsAll r v.package.version := by
  rw [C48_affected_functions]
  constructor
  · rintro ⟨af, reqs, h1, h2, r, h3, h4⟩
    exact ⟨af, reqs, h1, h2, r, h3, (C109_meets (hwf af h1 _ h2 r h3) _).mp h4⟩
  · rintro ⟨af, reqs, h1, h2, r, h3, h4⟩
    exact ⟨af, reqs, h1, h2, r, h3, (C109_meets (hwf af h1 _ h2 r h3) _).mpr h4⟩

/-- **Property C109** (ranges): for releases, and requirements whose `=`, `>` and `<=` write all three numbers, the ranges into
which rustsec turns requirements say the same as `semver`. -/
theorem C109_ranges {r : VersionReq} (hwf : ReqWF r) (hs : Supported r) (hp : ∀ c ∈ r.comparators, Precise c) {w : Version}
    (hrel : w.pre = []) : Covers r w ↔ MeetsAll r w :=
  (covers_iff_matches hwf hs hp hrel).trans (C109_meets hwf w)

/-- **Property C109** (the hint): if the report says that a requirement of an unaffected version permits an upgrade, a newer
version meets that requirement. -/
theorem C109_hint {r : VersionReq} (hwf : ReqWF r) (current : Version) (h : Audit.permitsNewer r current = true) :
    ∃ w : Version, current < w ∧ MeetsAll r w := by
  obtain ⟨w, h1, h2⟩ := C49_sound r current h
  exact ⟨w, h1, (C109_meets hwf w).mp h2⟩

/-! ### Examples -/

private theorem yes {r : VersionReq} {w : Version} (h : (decide (ReqWF r) && r.isMatch w) = true) : MeetsAll r w := by
  rw [Bool.and_eq_true, decide_eq_true_eq] at h
  exact (C109_meets h.1 w).mp h.2

private theorem no {r : VersionReq} {w : Version} (h : (decide (ReqWF r) && !r.isMatch w) = true) : ¬ MeetsAll r w := by
  rw [Bool.and_eq_true, decide_eq_true_eq, Bool.not_eq_true'] at h
  exact fun hm => by rw [(C109_meets h.1 w).mpr hm] at h; cases h.2

/-- A pre-release is met only if it is asked for. -/
example : MeetsAll ⟨[⟨.greaterEq, 1, some 2, some 3, [.num 1]⟩]⟩ ⟨1, 2, 3, [.num 2], []⟩ ∧
    ¬ MeetsAll ⟨[⟨.greaterEq, 1, some 2, some 3, [.num 1]⟩]⟩ ⟨1, 2, 4, [.num 2], []⟩ ∧
    MeetsAll ⟨[⟨.greaterEq, 1, some 2, some 3, [.num 1]⟩]⟩ ⟨1, 2, 4, [], []⟩ ∧
    ¬ MeetsAll ⟨[⟨.caret, 1, none, none, []⟩]⟩ ⟨2, 0, 0, [], []⟩ ∧
    ¬ MeetsAll ⟨[⟨.caret, 0, some 2, some 3, []⟩]⟩ ⟨0, 3, 0, [], []⟩ ∧
    MeetsAll ⟨[⟨.greater, 1, some 2, none, []⟩]⟩ ⟨1, 3, 0, [], []⟩ ∧
    ¬ MeetsAll ⟨[⟨.greater, 1, some 2, none, []⟩]⟩ ⟨1, 2, 9, [], []⟩ :=
  ⟨yes (by decide), no (by decide), yes (by decide), no (by decide), no (by decide), yes (by decide), no (by decide)⟩

end Verif.Props
