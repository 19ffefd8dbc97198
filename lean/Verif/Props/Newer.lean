import Verif.Props.Audit
import Verif.Lemmas.SemverOrder

/-!
# C49: "an unaffected newer version exists"
-/

namespace Verif.Props

open Verif.Audit Verif.Semver Verif.Spec

/-- **C49.**  If the hint claims that the requirement permits a newer version, some newer version satisfies it. -/
theorem C49_sound (req : VersionReq) (current : Version) (h : permitsNewer req current = true) :
    ∃ v : Version, current < v ∧ req.isMatch v = true := by
  unfold permitsNewer at h
  simp only [List.any_eq_true, Bool.and_eq_true, decide_eq_true_eq] at h
  obtain ⟨v, -, h1, h2⟩ := h
  refine ⟨v, ?_, h2⟩
  exact Version.lt_def.mpr (Std.OrientedCmp.gt_iff_lt.mp h1)

/-! ## Completeness for releases -/

/-- Order of releases. -/
def leR (a b : Version) : Prop :=
  a.major < b.major ∨ (a.major = b.major ∧ (a.minor < b.minor ∨ (a.minor = b.minor ∧ a.patch ≤ b.patch)))

/-- The least release a comparator can match. -/
def lowest (c : Comparator) : List Version :=
  let m := c.minor.getD 0
  let p := c.patch.getD 0
  match c.op with
  | .less | .lessEq => []
  | .greater =>
    match c.minor, c.patch with
    | some m, some p => if c.pre = [] then [⟨c.major, m, p + 1, [], []⟩] else [⟨c.major, m, p, [], []⟩]
    | some m, none => [⟨c.major, m + 1, 0, [], []⟩]
    | none, _ => []
  | _ => [⟨c.major, m, p, [], []⟩]

theorem preCmp_nil : Pre.cmp [] [] = .eq := by decide

theorem preCmp_nil_cons (a : Ident) (l : Pre) : Pre.cmp [] (a :: l) = .gt := by
  simp [Pre.cmp]

theorem lowest_le (c : Comparator) (hwf : c.WF) (v : Version) (hv : v.pre = []) (h : c.matchesImpl v = true) :
    ∀ lo ∈ lowest c, leR lo v := by
  obtain ⟨op, M, mi, pa, pre⟩ := c
  obtain ⟨w1, w2, w3⟩ := hwf
  simp only at w1 w2 w3
  intro lo hlo
  cases op <;> cases mi <;> cases pa <;> cases pre <;>
    simp [lowest, Comparator.matchesImpl, matchesExact, matchesGreater, matchesLess, matchesTilde, matchesCaret, hv,
      preCmp_nil, preCmp_nil_cons] at w1 w2 w3 hlo h <;> subst hlo <;> simp only [leR] <;> grind

theorem matches_convex (c : Comparator) (hwf : c.WF) (hg : ¬ (c.op = .greater ∧ c.minor = none)) (v m : Version)
    (hv : v.pre = []) (hm : m.pre = []) (h : c.matchesImpl v = true) (hlo : ∀ lo ∈ lowest c, leR lo m) (hmv : leR m v) :
    c.matchesImpl m = true := by
  obtain ⟨op, M, mi, pa, pre⟩ := c
  obtain ⟨w1, w2, w3⟩ := hwf
  simp only at w1 w2 w3 hg
  cases op <;> cases mi <;> cases pa <;> cases pre <;>
    simp [lowest, Comparator.matchesImpl, matchesExact, matchesGreater, matchesLess, matchesTilde, matchesCaret, hv, hm,
      preCmp_nil, preCmp_nil_cons, leR] at w1 w2 w3 hg hlo hmv h ⊢ <;> grind

theorem leR_refl (a : Version) : leR a a := by simp [leR]
theorem leR_trans {a b c : Version} (h : leR a b) (h' : leR b c) : leR a c := by unfold leR at *; omega
theorem leR_total (a b : Version) : leR a b ∨ leR b a := by unfold leR; omega

theorem exists_max (x : Version) (l : List Version) : ∃ m ∈ x :: l, ∀ y ∈ x :: l, leR y m := by
  induction l generalizing x with
  | nil => exact ⟨x, by simp, by simp [leR_refl]⟩
  | cons z l ih =>
    obtain ⟨m, hm, h⟩ := ih z
    rcases leR_total x m with hx | hx
    · refine ⟨m, by simp [hm], fun y hy => ?_⟩
      rcases List.mem_cons.mp hy with rfl | hy
      · exact hx
      · exact h y hy
    · refine ⟨x, by simp, fun y hy => ?_⟩
      rcases List.mem_cons.mp hy with rfl | hy
      · exact leR_refl _
      · exact leR_trans (h y hy) hx

theorem isMatch_release (req : VersionReq) (v : Version) (hv : v.pre = []) :
    req.isMatch v = true ↔ ∀ c ∈ req.comparators, c.matchesImpl v = true := by
  unfold VersionReq.isMatch
  rw [hv]
  by_cases h : req.comparators.any (fun c => !c.matchesImpl v) = true
  · rw [if_pos h]
    simp only [List.any_eq_true, Bool.not_eq_true'] at h
    obtain ⟨c, hc, hf⟩ := h
    simp only [Bool.false_eq_true, false_iff]
    intro hh; rw [hh c hc] at hf; cases hf
  · rw [if_neg h]
    simp only [List.any_eq_true, Bool.not_eq_true', not_exists, not_and, Bool.not_eq_false] at h
    simpa using h

/-- **C49, complete for releases.**  When the version in use and the newer version are releases, the hint is given,
except that the requirement must not contain a comparator of the form `>1`. -/
theorem C49_complete_releases (req : VersionReq) (hwf : ∀ c ∈ req.comparators, c.WF)
    (hg : ∀ c ∈ req.comparators, ¬ (c.op = .greater ∧ c.minor = none)) (current v : Version)
    (hcur : current.pre = []) (hv : v.pre = []) (hb : v.build = []) (hlt : current < v) (hm : req.isMatch v = true) :
    permitsNewer req current = true := by
  rw [isMatch_release req v hv] at hm
  have hnext : leR ⟨current.major, current.minor, current.patch + 1, [], []⟩ v := by
    rw [Version.lt_def] at hlt
    unfold Version.cmp Version.cmpPrec at hlt
    rw [hcur, hv, hb] at hlt
    unfold leR
    simp only
    rcases hM : compare current.major v.major with _ | _ | _ <;> rw [hM] at hlt <;>
      simp only [Ordering.then, reduceCtorEq] at hlt
    · rw [Nat.compare_eq_lt] at hM; omega
    · rw [Nat.compare_eq_eq] at hM
      rcases hN : compare current.minor v.minor with _ | _ | _ <;> rw [hN] at hlt <;>
        simp only [reduceCtorEq] at hlt
      · rw [Nat.compare_eq_lt] at hN; omega
      · rw [Nat.compare_eq_eq] at hN
        rcases hP : compare current.patch v.patch with _ | _ | _ <;> rw [hP] at hlt <;>
          simp only [reduceCtorEq] at hlt
        · rw [Nat.compare_eq_lt] at hP; omega
        · rw [preCmp_nil] at hlt
          exact absurd hlt (compareLex_nil_ne_lt _)
  obtain ⟨m, hmem, hmax⟩ := exists_max ⟨current.major, current.minor, current.patch + 1, [], []⟩
    (req.comparators.flatMap lowest)
  have hmv : leR m v := by
    rcases List.mem_cons.mp hmem with rfl | h
    · exact hnext
    · obtain ⟨c, hc, hl⟩ := List.mem_flatMap.mp h
      exact lowest_le c (hwf c hc) v hv (hm c hc) m hl
  have hrel : m.pre = [] := by
    rcases List.mem_cons.mp hmem with rfl | h
    · rfl
    · obtain ⟨c, hc, hl⟩ := List.mem_flatMap.mp h
      unfold lowest at hl
      grind
  unfold permitsNewer
  simp only [List.any_eq_true, Bool.and_eq_true, decide_eq_true_eq]
  refine ⟨m, ?_, ?_, (isMatch_release req m hrel).mpr fun c hc => ?_⟩
  · rcases List.mem_cons.mp hmem with rfl | h
    · simp
    · obtain ⟨c, hc, hl⟩ := List.mem_flatMap.mp h
      refine List.mem_append_right _ (List.mem_flatMap.mpr ⟨c, hc, ?_⟩)
      unfold lowest at hl
      grind
  · have h1 := hmax _ (List.mem_cons_self ..)
    unfold leR at h1
    simp only at h1
    unfold Version.cmp Version.cmpPrec
    rcases h1 with h1 | ⟨e1, h1 | ⟨e2, h1⟩⟩
    · rw [Nat.compare_eq_gt.mpr h1]; rfl
    · rw [← e1, Nat.compare_eq_eq.mpr rfl, Nat.compare_eq_gt.mpr h1]; rfl
    · rw [← e1, ← e2, Nat.compare_eq_eq.mpr rfl, Nat.compare_eq_eq.mpr rfl, Nat.compare_eq_gt.mpr h1]; rfl
  · exact matches_convex c (hwf c hc) (hg c hc) v m hv hrel (hm c hc)
      (fun lo hlo => hmax lo (List.mem_cons_of_mem _ (List.mem_flatMap.mpr ⟨c, hc, hlo⟩))) hmv

/-- **C49, where it says nothing.**  `>1` permits 2.0.0, but from 0.5.0 no hint is given; nor is it when the only newer
version is a pre-release. -/
theorem C49_incomplete :
    (permitsNewer ⟨[⟨.greater, 1, none, none, []⟩]⟩ ⟨0, 5, 0, [], []⟩ = false ∧
      (⟨[⟨.greater, 1, none, none, []⟩]⟩ : VersionReq).isMatch ⟨2, 0, 0, [], []⟩ = true) ∧
    (permitsNewer ⟨[⟨.greaterEq, 1, some 0, some 0, [.num 1]⟩, ⟨.less, 1, some 0, some 0, []⟩]⟩ ⟨0, 9, 0, [], []⟩ = false ∧
      (⟨[⟨.greaterEq, 1, some 0, some 0, [.num 1]⟩, ⟨.less, 1, some 0, some 0, []⟩]⟩ : VersionReq).isMatch
        ⟨1, 0, 0, [.num 1], []⟩ = true) := by
  refine ⟨⟨?_, ?_⟩, ?_, ?_⟩ <;> decide +kernel

/-- The hint is given for `>= 1.6.0, < 2` from 1.5.0, not for `< 1.5`. -/
example :
    permitsNewer ⟨[⟨.greaterEq, 1, some 6, some 0, []⟩, ⟨.less, 2, none, none, []⟩]⟩ ⟨1, 5, 0, [], []⟩ = true ∧
    permitsNewer ⟨[⟨.less, 1, some 5, none, []⟩]⟩ ⟨1, 5, 0, [], []⟩ = false := by
  refine ⟨?_, ?_⟩ <;> decide +kernel

end Verif.Props
