import Verif.Props.Versions

/-!
# C07: agreement with `semver::VersionReq::matches`
-/

namespace Verif.Props

open Verif.Semver Verif.Osv Verif.Spec

theorem cmp_then_lt {a b : Nat} {o : Ordering} :
    (compare a b).then o = .lt ↔ a < b ∨ (a = b ∧ o = .lt) := by
  rcases Nat.lt_trichotomy a b with h | h | h
  · simp [Nat.compare_eq_lt.mpr h, h]
  · simp [h]
  · simp [Nat.compare_eq_gt.mpr h]; omega

theorem cmp_then_gt {a b : Nat} {o : Ordering} :
    (compare a b).then o = .gt ↔ b < a ∨ (a = b ∧ o = .gt) := by
  rcases Nat.lt_trichotomy a b with h | h | h
  · simp [Nat.compare_eq_lt.mpr h]; omega
  · simp [h]
  · simp [Nat.compare_eq_gt.mpr h, h]

theorem precLT_nums {a b : Version} : PrecLT a b ↔
    a.major < b.major ∨ (a.major = b.major ∧ (a.minor < b.minor ∨ (a.minor = b.minor ∧
      (a.patch < b.patch ∨ (a.patch = b.patch ∧ Pre.cmp a.pre b.pre = .lt))))) := by
  simp only [PrecLT, Version.cmpPrec, cmp_then_lt]

theorem precLE_nums {a b : Version} : PrecLE a b ↔
    ¬ (b.major < a.major ∨ (a.major = b.major ∧ (b.minor < a.minor ∨ (a.minor = b.minor ∧
      (b.patch < a.patch ∨ (a.patch = b.patch ∧ Pre.cmp a.pre b.pre = .gt)))))) := by
  simp only [PrecLE, Version.cmpPrec, cmp_then_gt, ne_eq]

theorem preCmp_nil_right (p : Pre) : Pre.cmp p [] = if p = [] then .eq else .lt := by
  cases p <;> simp [Pre.cmp]
theorem preCmp_nil_left (p : Pre) : Pre.cmp [] p = if p = [] then .eq else .gt := by
  cases p <;> simp [Pre.cmp]

/-- A comparator that pins down its version where the operator needs it: `=`, `>` and `<=` with all three
numbers. Other operators may be partial. -/
def Precise (c : Comparator) : Prop :=
  (c.op = .exact ∨ c.op = .greater ∨ c.op = .lessEq) → c.patch ≠ none

instance (c : Comparator) : Decidable (Precise c) := by unfold Precise; infer_instance

section
set_option hygiene false in
local macro "solve" : tactic => `(tactic|
  (intro h1 h2
   have l0 : ∀ p : Pre, Pre.cmp [] p = .lt ↔ False := by intro p; cases p <;> simp [Pre.cmp]
   have g0 : ∀ p : Pre, Pre.cmp p [] = .gt ↔ False := by intro p; cases p <;> simp [Pre.cmp]
   have l1 : ∀ p : Pre, Pre.cmp p [] = .lt ↔ p ≠ [] := by intro p; cases p <;> simp [Pre.cmp]
   have g1 : ∀ p : Pre, Pre.cmp [] p = .gt ↔ p ≠ [] := by intro p; cases p <;> simp [Pre.cmp]
   rcases mi with _ | mi <;> rcases pa with _ | pa <;>
     simp only [precLT_nums, precLE_nums, PrecEq, named, caretLimit, tildeLimit, lowest, l0, l1, g0, g1,
       matchesExact, matchesGreater, matchesLess, matchesTilde, matchesCaret, Option.getD] <;>
     grind))

theorem admits_iff_matches {c : Comparator} (hwf : c.WF) (hw : c.op ≠ .wildcard) (hp : Precise c)
    {w : Version} (hrel : w.pre = []) : Admits c w ↔ c.matchesImpl w = true := by
  obtain ⟨op, M, mi, pa, pre⟩ := c
  obtain ⟨wM, wm, wp, wpre, wb⟩ := w
  simp only at hrel
  subst hrel
  obtain ⟨h1, h2, -⟩ := hwf
  revert h1 h2
  cases op
  · have hp : pa ≠ none := hp (by simp)
    simp only [Admits, Comparator.matchesImpl]
    solve
  · have hp : pa ≠ none := hp (by simp)
    simp only [Admits, Comparator.matchesImpl]
    solve
  · simp only [Admits, Comparator.matchesImpl, Bool.or_eq_true]
    solve
  · simp only [Admits, Comparator.matchesImpl]
    solve
  · have hp : pa ≠ none := hp (by simp)
    simp only [Admits, Comparator.matchesImpl, Bool.or_eq_true]
    solve
  · simp only [Admits, Comparator.matchesImpl]
    solve
  · simp only [Admits, Comparator.matchesImpl]
    solve
  · exact absurd rfl hw

end

theorem covers_iff_matches {r : VersionReq} (hwf : ReqWF r) (hs : Supported r)
    (hp : ∀ c ∈ r.comparators, Precise c) {w : Version} (hrel : w.pre = []) :
    Covers r w ↔ r.isMatch w = true := by
  have hnw : ∀ c ∈ r.comparators, c.op ≠ .wildcard := by
    obtain ⟨cs⟩ := r
    match cs with
    | [] => simp
    | [c] => simpa [Supported] using hs
    | [a, b] =>
      rcases hs with ⟨ha | ha, hb | hb, -⟩ | ⟨ha | ha, hb | hb, -⟩ <;> simp [ha, hb]
    | _ :: _ :: _ :: _ => exact hs.elim
  have key : Covers r w ↔ ∀ c ∈ r.comparators, c.matchesImpl w = true := by
    constructor <;> intro h c hc
    · exact (admits_iff_matches (hwf c hc) (hnw c hc) (hp c hc) hrel).mp (h c hc)
    · exact (admits_iff_matches (hwf c hc) (hnw c hc) (hp c hc) hrel).mpr (h c hc)
  rw [key, VersionReq.isMatch]
  simp [hrel]

/-- **C07.** For release versions, and requirements whose `=`, `>`, `<=` comparators name all three
numbers, a version is reported not vulnerable exactly when some requirement matches it according to the
`semver` crate. -/
theorem C07_agrees_with_semver_matches (patched unaffected : List VersionReq) (vs : Versions)
    (hwf : ∀ r ∈ patched ++ unaffected, ReqWF r) (h : Versions.new patched unaffected = .ok vs)
    (hp : ∀ r ∈ patched ++ unaffected, ∀ c ∈ r.comparators, Precise c) (w : Version) (hrel : w.pre = []) :
    ∃ b, vs.isVulnerable w = .ok b ∧ (b = false ↔ ∃ r ∈ patched ++ unaffected, r.isMatch w = true) := by
  obtain ⟨b, hb, hb'⟩ := C01_is_vulnerable_iff patched unaffected vs hwf h w
  refine ⟨b, hb, ?_⟩
  have hvs : vs = ⟨patched, unaffected⟩ := by
    unfold Versions.new at h
    cases hu : unaffectedToOsvRanges unaffected patched <;> rw [hu] at h <;> simp at h
    exact h.symm
  subst hvs
  have hsup := ((C02_ok_iff patched unaffected hwf).mp h).1
  have : (∀ r ∈ patched ++ unaffected, ¬ Covers r w) ↔ ∀ r ∈ patched ++ unaffected, ¬ r.isMatch w = true := by
    constructor <;> intro h' r hr
    · rw [← covers_iff_matches (hwf r hr) (hsup r hr) (hp r hr) hrel]; exact h' r hr
    · rw [covers_iff_matches (hwf r hr) (hsup r hr) (hp r hr) hrel]; exact h' r hr
  rw [← Bool.not_eq_true, hb', this]
  simp only [not_forall, not_not, exists_prop]

example :
    let p := [req .caret 1 2 3, req .greaterEq 2 0 1]
    (∀ r ∈ p ++ [], ReqWF r) ∧ Versions.new p [] = .ok ⟨p, []⟩ ∧ (∀ r ∈ p ++ [], ∀ c ∈ r.comparators, Precise c) ∧
    Versions.isVulnerable ⟨p, []⟩ (.release 2 0 0) = .ok true ∧
    Versions.isVulnerable ⟨p, []⟩ (.release 1 9 0) = .ok false := by decide +kernel

/-- **C07 (the code deviates).** With a partial `=`, `>` or `<=` comparator the answers differ: `=1.0`
matches 1.0.5 for Cargo, yet 1.0.5 is reported vulnerable; `>1.0` does not match 1.0.1 for Cargo, yet 1.0.1 is
reported as patched; `<=1.0` matches 1.0.1 for Cargo, yet 1.0.1 is reported vulnerable. -/
theorem C07_partial_comparators_differ :
    (∃ r, ReqWF r ∧ Versions.new [r] [] = .ok ⟨[r], []⟩ ∧ r.isMatch (.release 1 0 5) = true ∧
      Versions.isVulnerable ⟨[r], []⟩ (.release 1 0 5) = .ok true) ∧
    (∃ r, ReqWF r ∧ Versions.new [r] [] = .ok ⟨[r], []⟩ ∧ r.isMatch (.release 1 0 1) = false ∧
      Versions.isVulnerable ⟨[r], []⟩ (.release 1 0 1) = .ok false) ∧
    (∃ r, ReqWF r ∧ Versions.new [] [r] = .ok ⟨[], [r]⟩ ∧ r.isMatch (.release 1 0 1) = true ∧
      Versions.isVulnerable ⟨[], [r]⟩ (.release 1 0 1) = .ok true) := by
  refine ⟨⟨⟨[{ op := .exact, major := 1, minor := some 0 }]⟩, by decide +kernel⟩,
    ⟨⟨[{ op := .greater, major := 1, minor := some 0 }]⟩, by decide +kernel⟩,
    ⟨⟨[{ op := .lessEq, major := 1, minor := some 0 }]⟩, by decide +kernel⟩⟩

end Verif.Props
