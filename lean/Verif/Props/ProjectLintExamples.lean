import Verif.Props.ProjectLint
import Verif.Props.ProjectExamples
import Verif.Props.AdminLintExamples

/-!
# C94: examples
-/

namespace Verif.Props

open Verif.Audit Verif.Adv Verif.Spec Verif.AdminLint

/-- The example project with this advisory. -/
private def lintProject (extra : List String) : Project := exProject (projectLock "1.2.2") none (projectAdvisory extra)

/-- The text of the example passes: its database can be read, and the crate `foo` has this name. -/
example : (lintProject []).runLint (some lintIndex) true ["db".toList] = .ok () ∧
    LintTexts (lintProject []).advLib true lintIndex ((lintProject []).checkoutAt "db".toList) := by
  have h : (lintProject []).runLint (some lintIndex) true ["db".toList] = .ok () := ok_of_isOk (by decide +kernel)
  refine ⟨h, ?_⟩
  obtain ⟨path, lookup, hp | hp, hi, hx⟩ := (C94_exit_zero_iff _ _ _ _).mp h
  · cases hp.1
  · cases hp; cases hi; exact hx

/-- These lines in the text make it fail: an unknown key, a license that is not known, the collection
(which follows from the place), a key twice; and an alias does not. -/
example : (["nope = 1", "license = \"mine\"", "collection = \"crates\"", "package = \"foo\""].all fun s =>
      decide ((lintProject [s]).runLint (some lintIndex) true [] = .err)) = true ∧
    (lintProject ["aliases = [\"CVE-2021-3\"]"]).runLint (some lintIndex) true [] = .ok () := by
  refine ⟨by decide +kernel, ok_of_isOk (by decide +kernel)⟩

/-- The hypotheses of `C94_audit` are met: the linter vouches for the checkout, and `cargo audit` fails for the vulnerability
of the example, and only for that. -/
example (version : String) (hv : version = "1.2.2" ∨ version = "1.2.3") :
    let P := exProject (projectLock version) none (projectAdvisory [])
    ∃ cmd c text l, Configured P cmd c ∧ c.database.fetch = false ∧ c.database.path = some "db".toList ∧
      LockOf P cmd.file text ∧ Lock.Lockfile.fromText (semverCodec P.url) Toml.read text = .ok l ∧ Printable c l ∧
      P.runLint (some lintIndex) true ["db".toList] = .ok () ∧ ((P.run cmd).2 = .code 1 ↔ version = "1.2.2") := by
  intro P
  let cmd : AuditCommand := { outputFormat := some .json, noFetch := true, db := some "db".toList }
  have hconf : (match effectiveConfig P.configWorld cmd with
      | .ok c => decide (c.output.format = .json) && !c.database.fetch && decide (c.database.path = some "db".toList)
      | _ => false) = true := by
    rcases hv with rfl | rfl <;> decide +kernel
  cases hc : effectiveConfig P.configWorld cmd with
  | err => rw [hc] at hconf; cases hconf
  | panic => rw [hc] at hconf; cases hconf
  | ok c =>
    rw [hc] at hconf
    simp only [Bool.and_eq_true, decide_eq_true_eq, Bool.not_eq_true'] at hconf
    have hlock : (match Lock.Lockfile.fromText (semverCodec P.url) Toml.read (projectLock version) with
        | .ok _ => true
        | _ => false) = true := by
      rcases hv with rfl | rfl <;> decide +kernel
    cases hl : Lock.Lockfile.fromText (semverCodec P.url) Toml.read (projectLock version) with
    | err => rw [hl] at hlock; cases hlock
    | panic => rw [hl] at hlock; cases hlock
    | ok l =>
      refine ⟨cmd, c, _, l, (configured_iff P cmd c).mp hc, hconf.1.2, hconf.2, .found rfl (.inl rfl), hl,
        (fun h => by rw [hconf.1.1] at h; cases h), ?_, ?_⟩
      · show (lintProject []).runLint (some lintIndex) true ["db".toList] = .ok ()
        exact ok_of_isOk (by decide +kernel)
      · rcases hv with rfl | rfl
        · have : (P.run cmd).2 = .code 1 := by decide +kernel
          simp [this]
        · have : (P.run cmd).2 = .code 0 := by decide +kernel
          simp [this]

end Verif.Props
