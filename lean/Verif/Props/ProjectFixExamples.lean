import Verif.Props.ProjectFix
import Verif.Props.ProjectExamples

/-!
# Examples for C105
-/

namespace Verif.Props

open Verif Verif.Semver Verif.Osv Verif.Lock Verif.Adv Verif.Audit Verif.Toml Verif.Spec Verif.Rep

private def before (extra : List String) : Project := exProject (projectLock "1.2.2") none (projectAdvisory extra)

private def fixSurroundings (version : String) (starts : Bool) : FixSurroundings where
  parentDir := fun _ => some "/work".toList
  spawns := fun _ => starts
  after := fun _ => exProject (projectLock version) none (projectAdvisory [])

private def jsonCommand : AuditCommand := { outputFormat := some .json, noFetch := true }

/-- `cargo update` is told of the vulnerable package; afterwards it is gone, or not, and the status is 0 in both cases. -/
example :
    ((before []).runFix (fixSurroundings "1.2.3" true) jsonCommand {}) =
      { commands := [⟨false, ["registry+https://github.com/rust-lang/crates.io-index#foo@1.2.2".toList], none⟩],
        unfixed := some [], counts := some (1, 0), exit := .code 0 } ∧
    ((before []).runFix (fixSurroundings "1.2.2" true) jsonCommand {}).counts = some (0, 1) ∧
    ((before []).runFix (fixSurroundings "1.2.2" true) jsonCommand {}).unfixed.map (·.map Id.string) =
      some ["RUSTSEC-2021-0001".toList] ∧
    ((before []).runFix (fixSurroundings "1.2.2" true) jsonCommand {}).exit = .code 0 := by decide +kernel

/-- `cargo` that cannot be started; a dry run with a named lockfile; an informational advisory; no lockfile. -/
example :
    ((before []).runFix (fixSurroundings "1.2.3" false) jsonCommand {}).exit = .code 2 ∧
    ((before []).runFix (fixSurroundings "1.2.3" true) jsonCommand { file := some "Cargo.lock".toList, dryRun := true }) =
      { commands := [⟨true, ["registry+https://github.com/rust-lang/crates.io-index#foo@1.2.2".toList], some "/work".toList⟩],
        exit := .code 0 } ∧
    ((before ["informational = \"notice\""]).runFix (fixSurroundings "1.2.3" true) jsonCommand {}) = { exit := .code 0 } ∧
    ((before []).runFix (fixSurroundings "1.2.3" true) jsonCommand { file := some "x".toList }) = { exit := .code 2 } := by
  decide +kernel

private def okWith {α : Type} (o : Outcome α) (p : α → Bool) : Bool :=
  match o with
  | .ok a => p a
  | _ => false

private theorem okWith_some {α : Type} {o : Outcome α} {p : α → Bool} (h : okWith o p = true) :
    ∃ a, o = .ok a ∧ p a = true := by
  cases o with
  | ok a => exact ⟨a, rfl, h⟩
  | err => cases h
  | panic => cases h

private theorem lockOf_ex (lock adv : Str) : LockOf (exProject lock none adv) none lock := .found rfl (.inl rfl)

private theorem checkoutOf_ex (lock lock' adv : Str) (c : AuditConfig) (h : c.database.fetch = false) :
    CheckoutOf (exProject lock none adv) c ((exProject lock' none adv).checkoutAt []) :=
  CheckoutOf.files (P := exProject lock none adv) (c := c) h

private theorem reads_ex (lock lock' adv : Str)
    (h : okWith (Db.Database.open (((exProject [] none adv).checkoutAt []).tree (exProject [] none adv).advLib
      (exProject [] none adv).severityOf)) (fun _ => true) = true) :
    DatabaseReads (exProject lock none adv).advLib ((exProject lock' none adv).checkoutAt []) := by
  obtain ⟨db, hdb, -⟩ := okWith_some h
  exact (C91_database (exProject lock none adv) _).mp ⟨db, hdb⟩

/-- The hypotheses of C105 are met by the example, before and after, and there is a vulnerability that has a patched version. -/
theorem fix_meets : ∃ c l ch l' ch', Configured (before []) jsonCommand c ∧
      LockOf (before []) none (projectLock "1.2.2") ∧
      Lockfile.fromText (semverCodec (before []).url) Toml.read (projectLock "1.2.2") = .ok l ∧ CheckoutOf (before []) c ch ∧
      DatabaseReads (before []).advLib ch ∧ Printable c l ∧
      (∃ f, Fixable (before []) c ch (projectLock "1.2.2") f) ∧
      (∀ u ∈ ((before []).runFix (fixSurroundings "1.2.3" true) jsonCommand {}).commands, (fixSurroundings "1.2.3" true).spawns u = true) ∧
      (let P' := (fixSurroundings "1.2.3" true).after ((before []).runFix (fixSurroundings "1.2.3" true) jsonCommand {}).commands
       LockOf P' none (projectLock "1.2.3") ∧ Lockfile.fromText (semverCodec P'.url) Toml.read (projectLock "1.2.3") = .ok l' ∧
       CheckoutOf P' c ch' ∧ DatabaseReads P'.advLib ch' ∧ Printable c l') := by
  have hconf : okWith (effectiveConfig (before []).configWorld jsonCommand) (fun c => decide (c.output.format = .json) &&
      !c.database.fetch) = true := by decide +kernel
  obtain ⟨c, hc, hcj⟩ := okWith_some hconf
  simp only [Bool.and_eq_true, decide_eq_true_eq, Bool.not_eq_true'] at hcj
  have hlock : okWith (Lockfile.fromText (semverCodec toyUrl) Toml.read (projectLock "1.2.2")) (fun _ => true) = true := by
    decide +kernel
  obtain ⟨l, hl, -⟩ := okWith_some hlock
  have hlock' : okWith (Lockfile.fromText (semverCodec toyUrl) Toml.read (projectLock "1.2.3")) (fun _ => true) = true := by
    decide +kernel
  obtain ⟨l', hl', -⟩ := okWith_some hlock'
  have hdb : okWith (Db.Database.open (((exProject [] none (projectAdvisory [])).checkoutAt []).tree
      (exProject [] none (projectAdvisory [])).advLib (exProject [] none (projectAdvisory [])).severityOf)) (fun _ => true) = true := by
    decide +kernel
  have h1 : Configured (before []) jsonCommand c := (configured_iff _ _ c).mp hc
  have h4 : ∀ l, Printable c l := fun l h => by rw [hcj.1] at h; cases h
  have h2 : LockOf (before []) none (projectLock "1.2.2") := lockOf_ex _ _
  have h3 := checkoutOf_ex (projectLock "1.2.2") (projectLock "1.2.2") (projectAdvisory []) c hcj.2
  have h5 := reads_ex (projectLock "1.2.2") (projectLock "1.2.2") (projectAdvisory []) hdb
  have hcom : ((before []).runFix (fixSurroundings "1.2.3" true) jsonCommand {}).commands =
      [⟨false, ["registry+https://github.com/rust-lang/crates.io-index#foo@1.2.2".toList], none⟩] := by decide +kernel
  have hf : ∃ f, Fixable (before []) c ((before []).checkoutAt []) (projectLock "1.2.2") f := by
    obtain ⟨f, hf, -⟩ := (C105_fix (before []) Cvss.binary64_ok (fixSurroundings "1.2.3" true) jsonCommand {} c h1 _ h2 (by simp) l hl _ h3
      h5 (h4 l) none rfl).1 _ (by rw [hcom]; exact List.mem_singleton_self _)
    exact ⟨f, hf⟩
  exact ⟨c, l, _, l', _, h1, h2, hl, h3, h5, h4 l, hf, fun _ _ => rfl, lockOf_ex _ _, hl',
    checkoutOf_ex (projectLock "1.2.3") (projectLock "1.2.2") (projectAdvisory []) c hcj.2,
    reads_ex (projectLock "1.2.3") (projectLock "1.2.2") (projectAdvisory []) hdb, h4 l'⟩

end Verif.Props
