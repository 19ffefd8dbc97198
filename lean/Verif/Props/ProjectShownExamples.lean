import Verif.Props.ProjectShown
import Verif.Props.ProjectTerminalExamples

/-!
# C108: examples

The hypotheses of `C108_shown` are those of `C103_terminal`, which `ProjectTerminalExamples` meets.
-/

namespace Verif.Props

open Verif Verif.Semver Verif.Lock Verif.Adv Verif.Audit Verif.Toml Verif.Spec

private def term : TermLib := { termLib with version := Version.text }

private def terminalCommand : AuditCommand := { outputFormat := some .terminal, noFetch := true }

private def exShown (lock adv : Str) : List Shown × Exit := (exProject lock none adv).shown term {} terminalCommand

private def status (x : Shown) : Option Msg :=
  match x with
  | .status m => some m
  | _ => none

private def versionLine (x : Shown) : Bool :=
  match x with
  | .screen (.attr true label text) => decide (label = "Version:  ".toList) && decide (text = "1.2.2".toList)
  | _ => false

/-- A vulnerability: what is read and scanned is said, and that the index says nothing, and then the block is shown. -/
example : (match exShown (projectLock "1.2.2") (projectAdvisory []) with
    | (lines, code) => (lines.take 2).all (fun x => (status x).isSome) && lines.any versionLine &&
      decide ((lines.filterMap status).drop 1 = [.scanning "Cargo.lock".toList 2, .yankFailed]) && decide (code = .code 1)) = true := by decide +kernel

/-- Nothing is wrong: nothing is shown in red. -/
example : (match exShown (projectLock "1.2.3") (projectAdvisory []) with
    | (lines, code) => !lines.any versionLine && decide (code = .code 0)) = true := by decide +kernel

/-- A lockfile that cannot be parsed: only messages, the last one an error. -/
example : (match exShown "[[package]]\nname = 1".toList (projectAdvisory []) with
    | (lines, code) => lines.all (fun x => (status x).isSome) &&
      decide (lines.getLast?.bind status = some (.lockfileFailed "Cargo.lock".toList)) && decide (code = .code 2)) = true := by
  decide +kernel

/-- An advisory that cannot be parsed: only messages, the last one an error. -/
example : (match exShown (projectLock "1.2.2") "nothing".toList with
    | (lines, code) => lines.all (fun x => (status x).isSome) &&
      decide (lines.getLast?.bind status = some .loadFailed) && decide (code = .code 1)) = true := by
  decide +kernel

private def okWith {α : Type} (o : Outcome α) (p : α → Bool) : Bool :=
  match o with
  | .ok a => p a
  | _ => false

private theorem okWith_some {α : Type} {o : Outcome α} {p : α → Bool} (h : okWith o p = true) :
    ∃ a, o = .ok a ∧ p a = true := by
  cases o with
  | ok a => exact ⟨a, rfl, h⟩
  | err => cases h
  | panic => cases h

/-- The hypotheses of `C108_unread` are met by both. -/
example : (let P := exProject "[[package]]\nname = 1".toList none (projectAdvisory [])
    ∃ c, Configured P terminalCommand c ∧
      ∀ text, LockOf P terminalCommand.file text → ∀ l, Lockfile.fromText (semverCodec P.url) Toml.read text ≠ .ok l) ∧
    (let P := exProject (projectLock "1.2.2") none "nothing".toList
    ∃ c, Configured P terminalCommand c ∧ ∀ ch, CheckoutOf P c ch → ¬ DatabaseReads P.advLib ch) := by
  constructor
  · intro P
    have hconf : okWith (effectiveConfig P.configWorld terminalCommand) (fun _ => true) = true := by decide +kernel
    obtain ⟨c, hc, -⟩ := okWith_some hconf
    refine ⟨c, (configured_iff P _ c).mp hc, fun text ht l hl => ?_⟩
    have hload : (match (P.env terminalCommand.file).locate terminalCommand.file with
      | some path => (P.loadLock terminalCommand.file path).isNone
      | none => false) = true := by decide +kernel
    obtain ⟨path, hloc, hlt⟩ := lockOf_locate ht
    rw [hloc] at hload
    dsimp only at hload
    unfold Project.loadLock at hload
    rw [hlt, Option.bind_some, hl] at hload
    cases hload
  · intro P
    have hconf : okWith (effectiveConfig P.configWorld terminalCommand) (fun c => !c.database.fetch &&
      match Db.Database.open ((P.checkoutAt (c.database.path.getD P.defaultPath)).tree P.advLib P.severityOf) with
      | .err => true
      | _ => false) = true := by decide +kernel
    obtain ⟨c, hc, hcj⟩ := okWith_some hconf
    simp only [Bool.and_eq_true, Bool.not_eq_true'] at hcj
    refine ⟨c, (configured_iff P _ c).mp hc, fun ch hch hr => ?_⟩
    obtain ⟨db, hdb⟩ := (C91_database P ch).mpr hr
    cases hch with
    | fetched hf h => rw [hcj.1] at hf; cases hf
    | files hf =>
      rw [hdb] at hcj
      cases hcj.2

end Verif.Props
