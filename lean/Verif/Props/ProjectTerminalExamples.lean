import Verif.Props.ProjectTerminal
import Verif.Props.ProjectExamples
import Verif.Props.TerminalExamples

/-!
# Examples for C103
-/

namespace Verif.Props

open Verif Verif.Semver Verif.Osv Verif.Lock Verif.Adv Verif.Audit Verif.Toml Verif.Spec Verif.Rep

/-- Versions as they are written. -/
private def term : TermLib := { termLib with version := Version.text }

private def terminalCommand : AuditCommand := { outputFormat := some .terminal, noFetch := true }

/-- The lines, the lines about the tool itself, and the exit status of the example, from the texts. -/
private def screenOf (version : String) (extra : List String) : Option (List TermLine × List TermLine × Exit) :=
  let P := exProject (projectLock version) none (projectAdvisory extra)
  match effectiveConfig P.configWorld terminalCommand with
  | .ok c =>
    match runPrints term (P.env none) terminalCommand c with
    | some (out, selfLines) =>
      match out.screen term none with
      | .ok lines => some (lines, selfLines, (P.run terminalCommand).2)
      | _ => none
    | none => none
  | _ => none

/-- A vulnerable version: name, version, ID and solution are in the lines, in red, and the run fails. -/
example : (screenOf "1.2.2" []).any (fun (lines, selfLines, code) =>
    lines.contains (.attr true "Crate:    ".toList "foo".toList) &&
    lines.contains (.attr true "Version:  ".toList "1.2.2".toList) &&
    lines.contains (.attr true "Title:    ".toList "It breaks".toList) &&
    lines.contains (.attr true "Date:     ".toList "2021-03-04".toList) &&
    lines.contains (.attr true "ID:       ".toList "RUSTSEC-2021-0001".toList) &&
    lines.contains (.attr true "URL:      ".toList "https://rustsec.org/advisories/RUSTSEC-2021-0001".toList) &&
    lines.contains (.attr true "Solution: ".toList "Upgrade to >=1.2.3 OR =1.0.9 (patched)".toList) &&
    selfLines.isEmpty && decide (code = .code 1)) = true := by decide +kernel

/-- A patched version: nothing is said. -/
example : (screenOf "1.2.3" []).any (fun (lines, selfLines, code) =>
    lines.all (fun x => match x with | .attr _ _ _ => false | _ => true) && selfLines.isEmpty && decide (code = .code 0)) = true := by
  decide +kernel

/-- An informational advisory: a warning that is not an error. -/
example : (screenOf "1.2.2" ["informational = \"unmaintained\""]).any (fun (lines, _, code) =>
    lines.contains (.attr false "Warning:  ".toList "unmaintained".toList) &&
    lines.contains (.attr false "Version:  ".toList "1.2.2".toList) &&
    !lines.contains (.attr true "Version:  ".toList "1.2.2".toList) && decide (code = .code 0)) = true := by decide +kernel

private def okWith {α : Type} (o : Outcome α) (p : α → Bool) : Bool :=
  match o with
  | .ok a => p a
  | _ => false

private theorem okWith_some {α : Type} {o : Outcome α} {p : α → Bool} (h : okWith o p = true) :
    ∃ a, o = .ok a ∧ p a = true := by
  cases o with
  | ok a => exact ⟨a, rfl, h⟩
  | err => cases h
  | panic => cases h

private def pinnedSource : Option SourceId → Bool
  | none => true
  | some s => match s.kind with
    | .git _ => s.precise.isSome
    | _ => true

private theorem pinnedSource_ok {o : Option SourceId} (h : pinnedSource o = true) (s : SourceId) (hs : o = some s)
    (hg : ∃ r, s.kind = .git r) : s.precise ≠ none := by
  obtain ⟨r, hr⟩ := hg
  subst hs
  unfold pinnedSource at h
  dsimp only at h
  rw [hr] at h
  intro hn
  rw [hn] at h
  cases h

/-- The hypotheses of C103 are met by the example. -/
example : let P := exProject (projectLock "1.2.2") none (projectAdvisory [])
    ∃ c text l ch, Configured P terminalCommand c ∧ c.output.format = .terminal ∧ LockOf P terminalCommand.file text ∧
      Lockfile.fromText (semverCodec P.url) Toml.read text = .ok l ∧ CheckoutOf P c ch ∧ DatabaseReads P.advLib ch ∧
      Printable c l ∧ term.version = Version.text := by
  intro P
  have hconf : okWith (effectiveConfig P.configWorld terminalCommand) (fun c => decide (c.output.format = .terminal) &&
      !c.database.fetch) = true := by decide +kernel
  obtain ⟨c, hc, hcj⟩ := okWith_some hconf
  simp only [Bool.and_eq_true, decide_eq_true_eq, Bool.not_eq_true'] at hcj
  have hlock : okWith (Lockfile.fromText (semverCodec P.url) Toml.read (projectLock "1.2.2")) (fun l =>
      okWith (Lock.Tree.new l) (fun _ => true) && l.packages.all (fun p => pinnedSource p.source &&
        p.dependencies.all fun d => pinnedSource d.source)) = true := by decide +kernel
  obtain ⟨l, hl, htr⟩ := okWith_some hlock
  simp only [Bool.and_eq_true] at htr
  obtain ⟨t, ht, -⟩ := okWith_some htr.1
  have hdb : okWith (Db.Database.open ((P.checkoutAt []).tree P.advLib P.severityOf)) (fun _ => true) = true := by
    decide +kernel
  obtain ⟨db, hdb, -⟩ := okWith_some hdb
  refine ⟨c, projectLock "1.2.2", l, P.checkoutAt [], (configured_iff P _ c).mp hc, hcj.1, .found rfl (.inl rfl), hl,
    CheckoutOf.files (P := P) (c := c) hcj.2, (C91_database P _).mp ⟨db, hdb⟩, fun _ => ⟨?_, t, ht⟩, rfl⟩
  intro p hp
  have := List.all_eq_true.mp htr.2 p hp
  rw [Bool.and_eq_true] at this
  exact ⟨fun s hs hg => pinnedSource_ok this.1 s hs hg, fun d hd s hs hg =>
    pinnedSource_ok (List.all_eq_true.mp this.2 d hd) s hs hg⟩

end Verif.Props
