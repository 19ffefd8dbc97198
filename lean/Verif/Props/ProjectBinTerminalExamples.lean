import Verif.Props.ProjectBinTerminal
import Verif.Props.ProjectBinExamples
import Verif.Props.TerminalExamples

/-!
# C106: examples
-/

namespace Verif.Props

open Verif.Audit Verif.Adv Verif.Semver Verif.Spec Verif.Lock Verif.Bin

private def term : TermLib := { termLib with version := Version.text }

private def terminalCommand : AuditCommand := { outputFormat := some .terminal, noFetch := true }

private def exShown (extra : List String) (paths : List String) : List Shown × Exit :=
  (exProject [] none (projectAdvisory extra)).binShown exBinaries term {} terminalCommand none none (paths.map String.toList)

private def failed (x : Shown) : Bool :=
  match x with
  | .status (.binaryFailed _) => true
  | _ => false

private def versionLine (error : Bool) (x : Shown) : Bool :=
  match x with
  | .screen (.attr e label text) => (e == error) && decide (label = "Version:  ".toList) && decide (text = "1.2.2".toList)
  | _ => false

/-- A vulnerability, from a list or from a path, is in red; a binary that says nothing has failed, and the others are still
shown. -/
example : (match exShown [] ["listed", "plain", "traced"] with
    | (lines, code) => (lines.filter (versionLine true)).length == 2 && (lines.filter failed).length == 1 &&
      decide (code = .code 1)) = true := by decide +kernel

/-- An unmaintained package is shown, but not in red. -/
example : (match exShown ["informational = \"unmaintained\""] ["traced"] with
    | (lines, code) => lines.any (versionLine false) && !lines.any (versionLine true) && !lines.any failed &&
      decide (code = .code 0)) = true := by decide +kernel

/-- Nothing is said about an advisory for another operating system. -/
example : (match exShown ["[affected]", "os = [\"windows\"]"] ["listed"] with
    | (lines, code) => !lines.any (versionLine false) && !lines.any (versionLine true) && decide (code = .code 0)) = true := by
  decide +kernel

private def okWith {α : Type} (o : Outcome α) (p : α → Bool) : Bool :=
  match o with
  | .ok a => p a
  | _ => false

private theorem okWith_some {α : Type} {o : Outcome α} {p : α → Bool} (h : okWith o p = true) :
    ∃ a, o = .ok a ∧ p a = true := by
  cases o with
  | ok a => exact ⟨a, rfl, h⟩
  | err => cases h
  | panic => cases h

/-- The hypotheses of C106 are met by the example, and one binary says what it is made of and one does not. -/
example : let P := exProject [] none (projectAdvisory [])
    P.fp.Ok ∧ KnowsIndex (P.binLib exBinaries) ∧ (∃ c ch, Configured P terminalCommand c ∧ c.output.format = .terminal ∧
      CheckoutOf P c ch ∧ DatabaseReads P.advLib ch) ∧
    (∀ path ∈ ["listed".toList, "plain".toList], ∀ data, exBinaries.bytesOf path = some data → data.length < 2 ^ 64) ∧
    (∀ path ∈ ["listed".toList, "plain".toList], ∀ data, BinaryAt exBinaries none path data →
      Embedded exBinaries none data = .noAuditData → NoOverlap data) ∧
    (∃ data, BinaryAt exBinaries none "listed".toList data ∧ Scannable exBinaries none data) ∧ term.version = Version.text := by
  intro P
  refine ⟨Cvss.binary64_ok, exBinaries_knows _ _ _, ?_, ?_, fun path _ data h _ => exBinaries_noOverlap path data h.1, ?_, rfl⟩
  · have hconf : okWith (effectiveConfig P.configWorld terminalCommand) (fun c => decide (c.output.format = .terminal) &&
        !c.database.fetch) = true := by decide +kernel
    obtain ⟨c, hc, hcj⟩ := okWith_some hconf
    simp only [Bool.and_eq_true, decide_eq_true_eq, Bool.not_eq_true'] at hcj
    have hdb : okWith (Db.Database.open ((P.checkoutAt []).tree P.advLib P.severityOf)) (fun _ => true) = true := by
      decide +kernel
    obtain ⟨db, hdb, -⟩ := okWith_some hdb
    exact ⟨c, P.checkoutAt [], (configured_iff P _ c).mp hc, hcj.1, CheckoutOf.files (P := P) (c := c) hcj.2,
      (C91_database P _).mp ⟨db, hdb⟩⟩
  · intro path hp data hd
    rcases List.mem_pair.mp hp with rfl | rfl <;> · cases hd; decide +kernel
  · refine ⟨[1], ⟨rfl, by decide⟩, .listed (input := _) rfl ?_ ?_⟩
    · unfold IndicesInRange; decide
    · intro i j e e' h1 h2 h3 h4
      have key : ∀ (i : Nat) (e : AuditPackage), [(⟨"foo".toList, ⟨1, 2, 2, [], []⟩, .cratesIo, [], false⟩ : AuditPackage),
          ⟨"app".toList, ⟨0, 1, 0, [], []⟩, .localPath, [0], true⟩][i]? = some e → e.root = true → i = 1 := by
        intro i e h hr
        match i with
        | 0 => cases h; cases hr
        | 1 => rfl
        | i + 2 => cases h
      rw [key i e h1 h3, key j e' h2 h4]

end Verif.Props
