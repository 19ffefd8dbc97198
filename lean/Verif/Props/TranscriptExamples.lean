import Verif.Props.Transcript
import Verif.Props.TerminalExamples

/-!
# Runs that meet the hypotheses of C89
-/

namespace Verif.Props

open Verif.Audit Verif.Adv Verif.Db Verif.Rep Verif.Lock Verif.Bin Verif.Semver Verif.Spec

/-- The status messages of a transcript, and the number of the other lines. -/
def spoken (l : List Shown) : List Msg × Nat :=
  (l.filterMap fun x => match x with | .status m => some m | _ => none,
   (l.filter fun x => match x with | .status _ => false | _ => true).length)

/-- A run that is not quiet, one that is, and one for a machine: they end in the same way. -/
example :
    spoken (runTranscript termLib { databaseBusy := true } (auditEnv exTree false) {} {}).1 =
      ([.fetching defaultUrl, .waiting [], .loaded 2 [], .updating, .scanning "Cargo.lock".toList 2], 18) ∧
    (runTranscript termLib { databaseBusy := true } (auditEnv exTree false) {} {}).2 = .code 1 ∧
    spoken (runTranscript termLib { databaseBusy := true } (auditEnv exTree false) {} { output := { quiet := true } }).1 =
      ([.waiting []], 18) ∧
    (runTranscript termLib { databaseBusy := true } (auditEnv exTree false) {} { output := { quiet := true } }).2 = .code 1 ∧
    spoken (runTranscript termLib {} (auditEnv exTree false) {} { output := { format := .json } }).1 = ([], 1) ∧
    (runTranscript termLib {} (auditEnv exTree false) {} { output := { format := .json } }).2 = .code 1 := by
  decide +kernel

/-- The hypotheses of `C89_quiet`, `C89_silence` and their versions for binaries are met. -/
example : Quiet (AuditConfig.quietly {} true).output ∧ Quiet ({ format := .sarif } : OutputConfig) ∧
    ¬ Quiet ({} : OutputConfig) :=
  ⟨.inl rfl, .inr (.inr rfl), by rintro (h | h | h) <;> cases h⟩

/-- Errors are printed by a quiet run: no database, no lockfile. -/
example :
    spoken (runTranscript termLib {} { auditEnv exTree false with fetchRepo := fun _ _ _ => none } {}
      { output := { quiet := true } }).1 = ([.fetchFailed], 0) ∧
    (runTranscript termLib {} { auditEnv exTree false with fetchRepo := fun _ _ _ => none } {}
      { output := { quiet := true } }).2 = .code 1 ∧
    spoken (runTranscript termLib {} { auditEnv exTree false with loadLock := fun _ => none } {}
      { output := { quiet := true } }).1 = ([.lockfileFailed "Cargo.lock".toList], 0) ∧
    (runTranscript termLib {} { auditEnv exTree false with loadLock := fun _ => none } {}
      { output := { quiet := true } }).2 = .code 2 := by
  decide +kernel

/-- The hypotheses of `C89_reason` are met with both answers. -/
example : (∃ lines, runTranscript termLib {} (auditEnv exTree false) {} {} = (lines, .code 1)) ∧
    ∃ lines, runTranscript termLib {} (auditEnv exTree false) {}
      { advisories := { ignore := [exAdvisory.metadata.id] } } = (lines, .code 0) :=
  ⟨⟨_, Prod.ext rfl (by decide +kernel)⟩, ⟨_, Prod.ext rfl (by decide +kernel)⟩⟩

/-- The index does not answer for a crate: an error message, and success. -/
example :
    let env := { auditEnv exTree false with
      registry := { cached := fun _ => .error, download := some (fun _ => .error) } }
    let c : AuditConfig := { advisories := { ignore := [exAdvisory.metadata.id] } }
    Msg.yankFailed ∈ (spoken (runTranscript termLib {} env {} c).1).1 ∧ (runTranscript termLib {} env {} c).2 = .code 0 := by
  decide +kernel

/-- The hypotheses of `C89_progress` are met. -/
example : ∃ before after, (runTranscript termLib {} (auditEnv exTree false) {} {}).1 = before ++ after ∧
    before.filterMap Shown.progress? =
      [.fetching defaultUrl, .loaded exDb.iter.length [], .updating, .scanning "Cargo.lock".toList 2] := by
  obtain ⟨before, after, h1, h2, -⟩ := C89_progress termLib {} (auditEnv exTree false) {} {} "Cargo.lock".toList
    (by decide +kernel) exTree rfl exDb exTree_opens auditLock rfl (by rintro (h | h | h) <;> cases h)
  exact ⟨before, after, h1, h2⟩

/-- Binaries: one is scanned, one is too large, and one has no dependencies. -/
example :
    spoken (binTranscript termLib {} (auditEnv exTree false) none none ["a".toList] {}).1 =
      ([.fetching defaultUrl, .loaded 2 [], .updating, .auditable "a".toList 2, .symbolsFailed], 18) ∧
    (binTranscript termLib {} (auditEnv exTree false) none none ["a".toList] {}).2 = .code 1 ∧
    spoken (binTranscript termLib {} (auditEnv exTree false) (some 2) none ["a".toList] { output := { quiet := true } }).1 =
      ([.binaryFailed "a".toList], 0) ∧
    (binTranscript termLib {} (auditEnv exTree false) (some 2) none ["a".toList] { output := { quiet := true } }).2 =
      .code 2 ∧
    spoken (binTranscript termLib {} { auditEnv exTree false with loadDeps := fun _ _ => some (.elf64, none) } none none
      ["a".toList] {}).1 =
      ([.fetching defaultUrl, .loaded 2 [], .updating, .noDependencies "a".toList, .binaryFailed "a".toList], 0) ∧
    spoken (binTranscript termLib { complete := fun _ => false } (auditEnv exTree false) none none ["a".toList]
      { output := { format := .json } }).1 = ([], 1) := by
  decide +kernel

end Verif.Props
