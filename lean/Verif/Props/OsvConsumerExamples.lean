import Verif.Props.OsvConsumer
import Verif.Props.OsvExportExamples
import Verif.Props.ProjectExamples

/-!
# C97 on a concrete repository
-/

namespace Verif.Props

open Verif Verif.Semver Verif.Osv Verif.Spec Verif.Adv Verif.Db Verif.Export Verif.OsvJson Verif.RepJson Verif.Git
open Verif.Assign

/-- The libraries: TOML and `semver` are the real ones. -/
def consumerLib : ReportLib := (exProject [] none []).reportLib Unit (fun _ => none) (fun _ => none)

/-- The file of the example advisory. -/
def consumerPath : Path := ⟨.crates, "foo".toList, "RUSTSEC-2021-0001.md".toList⟩

/-- A repository with one advisory. -/
def consumerRepo : ExportInput := exportRepo [(consumerPath, projectAdvisory [])]

/-- Its events are written as texts. -/
example : (osvCommand consumerLib.adv exportCal consumerRepo).writes.map (fun w =>
      (w.1, w.2.affected.map fun p => p.events.map fun e => ((osvEventName e).1, (osvEventName e).2.text))) =
    [("RUSTSEC-2021-0001.json".toList,
      [[("introduced", "0.0.0-0".toList), ("fixed", "1.0.9".toList), ("introduced", "1.1.0-0".toList),
        ("fixed", "1.2.3".toList)]])] := by
  decide +kernel

/-- The advisory, as a test. -/
def consumerB : Bool :=
  match AdvisoryFile.fromStr consumerLib.adv (projectAdvisory []) with
  | .ok f => decide (f.metadata.id.kind = .rustSec) && decide (f.metadata.id.string = "RUSTSEC-2021-0001".toList) &&
      decide (f.metadata.package = "foo".toList) &&
      decide (f.metadata.informational = none) && decide (f.versions.unaffected = []) &&
      decide (f.versions.patched = [⟨[⟨.greaterEq, 1, some 2, some 3, []⟩]⟩, ⟨[⟨.tilde, 1, some 0, some 9, []⟩]⟩])
  | _ => false

theorem consumer_advisory : ∃ f, AdvisoryOf consumerLib.adv (projectAdvisory []) f ∧ f.metadata.id.kind = .rustSec ∧
    f.metadata.id.string = "RUSTSEC-2021-0001".toList ∧ f.metadata.package = "foo".toList ∧
    f.metadata.informational = none ∧ f.versions.unaffected = [] ∧
    f.versions.patched = [⟨[⟨.greaterEq, 1, some 2, some 3, []⟩]⟩, ⟨[⟨.tilde, 1, some 0, some 9, []⟩]⟩] := by
  have h : consumerB = true := by decide +kernel
  unfold consumerB at h
  split at h
  · next f hf =>
    simp only [Bool.and_eq_true, decide_eq_true_eq] at h
    exact ⟨f, (C68_parsed_iff _ _ _).mp hf, h.1.1.1.1.1, h.1.1.1.1.2, h.1.1.1.2, h.1.1.2, h.1.2, h.2⟩
  · cases h

theorem advisory_unique {L : AdvLib} {text : Str} {f g : AdvisoryFile} (hf : AdvisoryOf L text f) (hg : AdvisoryOf L text g) :
    f = g := by
  have h1 := (C68_parsed_iff _ _ _).mpr hf
  have h2 := (C68_parsed_iff _ _ _).mpr hg
  rw [h1] at h2
  exact Outcome.ok.inj h2

/-- **C97 in action.**  The repository meets the hypotheses of `C97_exported`; from the file that is written a reader
concludes that `foo` 1.2.2 is affected, that 1.0.9 and 1.2.3 are not, and that no other crate is. -/
theorem C97_example : ∃ o j, (osvCommand consumerLib.adv exportCal consumerRepo).file "RUSTSEC-2021-0001.json".toList = some o ∧
    readJson (osvText consumerLib o) = some j ∧ AffectsVersion j "foo".toList (.release 1 2 2) ∧
    ¬ AffectsVersion j "foo".toList (.release 1 0 9) ∧ ¬ AffectsVersion j "foo".toList (.release 1 2 3) ∧
    ∀ v, ¬ AffectsVersion j "bar".toList v := by
  obtain ⟨f, hf, h1, h2, h3, h4, h5, h6⟩ := consumer_advisory
  have hmem : ∀ p t, (p, t) ∈ consumerRepo.disk → t = projectAdvisory [] := by
    intro p t h
    change (p, t) ∈ [(consumerPath, projectAdvisory [])] at h
    simp only [List.mem_singleton] at h
    exact congrArg Prod.snd h
  have hopen : ∃ db, consumerRepo.disk.open consumerLib.adv noSev = .ok db := by
    have h : (consumerRepo.disk.open consumerLib.adv noSev).isOk = true := by decide +kernel
    cases ho : consumerRepo.disk.open consumerLib.adv noSev with
    | ok db => exact ⟨db, rfl⟩
    | err => rw [ho] at h; cases h
    | panic => rw [ho] at h; cases h
  obtain ⟨db, hopen⟩ := hopen
  have hrun : (osvCommand consumerLib.adv exportCal consumerRepo).result = .ok () := by
    have h : (osvCommand consumerLib.adv exportCal consumerRepo).result.isOk = true := by decide +kernel
    cases hr : (osvCommand consumerLib.adv exportCal consumerRepo).result with
    | ok u => rfl
    | err => rw [hr] at h; cases h
    | panic => rw [hr] at h; cases h
  obtain ⟨o, j, ho, hj, ht⟩ := C97_exported (L := consumerLib) ⟨rfl, rfl, rfl, rfl⟩ exportCal noSev consumerRepo db
    (by decide +kernel) hopen (by decide +kernel)
    (fun p t g hp _ hg => by rw [hmem p t hp] at hg; rw [advisory_unique hg hf]; exact h1) hrun
    consumerPath (projectAdvisory []) f (by show _ ∈ [_]; simp) rfl hf (.inl h4) (by rw [h2]; decide)
    (by
      unfold BelowMax
      rw [h5, h6]
      decide)
  rw [h2] at ho
  refine ⟨o, j, ho, hj, ?_, ?_, ?_, ?_⟩
  · rw [ht.affected, h3]
    refine ⟨rfl, ?_⟩
    unfold LeftExposed
    rw [h5, h6]
    decide +kernel
  · rw [ht.affected]
    rintro ⟨-, h⟩
    unfold LeftExposed at h
    rw [h5, h6] at h
    exact absurd h (by decide +kernel)
  · rw [ht.affected]
    rintro ⟨-, h⟩
    unfold LeftExposed at h
    rw [h5, h6] at h
    exact absurd h (by decide +kernel)
  · intro v
    rw [ht.affected, h3]
    rintro ⟨h, -⟩
    exact absurd h (by decide)

end Verif.Props
