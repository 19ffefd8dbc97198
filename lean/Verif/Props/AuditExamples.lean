import Verif.Props.Sarif

/-!
# Audits that meet the hypotheses of C43, C44, C45, C64 and C65, and what `--deny warnings` misses
-/

namespace Verif.Props

open Verif.Audit Verif.Adv Verif.Lock Verif.Semver Verif.Rep Verif.Spec Verif.Yank

/-- A notice about `foo`. -/
def exNotice : Advisory where
  metadata := { id := ⟨.rustSec, some 2023, "RUSTSEC-2023-0003".toList⟩, package := "foo".toList,
                informational := some .notice }
  versions := ⟨[], []⟩

/-- A database with a notice only. -/
def noticeTree : Db.Tree where
  crates := some [.dir "foo".toList [⟨"RUSTSEC-2023-0003.md".toList, .ok exNotice⟩]]
  rust := none

def noticeDb : Db.Database where
  advisories := { index := [(exNotice.metadata.id, 0)], advisories := [Spec.stored .crates exNotice] }
  crateIndex := [("foo".toList, [0])]

theorem noticeTree_opens : Db.Database.open noticeTree = .ok noticeDb := by decide +kernel

theorem noticeDb_validated : ∀ a ∈ noticeDb.iter, Validated a := by
  intro a ha
  have : a = Spec.stored .crates exNotice := by simpa [noticeDb, Db.Database.iter] using ha
  subst this
  exact ⟨by decide +kernel, by decide +kernel⟩

/-- A lockfile with `foo` 1.1.0 from crates.io and a workspace member that depends on it. -/
def auditLock : Lockfile :=
  { version := .v4
    packages := [exPackage gitIndexSource,
      { name := "app".toList, version := ⟨0, 1, 0, [], []⟩,
        dependencies := [Dependency.ofPackage (exPackage gitIndexSource)] }] }

/-- The world of an audit: the given database, an index in which everything is yanked or nothing is. -/
def auditEnv (t : Db.Tree) (yanked : Bool) : Env where
  codec := toyCodec
  lockExists := true
  manifestExists := true
  generates := true
  loadLock := fun _ => some auditLock
  fetchRepo := fun _ _ _ => some t
  filesAt := fun _ => t
  defaultPath := []
  fetchIndex := true
  openIndex := true
  registry := { cached := fun _ => .versions [("1.1.0".toList, yanked)],
                download := some (fun _ => .versions [("1.1.0".toList, yanked)]) }
  toolVersion := ⟨0, 22, 0, [], []⟩
  libVersion := ⟨0, 31, 0, [], []⟩
  readBinary := fun _ => some [1, 2, 3]
  loadDeps := fun _ _ => some (.elf64, some auditLock)
  symbolsOf := fun _ => none

/-- Its dependency tree can be built. -/
theorem auditLock_tree : ∃ t, Lock.Tree.new auditLock = .ok t := by
  cases h : Lock.Tree.new auditLock with
  | ok t => exact ⟨t, rfl⟩
  | err => exact absurd h (by decide +kernel)
  | panic => exact absurd h (by decide +kernel)

theorem auditLock_pinned : Pinned auditLock.packages := by
  intro p hp
  simp only [auditLock, List.mem_cons, List.not_mem_nil, or_false] at hp
  rcases hp with rfl | rfl
  · exact ⟨fun s hs => (by cases hs; exact fun _ => by decide), fun d hd => by cases hd⟩
  · refine ⟨fun s hs => (by cases hs), fun d hd s hs => ?_⟩
    rw [List.mem_singleton.mp hd] at hs
    cases hs
    exact fun _ => by decide

theorem auditLock_printable (c : AuditConfig) : Printable c auditLock := fun _ => ⟨auditLock_pinned, auditLock_tree⟩

/-- The number of printed findings, and the exit. -/
def summary : Option Printed × Exit → Option (Nat × Option Nat × Nat × Nat) × Exit
  | (some (.terminal items v d al), e) => (some (items.length, v, d, al), e)
  | (_, e) => (none, e)

/-- The hypotheses of `C43_exit_status` are met by a run with a vulnerability and a warning.  It prints both; without the
vulnerability it succeeds unless the warning is denied; with a yanked package there is another warning. -/
example :
    (auditEnv exTree false).locate none = some "Cargo.lock".toList ∧
    (auditEnv exTree false).checkout {} = some exTree ∧
    summary (runAudit (auditEnv exTree false) {} {}) = (some (2, some 1, 0, 1), .code 1) ∧
    summary (runAudit (auditEnv exTree false) {} { advisories := { ignore := [exAdvisory.metadata.id] } }) =
      (some (1, none, 0, 1), .code 0) ∧
    summary (runAudit (auditEnv exTree false) {}
      { advisories := { ignore := [exAdvisory.metadata.id] }, output := { deny := [.unmaintained] } }) =
      (some (1, none, 1, 0), .code 1) ∧
    summary (runAudit (auditEnv exTree true) {}
      { advisories := { ignore := [exAdvisory.metadata.id] }, output := { deny := [.yanked], showTree := true } }) =
      (some (2, none, 1, 1), .code 1) := by
  refine ⟨?_, rfl, ?_, ?_, ?_, ?_⟩ <;> decide +kernel

/-- The same for a binary. -/
example :
    (runBin (auditEnv exTree false) none none ["a".toList, "b".toList] {}).2 = .code 1 ∧
    (runBin (auditEnv exTree false) (some 2) none ["a".toList] {}).2 = .code 2 ∧
    (runBin (auditEnv exTree false) none none ["a".toList] { advisories := { ignore := [exAdvisory.metadata.id] } }).2 =
      .code 0 ∧
    Scans (auditEnv exTree false) none none "a".toList .elf64 auditLock := by
  refine ⟨?_, ?_, ?_, [1, 2, 3], rfl, by decide, rfl⟩ <;> decide +kernel

/-- **C43 (violation).**  `--deny warnings` is documented as denying any warning, but a notice does not make the run
fail: there is a run with that option that reports a notice, is not about a vulnerability, and exits with status 0. -/
theorem C43_deny_warnings_misses_notices :
    ∃ (env : Env) (cmd : AuditCommand) (c : AuditConfig) (db : Db.Database) (l : Lockfile) (w : Warning) (r : Report)
      (out : Printed),
      cmd.deny = [.warnings] ∧ cmd.overrideConfig {} = .ok c ∧
      runAudit env cmd c = (some out, .code 0) ∧ Complete env c db l none r ∧ Shows c r out ∧ InReport r w ∧
      w.kind = .notice ∧ DeniesDocumented .warnings w.kind := by
  have hc : ({ deny := [.warnings] } : AuditCommand).overrideConfig {} = .ok { output := { deny := DenyOption.all } } := by
    decide +kernel
  obtain ⟨r, out, n, h1, h2, h3, h4, h5⟩ := C43_exit_status (auditEnv noticeTree false) { deny := [.warnings] }
    { output := { deny := DenyOption.all } } "Cargo.lock".toList (by decide +kernel) noticeTree rfl noticeDb
    noticeTree_opens noticeDb_validated auditLock rfl (auditLock_printable _)
  have hn : n = 0 := by
    have : (runAudit (auditEnv noticeTree false) { deny := [.warnings] } { output := { deny := DenyOption.all } }).2 = .code 0 := by
      decide +kernel
    rw [h1] at this
    exact Exit.code.inj this
  subst hn
  have hw := (h2.advisories ⟨.notice, exPackage gitIndexSource, some (Spec.stored .crates exNotice).metadata,
      (Spec.stored .crates exNotice).affected, some (Spec.stored .crates exNotice).versions⟩).mpr
    ⟨exPackage gitIndexSource, by simp [auditLock], Spec.stored .crates exNotice,
      by simp [noticeDb, Db.Database.iter], .notice,
      { cratesIo := (scanned_iff _).mp (by decide +kernel)
        name := rfl
        exposed := fun r hr => by cases hr
        registry := ⟨gitIndexSource, rfl, rfl, rfl⟩
        collection := rfl
        current := rfl
        severity := fun th sev h => by cases h
        arch := fun af h => by cases h
        os := fun af h => by cases h
        notIgnored := by simp },
      rfl, (fun f h => by cases h), Or.inl (by decide), .notice, rfl, rfl, rfl, rfl⟩
  exact ⟨_, _, _, noticeDb, auditLock, _, r, out, rfl, hc, h1, h2, h3, hw.1, rfl, trivial⟩

/-! ## SARIF -/

/-- A report with a vulnerability twice, a warning and a yanked package. -/
def sarifReport : Report :=
  { settings := {}
    vulnerabilities := ⟨true, 2, [Vulnerability.new exAdvisory (exPackage gitIndexSource),
      Vulnerability.new exAdvisory (exPackage sparseSource)]⟩
    warnings := [(.yanked, [⟨.yanked, exPackage gitIndexSource, none, none, none⟩]),
      (.unmaintained, [⟨.unmaintained, exPackage gitIndexSource, some exInformational.metadata, none, none⟩])] }

/-- The hypotheses of `C45_sarif` are met by it; it gives four results and three rules. -/
example :
    (sarifReport.warnings.map Prod.fst).Nodup ∧
    (∀ e ∈ sarifReport.warnings, ∀ w ∈ e.2, w.kind = e.1 ∧ (w.advisory = none → w.kind ≠ .notice)) ∧
    (sarifRun toyCodec sarifReport []).1.map (·.id) =
      ["RUSTSEC-2021-0001".toList, "RUSTSEC-2022-0002".toList, "yanked".toList] ∧
    (sarifRun toyCodec sarifReport []).2.map (·.ruleId) =
      ["RUSTSEC-2021-0001".toList, "RUSTSEC-2021-0001".toList, "RUSTSEC-2022-0002".toList, "yanked".toList] := by
  refine ⟨?_, ?_, ?_, ?_⟩ <;> decide +kernel

/-- **C45, outside audits.**  A notice without an advisory, which the library's types allow but no audit makes, would
refer to a rule that is not listed. -/
theorem C45_notice_without_advisory :
    let r : Report := { sarifReport with
      vulnerabilities := ⟨false, 0, []⟩
      warnings := [(.notice, [⟨.notice, exPackage gitIndexSource, none, none, none⟩])] }
    (sarifRun toyCodec r []).1.map (·.id) = ["unknown".toList] ∧
    (sarifRun toyCodec r []).2.map (·.ruleId) = ["notice".toList] := by
  refine ⟨?_, ?_⟩ <;> decide +kernel

end Verif.Props
