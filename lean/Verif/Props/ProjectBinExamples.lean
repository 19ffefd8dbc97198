import Verif.Props.ProjectBinJson
import Verif.Props.ProjectExamples

/-!
# C93: examples
-/

namespace Verif.Props

open Verif.Audit Verif.Adv Verif.Semver Verif.Spec Verif.Lock Verif.Bin

/-- Three binaries: one with an embedded list, one with a path of a crate, one with neither.  (The toy reader of embedded data
takes a first byte of 1 for a list with one package.) -/
def exBinaries : Binaries where
  bytesOf := fun p =>
    if p = "listed".toList then some [1]
    else if p = "traced".toList then some (bytes "at cargo/registry/src/github.com-1ecc6299db9ec823/foo-1.2.2/src/lib.rs")
    else if p = "plain".toList then some (bytes "hello")
    else none
  auditInfo := fun data _ =>
    match data with
    | 1 :: _ => .found [⟨"foo".toList, ⟨1, 2, 2, [], []⟩, .cratesIo, [], false⟩, ⟨"app".toList, ⟨0, 1, 0, [], []⟩, .localPath, [0], true⟩]
    | _ => .noAuditData
  format := fun _ => .elf64
  symbolsOf := fun _ => none

private def exBinRun (extra : List String) (ms : Option Nat) (paths : List String) : Exit :=
  ((exProject [] none (projectAdvisory extra)).runBin exBinaries {} ms none (paths.map String.toList)).2

/-- A vulnerable version, in the list or in a path; a binary that says nothing, or is not there, or is too large; an advisory
that is only about Windows. -/
example : exBinRun [] none ["listed"] = .code 1 ∧ exBinRun [] none ["traced"] = .code 1 ∧ exBinRun [] none ["plain"] = .code 2 ∧
    exBinRun [] none ["plain", "listed"] = .code 1 ∧ exBinRun [] none ["none"] = .code 2 ∧ exBinRun [] (some 0) ["listed"] = .code 2 ∧
    exBinRun ["[affected]", "os = [\"windows\"]"] none ["listed", "traced"] = .code 0 ∧
    exBinRun ["[affected]", "os = [\"linux\"]"] none ["listed", "traced"] = .code 1 ∧
    exBinRun ["withdrawn = \"2021-05-06\""] none ["listed", "traced"] = .code 0 := by decide +kernel

/-- `Url::parse` knows the index. -/
theorem exBinaries_knows (lock : Str) (config : Option Str) (advisory : Str) :
    KnowsIndex ((exProject lock config advisory).binLib exBinaries) := by
  show Url.parse toyUrl _ = _
  decide +kernel

/-- No version in the paths of the examples ends in `cargo`: `cargo` stands only at the start of the path. -/
theorem exBinaries_noOverlap (path : Str) (data : List UInt8) (h : exBinaries.bytesOf path = some data) : NoOverlap data := by
  have key : ∀ d : List UInt8, (∀ i ≤ d.length, (bytes "cargo").isPrefixOf (d.drop i) = true → i ≤ 20) →
      (∀ x ∈ d, x ≠ 92) → d.length < 100 → NoOverlap d := by
    rintro d h1 h2 - sep hs pos dir crate version hp ⟨pre, hpre⟩
    obtain ⟨rest, hrest⟩ := hp.text
    have hreg : registryPath sep dir crate version = (bytes "cargo" ++ [sep] ++ bytes "registry" ++ [sep] ++ bytes "src" ++
        [sep] ++ dir ++ [sep] ++ crate ++ bytes "-" ++ pre) ++ (bytes "cargo" ++ [sep]) := by
      unfold registryPath
      rw [← hpre]
      simp only [List.append_assoc]
    rw [hreg, List.append_assoc] at hrest
    have hlen := congrArg List.length hrest
    simp only [List.length_append, List.length_drop] at hlen
    have b1 : (bytes "cargo").length = 5 := by decide
    have b2 : (bytes "registry").length = 8 := by decide
    have b3 : (bytes "src").length = 3 := by decide
    have b4 : (bytes "-").length = 1 := by decide
    simp only [b1, b2, b3, b4, List.length_singleton] at hlen
    have := h1 (pos + (5 + 1 + 8 + 1 + 3 + 1 + dir.length + 1 + crate.length + 1 + pre.length)) (by omega) ?_
    · omega
    · rw [← List.drop_drop, ← hrest, List.drop_left' (by simp only [List.length_append, b1, b2, b3, b4, List.length_singleton])]
      rw [List.isPrefixOf_iff_prefix]
      exact ⟨[sep] ++ rest, by simp only [List.append_assoc]⟩
  unfold exBinaries at h
  dsimp only at h
  split at h
  · cases h; exact key _ (by decide +kernel) (by decide +kernel) (by decide +kernel)
  · split at h
    · cases h; exact key _ (by decide +kernel) (by decide +kernel) (by decide +kernel)
    · split at h
      · cases h; exact key _ (by decide +kernel) (by decide +kernel) (by decide +kernel)
      · cases h

/-- The hypotheses of C93 are met. -/
example : let P := exProject [] none (projectAdvisory [])
    let cmd : AuditCommand := { noFetch := true }
    P.fp.Ok ∧ KnowsIndex (P.binLib exBinaries) ∧
    (∀ path ∈ ["listed".toList, "traced".toList], ∀ data, exBinaries.bytesOf path = some data → data.length < 2 ^ 64) ∧
    (∀ path ∈ ["listed".toList, "traced".toList], ∀ data, BinaryAt exBinaries none path data →
      Embedded exBinaries none data = .noAuditData → NoOverlap data) ∧
    ∃ c ch, Configured P cmd c ∧ CheckoutOf P c ch ∧ DatabaseReads P.advLib ch := by
  intro P cmd
  refine ⟨Cvss.binary64_ok, exBinaries_knows _ _ _, ?_, fun path _ data h _ => exBinaries_noOverlap path data h.1, ?_⟩
  · intro path hp data hd
    rcases List.mem_pair.mp hp with rfl | rfl <;> · cases hd; decide +kernel
  · have hconf : (match effectiveConfig P.configWorld cmd with | .ok c => !c.database.fetch | _ => false) = true := by
      decide +kernel
    cases hc : effectiveConfig P.configWorld cmd with
    | ok c =>
      rw [hc] at hconf
      have hf : c.database.fetch = false := by simpa using hconf
      refine ⟨c, _, (configured_iff P cmd c).mp hc, .files hf, (C91_database P _).mp ?_⟩
      have hdb : (match Db.Database.open ((P.checkoutAt []).tree P.advLib P.severityOf) with | .ok _ => true | _ => false) = true := by
        decide +kernel
      show ∃ db, Db.Database.open ((P.checkoutAt []).tree P.advLib P.severityOf) = .ok db
      cases hd : Db.Database.open ((P.checkoutAt []).tree P.advLib P.severityOf) with
      | ok db => exact ⟨db, rfl⟩
      | err => rw [hd] at hdb; cases hdb
      | panic => rw [hd] at hdb; cases hdb
    | err => rw [hc] at hconf; cases hconf
    | panic => rw [hc] at hconf; cases hconf

end Verif.Props
