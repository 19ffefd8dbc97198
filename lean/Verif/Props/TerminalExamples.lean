import Verif.Props.Terminal
import Verif.Props.AuditExamples

/-!
# Reports that meet the hypotheses of C73, and where the advice or the output is wrong
-/

namespace Verif.Props

open Verif.Audit Verif.Semver Verif.Osv Verif.Adv Verif.Rep Verif.Lock Verif.Spec

/-- Some texts for what other crates print. -/
def termLib : TermLib where
  version := fun v => joinWith ".".toList [showNat v.major, showNat v.minor, showNat v.patch]
  req := fun r => joinWith ", ".toList (r.comparators.map fun c =>
    (match c.op with | .greaterEq => ">=".toList | .less => "<".toList | .greater => ">".toList | _ => "=".toList) ++
      joinWith ".".toList ([showNat c.major] ++ (c.minor.map showNat).toList ++ (c.patch.map showNat).toList))
  score := fun _ => "7.5".toList

/-- A vulnerability of `foo` in version 1.5.0. -/
def vulnOf (patched unaffected : List VersionReq) (v : Version) : Vulnerability where
  advisory := exAdvisory.metadata
  versions := ⟨patched, unaffected⟩
  affected := none
  package := { name := "foo".toList, version := v }

/-- The hypotheses of `C73_patched`, `C73_unaffected` and `C73_no_upgrade` are met, and the advice is as said. -/
example :
    (∀ vs ∈ [(⟨[req .greaterEq 1 5 1, req .greaterEq 2 0 0], []⟩ : Versions), ⟨[], [req .less 1 0 0, req .greaterEq 2 0 0]⟩,
        ⟨[], [req .less 1 0 0]⟩],
      (∀ r ∈ vs.patched ++ vs.unaffected, ReqWF r) ∧
      ((∀ r ∈ vs.patched ++ vs.unaffected, ∀ c ∈ r.comparators, Precise c))) ∧
    (Versions.new [⟨[⟨.greaterEq, 1, some 5, some 1, []⟩, ⟨.less, 2, some 0, some 0, []⟩]⟩, req .greaterEq 2 1 0] [] =
      .ok ⟨[⟨[⟨.greaterEq, 1, some 5, some 1, []⟩, ⟨.less, 2, some 0, some 0, []⟩]⟩, req .greaterEq 2 1 0], []⟩) ∧
    solution termLib
      (vulnOf [⟨[⟨.greaterEq, 1, some 5, some 1, []⟩, ⟨.less, 2, some 0, some 0, []⟩]⟩, req .greaterEq 2 1 0] []
        ⟨1, 5, 0, [], []⟩) = "Upgrade to >=1.5.1, <2.0.0 OR >=2.1.0 (patched)".toList ∧
    (Versions.new [] [req .less 1 0 0, req .greaterEq 2 0 0] = .ok ⟨[], [req .less 1 0 0, req .greaterEq 2 0 0]⟩) ∧
    solution termLib (vulnOf [] [req .less 1 0 0, req .greaterEq 2 0 0] ⟨1, 5, 0, [], []⟩) =
      "Upgrade to >=2.0.0 (unaffected)".toList ∧
    (Versions.new [] [req .less 1 0 0] = .ok ⟨[], [req .less 1 0 0]⟩) ∧
    solution termLib (vulnOf [] [req .less 1 0 0] ⟨1, 5, 0, [], []⟩) = "No fixed upgrade is available!".toList := by
  decide +kernel

/-- **C73, violation: "Upgrade to" an older version.**  The requirements of patched versions are shown whether or not they
permit a newer version than the installed one, as those of unaffected versions must.  With `patched = ["< 1.0.0"]`, a
table that is accepted, the advice for 1.5.0 is to "upgrade" to versions that are all older. -/
theorem C73_upgrade_to_older :
    let v := vulnOf [req .less 1 0 0] [] ⟨1, 5, 0, [], []⟩
    Versions.new v.versions.patched v.versions.unaffected = .ok v.versions ∧
    v.versions.isVulnerable v.package.version = .ok true ∧
    solution termLib v = "Upgrade to <1.0.0 (patched)".toList ∧
    ∀ w : Version, (∃ r ∈ v.versions.patched, r.isMatch w = true) → w < v.package.version := by
  refine ⟨by decide +kernel, by decide +kernel, by decide +kernel, ?_⟩
  rintro ⟨M, mi, pa, pre, b⟩ ⟨r, hr, hm⟩
  cases List.mem_singleton.mp hr
  have hM : M < 1 ∨ M = 1 ∧ mi < 5 := by
    unfold VersionReq.isMatch at hm
    split at hm
    · cases hm
    · rename_i hx
      simp only [req, List.any_cons, List.any_nil, Bool.or_false, Bool.not_eq_true', Bool.not_eq_false,
        Comparator.matchesImpl, matchesLess] at hx
      split at hx
      · left; simpa using hx
      · rename_i h1
        right
        refine ⟨by omega, ?_⟩
        split at hx
        · have : mi < 0 := by simpa using hx
          omega
        · rename_i h2
          omega
  rw [Version.lt_def]
  unfold Version.cmp Version.cmpPrec
  show ((compare M 1).then ((compare mi 5).then ((compare pa 0).then (Pre.cmp pre [])))).then _ = _
  rcases hM with h | ⟨rfl, h⟩
  · rw [Nat.compare_eq_lt.mpr h]; rfl
  · rw [Nat.compare_eq_eq.mpr rfl, Nat.compare_eq_lt.mpr h]; rfl

/-- **C73, violation: an upgrade that is not shown.**  The hint tests a few candidates only: for `unaffected = ["> 1"]`,
0.5.0 is said to have no fixed upgrade, although 2.0.0 is newer and not vulnerable. -/
theorem C73_upgrade_not_shown :
    let v := vulnOf [] [⟨[⟨.greater, 1, none, none, []⟩]⟩] ⟨0, 5, 0, [], []⟩
    Versions.new v.versions.patched v.versions.unaffected = .ok v.versions ∧
    v.versions.isVulnerable v.package.version = .ok true ∧
    solution termLib v = "No fixed upgrade is available!".toList ∧
    v.package.version < (⟨2, 0, 0, [], []⟩ : Version) ∧ v.versions.isVulnerable ⟨2, 0, 0, [], []⟩ = .ok false := by
  refine ⟨by decide +kernel, by decide +kernel, by decide +kernel, ?_, by decide +kernel⟩
  rw [Version.lt_def]; decide +kernel

/-- **C73, violation: unaffected upgrades are not shown beside patched ones.**  With `patched = ["^1.5.1"]`, the advice for
2.5.0 is to go back to 1.x, although 3.0.0, which is unaffected, is newer. -/
theorem C73_unaffected_not_shown :
    let v := vulnOf [⟨[⟨.caret, 1, some 5, some 1, []⟩]⟩] [req .greaterEq 3 0 0] ⟨2, 5, 0, [], []⟩
    Versions.new v.versions.patched v.versions.unaffected = .ok v.versions ∧
    v.versions.isVulnerable v.package.version = .ok true ∧
    solution { termLib with req := fun r => if r = req .greaterEq 3 0 0 then ">=3.0.0".toList else "^1.5.1".toList } v =
      "Upgrade to ^1.5.1 (patched)".toList ∧
    v.package.version < (⟨3, 0, 0, [], []⟩ : Version) ∧ v.versions.isVulnerable ⟨3, 0, 0, [], []⟩ = .ok false := by
  refine ⟨by decide +kernel, by decide +kernel, by decide +kernel, ?_, by decide +kernel⟩
  rw [Version.lt_def]; decide +kernel

/-! ## Runs -/

/-- An advisory on the tool itself. -/
def exSelf : Advisory where
  metadata := { id := ⟨.rustSec, some 2025, "RUSTSEC-2025-0001".toList⟩, package := "cargo-audit".toList,
                title := "Wrong".toList }
  versions := ⟨[req .greaterEq 1 0 0], []⟩

def selfTree : Db.Tree where
  crates := some [.dir "cargo-audit".toList [⟨"RUSTSEC-2025-0001.md".toList, .ok exSelf⟩]]
  rust := none

/-- The hypotheses of `C73_run` are met by the runs of `AuditExamples`; what such a run prints. -/
example : ∃ r out n blocks lines selfLines,
    runAudit (auditEnv exTree false) {} {} = (some out, .code n) ∧ Complete (auditEnv exTree false) {} exDb auditLock none r ∧
    runPrints termLib (auditEnv exTree false) {} {} = some (out, selfLines) ∧
    List.Forall₂ (Describes termLib []) (findings r) blocks ∧ out.screen termLib none = .ok lines ∧
    (∃ sums, lines = blocks.flatten ++ sums ∧ ∀ x ∈ sums, ∃ error s, x = .total error s) ∧ (n = 1 ↔ ∃ x ∈ lines ++ selfLines, Red x) := by
  obtain ⟨r, out, n, blocks, lines, self, h1, h2, h3, h4, h5, h6, h7, -, -⟩ :=
    C73_run termLib (auditEnv exTree false) {} {} "Cargo.lock".toList (by decide +kernel) exTree rfl exDb exTree_opens
      exDb_validated (by decide +kernel) auditLock rfl (auditLock_printable _) rfl
  exact ⟨r, out, n, blocks, lines, self, h1, h2, h3, h4, h5, h6, h7⟩

/-- The lines of a run, and those of the report on the tool. -/
def printsOf (x : Option (Printed × List TermLine)) : Option (List TermLine × List TermLine) :=
  match x with
  | some (out, self) => match out.screen termLib none with | .ok lines => some (lines, self) | _ => none
  | none => none

example : printsOf (runPrints termLib (auditEnv exTree false) {} {}) =
    some ([.attr true "Crate:    ".toList "foo".toList, .attr true "Version:  ".toList "1.1.0".toList,
      .attr true "Title:    ".toList [], .attr true "Date:     ".toList exAdvisory.metadata.date.text,
      .attr true "ID:       ".toList "RUSTSEC-2021-0001".toList,
      .attr true "URL:      ".toList "https://rustsec.org/advisories/RUSTSEC-2021-0001".toList,
      .attr true "Solution: ".toList "Upgrade to >=1.2.0 (patched)".toList, .blank,
      .attr false "Crate:    ".toList "foo".toList, .attr false "Version:  ".toList "1.1.0".toList,
      .attr false "Warning:  ".toList "unmaintained".toList,
      .attr false "Title:    ".toList [], .attr false "Date:     ".toList exAdvisory.metadata.date.text,
      .attr false "ID:       ".toList "RUSTSEC-2022-0002".toList,
      .attr false "URL:      ".toList "https://rustsec.org/advisories/RUSTSEC-2022-0002".toList, .blank,
      .total true "1 vulnerability found!".toList, .total false "1 allowed warning found".toList], []) := by
  decide +kernel

/-- **C73, violation: text in a JSON document.**  With `--json`, the report on the tool itself is printed on the standard
output too, after the document. -/
theorem C73_json_with_text : ∃ out lines,
    runPrints termLib (auditEnv selfTree false) {} { output := { format := .json } } = some (.json out, lines) ∧
    .attr false "Title:    ".toList "Wrong".toList ∈ lines.filter TermLine.onStdout := by
  have h : ((runPrints termLib (auditEnv selfTree false) {} { output := { format := .json } }).any fun x =>
      (match x.1 with | .json _ => true | _ => false) &&
      (x.2.filter TermLine.onStdout).contains (.attr false "Title:    ".toList "Wrong".toList)) = true := by
    decide +kernel
  rw [Option.any_eq_true] at h
  obtain ⟨⟨out, lines⟩, h1, h2⟩ := h
  rw [Bool.and_eq_true] at h2
  cases out with
  | json r => exact ⟨r, lines, h1, List.contains_iff_mem.mp h2.2⟩
  | sarif r => cases h2.1
  | terminal a b c d => cases h2.1

/-- The advisory is linked as its licence asks. -/
example :
    (∃ s, Linked { exAdvisory.metadata with license := .ccBy40, url := some { base := "https://example.com".toList } } s) ∧
    ∀ s, Linked { exAdvisory.metadata with license := .ccBy40, url := some { base := "https://example.com".toList } } s →
      s ≠ "https://rustsec.org/advisories/RUSTSEC-2021-0001".toList := by
  refine ⟨⟨_, .original _ rfl rfl⟩, ?_⟩
  intro s hs
  rw [← linkOf_iff] at hs
  rintro rfl
  exact absurd hs (by decide +kernel)

end Verif.Props
