import Verif.Props.SarifJson
import Verif.Lemmas.Float

/-!
# C81: examples and violations
-/

namespace Verif.Props

open Verif.Semver Verif.Osv Verif.Lock Verif.Adv Verif.Rep Verif.RepJson Verif.Audit Verif.SarifJson Verif.Spec

/-! ### Cases -/

/-- An advisory for the examples: `exportDoc` with a vector and a link. -/
def sarifAdvisory (id : String) (c : Option Cvss.Cvss) : FileMetadata :=
  { id := ⟨.rustSec, some 2020, id.toList⟩, package := "foo".toList, title := "Bad \"foo\"".toList, description := [],
    date := ⟨"2020-01-01".toList⟩, aliases := [], related := [], collection := none, categories := [], keywords := [],
    cvss := c, informational := none, references := [], source := none, url := none, withdrawn := none,
    license := .ccZero10, expectDeleted := false }

def sarifPackage (name : String) : Package := { name := name.toList, version := ⟨1, 0, 0, [], []⟩ }

/-- Two vulnerabilities of one advisory, and a yanked package. -/
def sarifSample (c : Option Cvss.Cvss) : FullReport jsonLib.Time :=
  { database := ⟨1, none, none⟩, dependencyCount := 3,
    settings := { targetArch := [], targetOs := [], severity := none, ignore := [], informationalWarnings := [] },
    vulnerabilities := ⟨true, 2,
      [⟨sarifAdvisory "RUSTSEC-2020-0001" c, ⟨[], []⟩, none, sarifPackage "foo"⟩,
        ⟨sarifAdvisory "RUSTSEC-2020-0001" c, ⟨[], []⟩, none, sarifPackage "foo2"⟩]⟩,
    warnings := [(.yanked, [⟨.yanked, sarifPackage "bar", none, none, none⟩])] }

/-- The rules and results of the report, without a vector. -/
example : fromReport jsonLib Cvss.binary64 (sarifSample none) "a/Cargo.lock".toList = .ok
    ([{ id := "RUSTSEC-2020-0001".toList, name := "RUSTSEC-2020-0001".toList, shortDescription := "Bad \"foo\"".toList,
        fullDescription := none, level := .error, help := none, vulnerability := true, veryHigh := true,
        problemSeverity := false, securitySeverity := none },
      FullRule.ofKind .yanked],
     [{ ruleId := "RUSTSEC-2020-0001".toList,
        message := "foo 1.0.0 is vulnerable to RUSTSEC-2020-0001 (Bad \"foo\")".toList, level := .error,
        uri := "a/Cargo.lock".toList, fingerprint := "RUSTSEC-2020-0001:foo:1.0.0".toList },
      { ruleId := "RUSTSEC-2020-0001".toList,
        message := "foo2 1.0.0 is vulnerable to RUSTSEC-2020-0001 (Bad \"foo\")".toList, level := .error,
        uri := "a/Cargo.lock".toList, fingerprint := "RUSTSEC-2020-0001:foo2:1.0.0".toList },
      { ruleId := "yanked".toList, message := "bar 1.0.0 has a yanked warning".toList, level := .warning,
        uri := "a/Cargo.lock".toList, fingerprint := "yanked:bar:1.0.0".toList }]) := by
  decide +kernel

/-- The document when there is nothing to say. -/
example : printSarifReport jsonLib Cvss.binary64 "0.22.0".toList
    { sarifSample none with vulnerabilities := ⟨false, 0, []⟩, warnings := [] } none =
    .ok ("{\"$schema\":\"https://json.schemastore.org/sarif-2.1.0.json\",\"version\":\"2.1.0\",\"runs\":[{\"tool\":{" ++
      "\"driver\":{\"name\":\"cargo-audit\",\"version\":\"0.22.0\",\"semanticVersion\":\"0.22.0\",\"rules\":[]}}," ++
      "\"results\":[]}]}\n").toList := by
  decide +kernel

theorem sarifSample_kinds (c : Option Cvss.Cvss) :
    ∀ e ∈ (sarifSample c).warnings, ∀ w ∈ e.2, w.kind = e.1 ∧ w.kind ≠ .notice := by
  intro e he w hw
  simp only [sarifSample, List.mem_singleton] at he
  subst he
  rw [List.mem_singleton] at hw
  subst hw
  exact ⟨rfl, by decide⟩

/-- Non-vacuity of C81, with a vector that was read and on `f64`. -/
example (c : Cvss.Cvss) (hc : FromText Cvss.Cvss.fromStr c) :
    ∃ text line j, printSarifReport jsonLib Cvss.binary64 "0.22.0".toList (sarifSample (some c)) (some "a".toList) = .ok text ∧
      text = line ++ ['\n'] ∧ readJson text = some j ∧
      ShowsFindings jsonLib "0.22.0".toList "a".toList (SarifFinding.all (sarifSample (some c))) j := by
  have hk := sarifSample_kinds (some c)
  obtain ⟨text, ht⟩ := C81_prints jsonLib Cvss.binary64 Cvss.binary64_ok "0.22.0".toList (sarifSample (some c)) (some "a".toList)
    (fun e he w hw => (hk e he w hw).1) (by
      intro f hf m hm c' hc'
      simp only [SarifFinding.all, sarifSample, List.map_cons, List.map_nil, List.flatMap_cons, List.flatMap_nil,
        List.append_nil, List.cons_append, List.nil_append, List.mem_cons, List.not_mem_nil, or_false] at hf
      rcases hf with rfl | rfl | rfl
      · cases hm; cases hc'; exact hc
      · cases hm; cases hc'; exact hc
      · cases hm)
  obtain ⟨line, j, h1, -, h2, h3⟩ := C81_document jsonLib Cvss.binary64 Cvss.binary64_ok _ _ _ text ht
    (fun e he w hw => (hk e he w hw).1) (fun e he w hw _ => (hk e he w hw).2)
  exact ⟨text, line, j, ht, h1, h2, h3⟩

/-- A vector that can be read, and a score. -/
example : (match Cvss.Cvss.fromStr "CVSS:3.1/AV:N/AC:L/PR:N/UI:N/S:U/C:H/I:H/A:H".toList with
    | .ok (.v31 _) => true | _ => false) = true ∧ tenthsText 98 = "9.8".toList ∧ tenthsText 100 = "10.0".toList ∧
    tenthsText 0 = "0.0".toList := by
  decide +kernel

/-- C81, violation: with a v4 vector that was not read but made in a program (the default vector), nothing is printed: the
program panics. -/
theorem C81_panics (F : Cvss.Fp) (hF : F.Ok) :
    printSarifReport jsonLib F [] (sarifSample (some (.v40 ⟨0, fun _ => none⟩))) none = .panic := by
  have h : FullRule.ofAdvisory F (sarifAdvisory "RUSTSEC-2020-0001" (some (.v40 ⟨0, fun _ => none⟩))) true = .panic := by
    unfold FullRule.ofAdvisory scoreText
    simp only [sarifAdvisory, Cvss.Cvss.score, Cvss.C38_default_violation F hF]
    rfl
  unfold printSarifReport fromReport
  simp only [sarifSample, pushVulnerabilities, Acc.push]
  rw [h]
  rfl

/-- C81, violation: two packages of the same name and version from different sources have the same fingerprint, so one
of two results may be taken for a repetition of the other. -/
theorem C81_fingerprint_collision (L : ReportLib) (m : FileMetadata) (v : Versions) (p : Package) (s t : Option SourceId) :
    SarifFinding.fingerprint L (.vulnerability ⟨m, v, none, { p with source := s }⟩) =
      SarifFinding.fingerprint L (.vulnerability ⟨m, v, none, { p with source := t }⟩) := rfl

end Verif.Props
