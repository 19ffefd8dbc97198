import Verif.Props.AuditSarif
import Verif.Lemmas.Float
import Verif.Props.AuditExamples

/-!
# C83: an example
-/

namespace Verif.Props

open Verif.Semver Verif.Osv Verif.Lock Verif.Adv Verif.Db Verif.Rep Verif.RepJson Verif.Audit Verif.AuditJson Verif.Assign
  Verif.Spec
open Verif.AdminLint (Checkout)

/-- A checkout with an advisory, a draft and a hidden copy of the advisory. -/
def jsonCheckout : Checkout :=
  { crates := some [.dir "foo".toList
      [.file ".RUSTSEC-2021-0001.md".toList (some (exportDoc "one")),
        .file "RUSTSEC-2021-0001.md".toList (some (exportDoc "one")),
        .file "RUSTSEC-0000-0000.md".toList (some (exportDoc "draft1"))]],
    rust := none }

/-- What the parser of the example accepts. -/
theorem jsonLib_req : ∀ s r, jsonLib.adv.req s = some r → ReqWF r := by
  intro s r h
  have h' : (if s = ">= 1.2.3".toList then
      some (⟨[{ op := .greaterEq, major := 1, minor := some 2, patch := some 3 }]⟩ : VersionReq)
    else if s = "*".toList then some ⟨[]⟩ else none) = some r := h
  split at h'
  · cases h'; decide
  · split at h'
    · cases h'; decide
    · cases h'

/-- The severities do not matter here. -/
def jsonSev : Cvss.Cvss → Severity := fun _ => .high

theorem jsonCheckout_opens : ∃ db, Db.Database.open (jsonCheckout.tree jsonLib.adv jsonSev) = .ok db := by
  have h : (match Db.Database.open (jsonCheckout.tree jsonLib.adv jsonSev) with | .ok _ => true | _ => false) = true := by
    decide +kernel
  cases ho : Db.Database.open (jsonCheckout.tree jsonLib.adv jsonSev) with
  | ok db => exact ⟨db, rfl⟩
  | err => rw [ho] at h; cases h
  | panic => rw [ho] at h; cases h

/-- An audit with one vulnerability: the line says so and the exit status is 1. -/
example : ∃ r line j, runAudit (auditEnv (jsonCheckout.tree jsonLib.adv jsonSev) true) {} { output := { format := .json } } =
      (some (.json r), .code 1) ∧
    jsonOutput jsonLib jsonCheckout (some ("0123".toList, (2021 : Nat))) auditLock r = .ok (line ++ ['\n']) ∧
    readJson line = some j ∧
    ShowsAudit jsonLib jsonSev (auditEnv (jsonCheckout.tree jsonLib.adv jsonSev) true) { output := { format := .json } }
      jsonCheckout (some ("0123".toList, (2021 : Nat))) auditLock none j ∧
    jsonAt [.key "vulnerabilities", .key "found"] j = some (.bool true) := by
  obtain ⟨db, hdb⟩ := jsonCheckout_opens
  obtain ⟨r, n, line, j, h1, h2, -, h3, h4, -, h5⟩ := C83_json jsonLib jsonLib_req jsonSev
    (auditEnv (jsonCheckout.tree jsonLib.adv jsonSev) true) {} { output := { format := .json } } rfl "Cargo.lock".toList rfl
    jsonCheckout rfl db hdb auditLock rfl (some ("0123".toList, (2021 : Nat)))
    (by rintro x ⟨⟩; exact ⟨_, rfl⟩)
  have hcode : (runAudit (auditEnv (jsonCheckout.tree jsonLib.adv jsonSev) true) {}
      { output := { format := .json } }).2 = .code 1 := by decide +kernel
  rw [h1] at hcode
  have hn : n = 1 := by simpa using hcode
  subst hn
  refine ⟨r, line, j, h1, h2, h3, h4, ?_⟩
  rcases h5.mp rfl with h | ⟨k, x, xs, ⟨d, hd, -⟩, -⟩ | ⟨hd, -⟩
  · exact h
  · cases hd
  · cases hd

/-- The files of the example: the hidden copy and the draft do not count. -/
example : (loadedFiles jsonLib.adv jsonCheckout).map (fun f => (f.metadata.id.string, f.metadata.collection)) =
    [("RUSTSEC-2021-0001".toList, some .crates)] := by decide +kernel

/-- The world of an audit of another lockfile. -/
def jsonEnv : Env := { auditEnv (jsonCheckout.tree jsonLib.adv jsonSev) true with loadLock := fun _ => some jsonLock }

theorem jsonCheckout_files : ∀ f, HasAdvisory jsonLib.adv jsonCheckout f → f.metadata.source = none := by
  have h : (loadedFiles jsonLib.adv jsonCheckout).all (fun f => decide (f.metadata.source = none)) = true := by
    decide +kernel
  intro f hf
  exact of_decide_eq_true (List.all_eq_true.mp h f ((mem_loadedFiles _ _ _).mpr hf))

/-- The hypotheses of `C83_back` are met: the report is read back, with the vulnerability. -/
example : ∃ r n line j R, runAudit jsonEnv {} { output := { format := .json } } = (some (.json r), .code n) ∧
    jsonOutput jsonLib jsonCheckout (some ("0123".toList, (2021 : Nat))) jsonLock r = .ok (line ++ ['\n']) ∧
    readJson line = some j ∧ FullReport.deserialize jsonLib j = .ok R ∧ R.dependencyCount = 2 := by
  obtain ⟨db, hdb⟩ := jsonCheckout_opens
  obtain ⟨r, n, line, j, R, h1, h2, h3, h4, -, h5, -⟩ := C83_back jsonLib jsonLib_lawful jsonLib_req jsonSev
    jsonEnv {} { output := { format := .json } } rfl "Cargo.lock".toList rfl
    jsonCheckout rfl db hdb jsonLock rfl (some ("0123".toList, (2021 : Nat)))
    (by rintro x ⟨⟩; exact ⟨_, rfl⟩) jsonDoc jsonDoc_parses jsonLock_kept
    (by intro f hf s hs; rw [jsonCheckout_files f hf] at hs; cases hs)
    (by intro i hi; cases hi)
    (by
      intro i hi
      have hi : i ∈ [Informational.unmaintained, .unsound, .notice] := hi
      simp only [List.mem_cons, List.not_mem_nil, or_false] at hi
      rcases hi with rfl | rfl | rfl
      · exact ⟨"unmaintained".toList, by decide +kernel⟩
      · exact ⟨"unsound".toList, by decide +kernel⟩
      · exact ⟨"notice".toList, by decide +kernel⟩)
  exact ⟨r, n, line, j, R, h1, h2, h3, h4, h5⟩

/-- SARIF: the vulnerability is in the document, and the exit status is 1. -/
example : ∃ r line j fs, runAudit jsonEnv { file := some "elsewhere/other.lock".toList } { output := { format := .sarif } } =
      (some (.sarif r), .code 1) ∧
    sarifOutput jsonLib Cvss.binary64 "0.22.0".toList jsonCheckout none jsonLock r none = .ok (line ++ ['\n']) ∧
    readJson (line ++ ['\n']) = some j ∧
    ShowsFindings jsonLib "0.22.0".toList "Cargo.lock".toList fs j ∧ ∃ v, .vulnerability v ∈ fs := by
  obtain ⟨db, hdb⟩ := jsonCheckout_opens
  obtain ⟨r, n, line, j, fs, h1, h2, -, h3, h4, -, -, h5⟩ := C84_sarif jsonLib jsonLib_req Cvss.binary64 Cvss.binary64_ok
    "0.22.0".toList jsonSev jsonEnv { file := some "elsewhere/other.lock".toList } { output := { format := .sarif } } rfl
    "elsewhere/other.lock".toList rfl jsonCheckout rfl db hdb jsonLock rfl none
  have hcode : (runAudit jsonEnv { file := some "elsewhere/other.lock".toList }
      { output := { format := .sarif } }).2 = .code 1 := by decide +kernel
  rw [h1] at hcode
  have hn : n = 1 := by simpa using hcode
  subst hn
  refine ⟨r, line, j, fs, h1, h2, h3, h4, ?_⟩
  rcases h5.mp rfl with ⟨f, hf, hd⟩ | ⟨hd, -⟩
  · cases f with
    | vulnerability v => exact ⟨v, hf⟩
    | warning w => obtain ⟨d, hd, -⟩ := hd; cases hd
  · cases hd

end Verif.Props
