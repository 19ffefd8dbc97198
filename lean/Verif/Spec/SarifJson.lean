import Verif.Model.ReportJson
import Verif.Spec.ReportJson
import Verif.Spec.CvssScore

/-!
# What a SARIF document must show (C81)

Places in the document are paths of keys and indices (`jsonAt`).
-/

namespace Verif.Spec

open Verif.Semver Verif.Osv Verif.Lock Verif.Adv Verif.Rep Verif.RepJson

/-- What a report has to say: a vulnerability or a warning. -/
inductive SarifFinding where
  | vulnerability (v : FullVulnerability)
  | warning (w : FullWarning)

namespace SarifFinding

/-- The vulnerabilities of a report, then its warnings, in order. -/
def all {T : Type} (r : FullReport T) : List SarifFinding :=
  r.vulnerabilities.list.map .vulnerability ++ (r.warnings.flatMap Prod.snd).map .warning

def advisory : SarifFinding → Option FileMetadata
  | .vulnerability v => some v.advisory
  | .warning w => w.advisory

def package : SarifFinding → Package
  | .vulnerability v => v.package
  | .warning w => w.package

/-- The name of the rule that was broken: the ID of the advisory, or the kind of the warning. -/
def rule : SarifFinding → Str
  | .vulnerability v => v.advisory.id.string
  | .warning w => match w.advisory with
    | some m => m.id.string
    | none => w.kind.asStr

def level : SarifFinding → Str
  | .vulnerability _ => "error".toList
  | .warning _ => "warning".toList

/-- The sentence shown to the user. -/
def message (L : ReportLib) : SarifFinding → Str
  | .vulnerability v =>
    v.package.name ++ " ".toList ++ L.showVersion v.package.version ++ " is vulnerable to ".toList ++
      v.advisory.id.string ++ " (".toList ++ v.advisory.title ++ ")".toList
  | .warning ⟨kind, p, some m, _, _⟩ =>
    p.name ++ " ".toList ++ L.showVersion p.version ++ " has a ".toList ++ kind.asStr ++ " warning: ".toList ++ m.title
  | .warning ⟨kind, p, none, _, _⟩ =>
    p.name ++ " ".toList ++ L.showVersion p.version ++ " has a ".toList ++ kind.asStr ++ " warning".toList

/-- What is said of a rule in short: the title of the advisory, or a sentence about the kind. -/
def short (f : SarifFinding) : Str :=
  match f with
  | .vulnerability v => v.advisory.title
  | .warning w => match w.advisory with
    | some m => m.title
    | none => match w.kind with
      | .unmaintained => "Package is unmaintained and may have unaddressed security vulnerabilities".toList
      | .unsound => "Package has known soundness issues that may lead to memory safety problems".toList
      | .yanked => "Package version has been yanked from the registry".toList
      | .notice => "Unknown warning type".toList

/-- The fingerprint: rule, package and version. -/
def fingerprint (L : ReportLib) (f : SarifFinding) : Str :=
  joinC ':' [f.rule, f.package.name, L.showVersion f.package.version]

end SarifFinding

/-- A number of tenths as a decimal with one digit after the point. -/
def tenthsText (k : ℤ) : Str := showNat (k / 10).toNat ++ '.' :: showNat (k % 10).toNat

/-- The score, in tenths, that the CVSS documents give to a vector. -/
def cvssTenths : Cvss.Cvss → Option ℤ
  | .v20 v => some (Cvss.Spec.v2Base v)
  | .v30 b => some (Cvss.Spec.v3Tenths b.metrics)
  | .v31 b => some (Cvss.Spec.v3Tenths b.metrics)
  | .v40 v => (Cvss.Spec.v4Eff v.metrics).map (·.tenths)

/-- At the place there is a result for the finding. -/
structure ShowsResult (L : ReportLib) (place : List JsonStep) (j : Json) (path : Str) (f : SarifFinding) : Prop where
  rule : jsonAt (place ++ [.key "ruleId"]) j = some (.str f.rule)
  message : jsonAt (place ++ [.key "message", .key "text"]) j = some (.str (f.message L))
  level : jsonAt (place ++ [.key "level"]) j = some (.str f.level)
  file : jsonAt (place ++ [.key "locations", .idx 0, .key "physicalLocation", .key "artifactLocation", .key "uri"]) j =
    some (.str path)
  line : jsonAt (place ++ [.key "locations", .idx 0, .key "physicalLocation", .key "region", .key "startLine"]) j =
    some (.num 1)
  one : jsonAt (place ++ [.key "locations", .idx 1]) j = none
  fingerprint : jsonAt (place ++ [.key "partialFingerprints", .key "cargo-audit/advisory-fingerprint"]) j =
    some (.str (f.fingerprint L))

/-- At the place there is the rule for the finding. -/
structure ShowsRule (place : List JsonStep) (j : Json) (f : SarifFinding) : Prop where
  id : jsonAt (place ++ [.key "id"]) j = some (.str f.rule)
  name : jsonAt (place ++ [.key "name"]) j = some (.str f.rule)
  short : jsonAt (place ++ [.key "shortDescription", .key "text"]) j = some (.str f.short)
  level : jsonAt (place ++ [.key "defaultConfiguration", .key "level"]) j = some (.str f.level)
  /-- The description of the advisory, if it has one. -/
  full : ∀ m, f.advisory = some m → m.description ≠ [] →
    jsonAt (place ++ [.key "fullDescription", .key "text"]) j = some (.str m.description)
  no_full : (∀ m, f.advisory = some m → m.description = []) → jsonAt (place ++ [.key "fullDescription"]) j = none
  /-- A link, if the advisory has one. -/
  help : ∀ m u, f.advisory = some m → m.url = some u →
    jsonAt (place ++ [.key "help", .key "text"]) j = some (.str ("For more information, see: ".toList ++ u.text)) ∧
    jsonAt (place ++ [.key "help", .key "markdown"]) j = some (.str
      ("For more information, see: [".toList ++ f.rule ++ "](".toList ++ u.text ++ ")".toList))
  no_help : (∀ m, f.advisory = some m → m.url = none) → jsonAt (place ++ [.key "help"]) j = none
  tags : jsonAt (place ++ [.key "properties", .key "tags"]) j = some (.arr [.str "security".toList,
    .str (match f with | .vulnerability _ => "vulnerability".toList | .warning _ => "warning".toList)])
  precision : jsonAt (place ++ [.key "properties", .key "precision"]) j = some (.str
    (if f.advisory.isSome then "very-high".toList else "high".toList))
  problem : jsonAt (place ++ [.key "properties", .key "problem.severity"]) j =
    (match f with | .vulnerability _ => none | .warning _ => some (.str "warning".toList))
  /-- The score of the advisory, if it has a CVSS vector. -/
  score : ∀ m c, f.advisory = some m → m.cvss = some c → ∃ k, cvssTenths c = some k ∧ 0 ≤ k ∧ k ≤ 100 ∧
    jsonAt (place ++ [.key "properties", .key "security-severity"]) j = some (.str (tenthsText k))
  no_score : (∀ m, f.advisory = some m → m.cvss = none) →
    jsonAt (place ++ [.key "properties", .key "security-severity"]) j = none

/-- The document shows the findings: results for all, and one rule for every name, that of the first finding. -/
structure ShowsFindings (L : ReportLib) (version path : Str) (fs : List SarifFinding) (j : Json) : Prop where
  schema : jsonAt [.key "$schema"] j = some (.str "https://json.schemastore.org/sarif-2.1.0.json".toList)
  sarif : jsonAt [.key "version"] j = some (.str "2.1.0".toList)
  one_run : jsonAt [.key "runs", .idx 1] j = none
  tool : jsonAt [.key "runs", .idx 0, .key "tool", .key "driver", .key "name"] j = some (.str "cargo-audit".toList)
  tool_version : jsonAt [.key "runs", .idx 0, .key "tool", .key "driver", .key "version"] j = some (.str version)
  tool_semver : jsonAt [.key "runs", .idx 0, .key "tool", .key "driver", .key "semanticVersion"] j = some (.str version)
  results : ∃ l, jsonAt [.key "runs", .idx 0, .key "results"] j = some (.arr l) ∧ l.length = fs.length
  result : ∀ (i : Nat) (f : SarifFinding), fs[i]? = some f →
    ShowsResult L [.key "runs", .idx 0, .key "results", .idx i] j path f
  rules : ∃ firsts : List SarifFinding, firsts.Sublist fs ∧ (firsts.map SarifFinding.rule).Nodup ∧
    (∀ f ∈ fs, ∃ g ∈ firsts, g.rule = f.rule) ∧
    (∀ g ∈ firsts, fs.find? (fun f => f.rule == g.rule) = some g) ∧
    (∃ l, jsonAt [.key "runs", .idx 0, .key "tool", .key "driver", .key "rules"] j = some (.arr l) ∧
      l.length = firsts.length) ∧
    ∀ (i : Nat) (g : SarifFinding), firsts[i]? = some g →
      ShowsRule [.key "runs", .idx 0, .key "tool", .key "driver", .key "rules", .idx i] j g

end Verif.Spec
