import Verif.Model.ReportJson
import Verif.Model.Sarif
import Verif.Model.CvssScore

/-!
# The SARIF document

All of `cargo-audit/src/sarif.rs`: the rules with all their texts, and the serialization.  The version of the program
is a parameter; the hash map of fingerprints has one entry.
-/

namespace Verif.SarifJson

open Verif.Semver Verif.Osv Verif.Lock Verif.Adv Verif.Rep Verif.RepJson Verif.Audit

/-- `format!("{:.1}", x)` of an `f64` that is not negative: rounded to the nearest tenth (a value half way between two
tenths, which no score is, is rounded up here). -/
def fmt1 (x : ℚ) : Str :=
  let n := ⌊x * 10 + 1 / 2⌋.toNat
  showNat (n / 10) ++ '.' :: showNat (n % 10)

/-- `sarif.rs:124-141`: `struct ReportingDescriptor` with its parts (`RuleProperties` 240-255, `MultiformatMessageString`
280-287): `vulnerability` chooses the tags, `help` is text and Markdown. -/
structure FullRule where
  id : Str
  name : Str
  shortDescription : Str
  fullDescription : Option Str
  level : Level
  help : Option (Str × Str)
  vulnerability : Bool
  veryHigh : Bool
  problemSeverity : Bool
  securitySeverity : Option Str
  deriving DecidableEq, Repr

/-- `sarif.rs:152-155`: the score as text. -/
def scoreText (F : Cvss.Fp) : Option Cvss.Cvss → Outcome (Option Str)
  | none => .ok none
  | some c =>
    match Cvss.Cvss.score F c with
    | .ok x => .ok (some (fmt1 x))
    | .err => .err
    | .panic => .panic

/-- `sarif.rs:164-171`: no description if it is empty. -/
def fullText (d : Str) : Option Str := if d.isEmpty then none else some d

/-- `sarif.rs:178-184`: text and Markdown of the help. -/
def helpText (id : Str) (u : Url) : Str × Str :=
  ("For more information, see: ".toList ++ u.text,
    "For more information, see: [".toList ++ id ++ "](".toList ++ u.text ++ ")".toList)

/-- `sarif.rs:145-196`: `ReportingDescriptor::from_advisory`. -/
def FullRule.ofAdvisory (F : Cvss.Fp) (m : FileMetadata) (isVulnerability : Bool) : Outcome FullRule := do
  let s ← scoreText F m.cvss
  .ok { id := m.id.string, name := m.id.string, shortDescription := m.title, fullDescription := fullText m.description,
        level := if isVulnerability then .error else .warning,
        help := m.url.map (helpText m.id.string),
        vulnerability := isVulnerability, veryHigh := true, problemSeverity := !isVulnerability,
        securitySeverity := s }

/-- `sarif.rs:200-214`: name and description of a kind. -/
def kindTexts : WarningKind → Str × Str
  | .unmaintained => ("unmaintained".toList,
      "Package is unmaintained and may have unaddressed security vulnerabilities".toList)
  | .unsound => ("unsound".toList,
      "Package has known soundness issues that may lead to memory safety problems".toList)
  | .yanked => ("yanked".toList, "Package version has been yanked from the registry".toList)
  | .notice => ("unknown".toList, "Unknown warning type".toList)

/-- `sarif.rs:199-236`: `ReportingDescriptor::from_warning_kind`. -/
def FullRule.ofKind (k : WarningKind) : FullRule :=
  { id := (kindTexts k).1, name := (kindTexts k).1, shortDescription := (kindTexts k).2, fullDescription := none,
    level := .warning, help := none, vulnerability := false, veryHigh := false, problemSeverity := true,
    securitySeverity := none }

/-- `sarif.rs:307-331`: `SarifResult::from_vulnerability`. -/
def resultOfVulnerability (L : ReportLib) (v : FullVulnerability) (path : Str) : SarifResult :=
  { ruleId := v.advisory.id.string
    message := v.package.name ++ " ".toList ++ L.showVersion v.package.version ++ " is vulnerable to ".toList ++
      v.advisory.id.string ++ " (".toList ++ v.advisory.title ++ ")".toList
    level := .error
    uri := path
    fingerprint := v.advisory.id.string ++ ":".toList ++ v.package.name ++ ":".toList ++
      L.showVersion v.package.version }

/-- `sarif.rs:69-73,335-339`: the advisory's ID, or the kind's name in lower case. -/
def ruleIdOf (k : WarningKind) (w : FullWarning) : Str :=
  match w.advisory with
  | some m => m.id.string
  | none => kindStr k

/-- `sarif.rs:341-356`: the message of a warning. -/
def warningText (L : ReportLib) (w : FullWarning) : Str :=
  w.package.name ++ " ".toList ++ L.showVersion w.package.version ++ " has a ".toList ++ w.kind.asStr ++
    (match w.advisory with
      | some m => " warning: ".toList ++ m.title
      | none => " warning".toList)

/-- `sarif.rs:334-377`: `SarifResult::from_warning`. -/
def resultOfWarning (L : ReportLib) (w : FullWarning) (path : Str) : SarifResult :=
  { ruleId := ruleIdOf w.kind w
    message := warningText L w
    level := .warning
    uri := path
    fingerprint := ruleIdOf w.kind w ++ ":".toList ++ w.package.name ++ ":".toList ++
      L.showVersion w.package.version }

/-- `sarif.rs:75-80`: the rule of a warning. -/
def ruleOfWarning (F : Cvss.Fp) (k : WarningKind) (w : FullWarning) : Outcome FullRule :=
  match w.advisory with
  | some m => FullRule.ofAdvisory F m false
  | none => .ok (FullRule.ofKind k)

/-- The state of the loops: rules, rule IDs seen, results. -/
structure Acc where
  rules : List FullRule := []
  seen : List Str := []
  results : List SarifResult := []

/-- `sarif.rs:60-64,75-82`: one turn of a loop; the rule is only made if its ID is new. -/
def Acc.push (s : Acc) (ruleId : Str) (rule : Outcome FullRule) (result : SarifResult) : Outcome Acc :=
  if s.seen.contains ruleId then .ok { s with results := s.results ++ [result] }
  else
    match rule with
    | .ok r => .ok { rules := s.rules ++ [r], seen := ruleId :: s.seen, results := s.results ++ [result] }
    | .err => .err
    | .panic => .panic

/-- `sarif.rs:57-65`: the first loop. -/
def pushVulnerabilities (L : ReportLib) (F : Cvss.Fp) (path : Str) : List FullVulnerability → Acc → Outcome Acc
  | [], s => .ok s
  | v :: vs, s => do
    let s ← s.push v.advisory.id.string (FullRule.ofAdvisory F v.advisory true) (resultOfVulnerability L v path)
    pushVulnerabilities L F path vs s

/-- `sarif.rs:68-83`: the inner loop over the warnings of a kind. -/
def pushWarnings (L : ReportLib) (F : Cvss.Fp) (path : Str) (k : WarningKind) : List FullWarning → Acc → Outcome Acc
  | [], s => .ok s
  | w :: ws, s => do
    let s ← s.push (ruleIdOf k w) (ruleOfWarning F k w) (resultOfWarning L w path)
    pushWarnings L F path k ws s

/-- `sarif.rs:67-84`: the outer loop. -/
def pushKinds (L : ReportLib) (F : Cvss.Fp) (path : Str) : List (WarningKind × List FullWarning) → Acc → Outcome Acc
  | [], s => .ok s
  | e :: es, s => do
    let s ← pushWarnings L F path e.1 e.2 s
    pushKinds L F path es s

/-- `sarif.rs:23-29,52-92`: `SarifLog::from_report`, `Run::from_report`: the rules and results of the one run. -/
def fromReport (L : ReportLib) (F : Cvss.Fp) (r : FullReport L.Time) (path : Str) :
    Outcome (List FullRule × List SarifResult) := do
  let s ← pushVulnerabilities L F path r.vulnerabilities.list {}
  let s ← pushKinds L F path r.warnings s
  .ok (s.rules, s.results)

/-! ### Serialization -/

/-- A member that is left out if there is no value (`skip_serializing_if`). -/
def memberOpt (k : String) : Option Json → List (Str × Json)
  | some j => [(k.toList, j)]
  | none => []

/-- `sarif.rs:279-287`: `MultiformatMessageString`. -/
def jmessage (text : Str) (markdown : Option Str) : Json :=
  .obj ([("text".toList, .str text)] ++ memberOpt "markdown" (markdown.map .str))

/-- `sarif.rs:270-276,379-384`: the levels in camel case. -/
def jlevel : Level → Json
  | .error => .str "error".toList
  | .warning => .str "warning".toList

/-- `sarif.rs:238-261,438-454`: `RuleProperties`, with `Tag`, `Precision` and `ProblemSeverity`. -/
def jproperties (r : FullRule) : Json :=
  .obj
    ([("tags".toList, .arr [.str "security".toList,
        .str (if r.vulnerability then "vulnerability".toList else "warning".toList)]),
      ("precision".toList, .str (if r.veryHigh then "very-high".toList else "high".toList))]
      ++ memberOpt "problem.severity" (if r.problemSeverity then some (.str "warning".toList) else none)
      ++ memberOpt "security-severity" (r.securitySeverity.map .str))

/-- `sarif.rs:121-141`: the derived `Serialize` of `ReportingDescriptor` (camel case). -/
def jrule (r : FullRule) : Json :=
  .obj
    ([("id".toList, .str r.id), ("name".toList, .str r.name),
      ("shortDescription".toList, jmessage r.shortDescription none)]
      ++ memberOpt "fullDescription" (r.fullDescription.map fun t => jmessage t none)
      ++ [("defaultConfiguration".toList, .obj [("level".toList, jlevel r.level)])]
      ++ memberOpt "help" (r.help.map fun h => jmessage h.1 (some h.2))
      ++ [("properties".toList, jproperties r)])

/-- `sarif.rs:394-436`: `Location` and its parts; the line is always 1. -/
def jlocation (uri : Str) : Json :=
  .obj [("physicalLocation".toList, .obj
    [("artifactLocation".toList, .obj [("uri".toList, .str uri)]),
      ("region".toList, .obj [("startLine".toList, .num 1)])])]

/-- `sarif.rs:289-303`: the derived `Serialize` of `SarifResult`. -/
def jresult (r : SarifResult) : Json :=
  .obj
    [("ruleId".toList, .str r.ruleId),
      ("message".toList, .obj [("text".toList, .str r.message)]),
      ("level".toList, jlevel r.level),
      ("locations".toList, .arr [jlocation r.uri]),
      ("partialFingerprints".toList, .obj [("cargo-audit/advisory-fingerprint".toList, .str r.fingerprint)])]

/-- `sarif.rs:95-119`: `Tool` and `Serialize for ToolComponent`. -/
def jtool (version : Str) (rules : List FullRule) : Json :=
  .obj [("driver".toList, .obj
    [("name".toList, .str "cargo-audit".toList), ("version".toList, .str version),
      ("semanticVersion".toList, .str version), ("rules".toList, .arr (rules.map jrule))])]

/-- `sarif.rs:32-49`: `Serialize for SarifLog`, `Run`. -/
def jlog (version : Str) (run : List FullRule × List SarifResult) : Json :=
  .obj
    [("$schema".toList, .str "https://json.schemastore.org/sarif-2.1.0.json".toList),
      ("version".toList, .str "2.1.0".toList),
      ("runs".toList, .arr [.obj [("tool".toList, jtool version run.1), ("results".toList, .arr (run.2.map jresult))]])]

/-- cargo-audit/src/presenter.rs:129-138: one SARIF report; without a path the file is called `Cargo.lock`.  (Writing to
standard output is taken to succeed.) -/
def printSarifReport (L : ReportLib) (F : Cvss.Fp) (version : Str) (r : FullReport L.Time) (path : Option Str) :
    Outcome Str := do
  let run ← fromReport L F r (path.getD "Cargo.lock".toList)
  .ok (Json.print (jlog version run) ++ ['\n'])

end Verif.SarifJson
