import Verif.Model.Audit

/-!
# SARIF output

Model of `cargo-audit/src/sarif.rs`.  Not modelled: descriptions, help texts, CVSS scores and the serialization as JSON.
-/

namespace Verif.Audit

open Verif.Lock Verif.Adv Verif.Rep

/-- `sarif.rs:272-276`, `380-384`: `ReportingLevel` and `ResultLevel`. -/
inductive Level where
  | error | warning
  deriving DecidableEq, Repr

/-- `sarif.rs:124-141`: `ReportingDescriptor`, without the longer texts; `vulnerability` is the tag (`vulnerability` or
`warning`). -/
structure Rule where
  id : Str
  name : Str
  shortDescription : Str
  level : Level
  vulnerability : Bool
  deriving DecidableEq, Repr

/-- `sarif.rs:145-196`: `ReportingDescriptor::from_advisory`. -/
def Rule.ofAdvisory (m : Metadata) (isVulnerability : Bool) : Rule :=
  { id := m.id.display, name := m.id.display, shortDescription := m.title,
    level := if isVulnerability then .error else .warning, vulnerability := isVulnerability }

/-- `warning.rs:89-96`: `WarningKind::as_str`; also the derived `Debug` in lower case (`sarif.rs:72`, `338`). -/
def kindStr : WarningKind → Str
  | .notice => ['n', 'o', 't', 'i', 'c', 'e']
  | .unmaintained => ['u', 'n', 'm', 'a', 'i', 'n', 't', 'a', 'i', 'n', 'e', 'd']
  | .unsound => ['u', 'n', 's', 'o', 'u', 'n', 'd']
  | .yanked => ['y', 'a', 'n', 'k', 'e', 'd']

/-- `sarif.rs:199-236`: `ReportingDescriptor::from_warning_kind`; the short description is left out. -/
def Rule.ofKind (k : WarningKind) : Rule :=
  let name : Str :=
    match k with
    | .unmaintained => ['u', 'n', 'm', 'a', 'i', 'n', 't', 'a', 'i', 'n', 'e', 'd']
    | .unsound => ['u', 'n', 's', 'o', 'u', 'n', 'd']
    | .yanked => ['y', 'a', 'n', 'k', 'e', 'd']
    | _ => ['u', 'n', 'k', 'n', 'o', 'w', 'n']
  { id := name, name := name, shortDescription := [], level := .warning, vulnerability := false }

/-- `sarif.rs:292-303`: `SarifResult`; the only fingerprint, and the location's URI. -/
structure SarifResult where
  ruleId : Str
  message : Str
  level : Level
  uri : Str
  fingerprint : Str
  deriving DecidableEq, Repr

/-- `sarif.rs:307-331`: `SarifResult::from_vulnerability`. -/
def SarifResult.ofVulnerability (C : Codec) (v : Vulnerability) (path : Str) : SarifResult :=
  { ruleId := v.advisory.id.display
    message := v.package.name ++ ' ' :: C.showVersion v.package.version ++ " is vulnerable to ".toList ++
      v.advisory.id.display ++ " (".toList ++ v.advisory.title ++ ")".toList
    level := .error
    uri := path
    fingerprint := v.advisory.id.display ++ ':' :: v.package.name ++ ':' :: C.showVersion v.package.version }

/-- The rule of a warning: the ID of its advisory, or the name of the given kind (`sarif.rs:69-73`, `335-339`). -/
def warningRuleId (k : WarningKind) (w : Warning) : Str :=
  match w.advisory with
  | some m => m.id.display
  | none => kindStr k

/-- The rule recorded for a warning (`sarif.rs:75-80`). -/
def warningRule (k : WarningKind) (w : Warning) : Rule :=
  match w.advisory with
  | some m => Rule.ofAdvisory m false
  | none => Rule.ofKind k

/-- `sarif.rs:334-377`: `SarifResult::from_warning`. -/
def SarifResult.ofWarning (C : Codec) (w : Warning) (path : Str) : SarifResult :=
  let ruleId := warningRuleId w.kind w
  { ruleId := ruleId
    message := w.package.name ++ ' ' :: C.showVersion w.package.version ++ " has a ".toList ++ kindStr w.kind ++
      " warning".toList ++ (match w.advisory with | some m => ": ".toList ++ m.title | none => [])
    level := .warning
    uri := path
    fingerprint := ruleId ++ ':' :: w.package.name ++ ':' :: C.showVersion w.package.version }

/-- The state of the loop: rules, rule IDs seen, results. -/
structure SarifAcc where
  rules : List Rule := []
  seen : List Str := []
  results : List SarifResult := []
  deriving DecidableEq, Repr

/-- One turn of a loop (`sarif.rs:60-64`, `75-82`). -/
def SarifAcc.push (s : SarifAcc) (ruleId : Str) (rule : Rule) (result : SarifResult) : SarifAcc :=
  if s.seen.contains ruleId then { s with results := s.results ++ [result] }
  else { rules := s.rules ++ [rule], seen := ruleId :: s.seen, results := s.results ++ [result] }

/-- `sarif.rs:52-92`: `Run::from_report`: the rules and the results. -/
def sarifRun (C : Codec) (r : Report) (path : Str) : List Rule × List SarifResult :=
  let s := r.vulnerabilities.list.foldl
    (fun (s : SarifAcc) v => s.push v.advisory.id.display (Rule.ofAdvisory v.advisory true) (SarifResult.ofVulnerability C v path)) {}
  let s := (inOrder r.warnings).foldl
    (fun (s : SarifAcc) e => e.2.foldl
      (fun (s : SarifAcc) w => s.push (warningRuleId e.1 w)
        (warningRule e.1 w)
        (SarifResult.ofWarning C w path)) s) s
  (s.rules, s.results)

end Verif.Audit
