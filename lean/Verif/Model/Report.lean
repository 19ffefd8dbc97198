import Verif.Model.Database

/-!
# Reports

Model of `rustsec/src/report.rs`.
-/

namespace Verif.Rep

open Verif.Semver Verif.Osv Verif.Lock Verif.Adv Verif.Db

/-- `report.rs:60-78`: `struct Settings`. -/
structure Settings where
  targetArch : List Str := []
  targetOs : List Str := []
  severity : Option Severity := none
  ignore : List Id := []
  informationalWarnings : List Informational := []
  deriving DecidableEq, Repr

/-- `report.rs:81-92`: `Settings::query`. -/
def Settings.query (s : Settings) : Query :=
  let q := { Query.crateScope with targetArch := s.targetArch, targetOs := s.targetOs }
  match s.severity with
  | some sev => { q with severity := some sev }
  | none => q

/-- `rustsec/src/warning.rs:9-25`: `struct Warning`. -/
structure Warning where
  kind : WarningKind
  package : Package
  advisory : Option Metadata
  affected : Option Affected
  versions : Option Versions
  deriving DecidableEq, Repr

/-- `report.rs:143-153`: `struct VulnerabilityInfo`. -/
structure VulnerabilityInfo where
  found : Bool
  count : Nat
  list : List Vulnerability
  deriving DecidableEq, Repr

/-- `report.rs:156-163`: `VulnerabilityInfo::new`. -/
def VulnerabilityInfo.new (l : List Vulnerability) : VulnerabilityInfo :=
  { found := !l.isEmpty, count := l.length, list := l }

/-- `report.rs:166`: `WarningInfo`, a `BTreeMap` keyed by kind, as an association list with unique keys. -/
abbrev WarningInfo := List (WarningKind × List Warning)

/-- `report.rs:207`: `warnings.entry(kind).or_default().push(warning)`. -/
def WarningInfo.push (w : Warning) : WarningInfo → WarningInfo
  | [] => [(w.kind, [w])]
  | (k, ws) :: r => if k = w.kind then (k, ws ++ [w]) :: r else (k, ws) :: WarningInfo.push w r

/-- `report.rs:175-208`: the body of the loop of `find_warnings`; `none` is the `expect` panic. -/
def warnStep (s : Settings) (acc : WarningInfo) (v : Vulnerability) : Option WarningInfo :=
  if s.ignore.contains v.advisory.id then some acc
  else if !s.informationalWarnings.any (fun i => decide (some i = v.advisory.informational)) then some acc
  else
    match v.advisory.informational with
    | none => none
    | some i =>
      match i.warningKind with
      | none => some acc
      | some k =>
        some (acc.push { kind := k, package := v.package, advisory := some v.advisory, affected := v.affected,
                         versions := some v.versions })

/-- `report.rs:169-211`: `find_warnings`. -/
def findWarnings (db : Database) (packages : List Package) (s : Settings) : Option WarningInfo :=
  match db.queryVulnerabilities packages { s.query with informational := some true } with
  | none => none
  | some vs => vs.foldlM (warnStep s) []

/-- `report.rs:17-34`: `struct Report` (database and lockfile summaries left out; settings are echoed). -/
structure Report where
  settings : Settings
  vulnerabilities : VulnerabilityInfo
  warnings : WarningInfo
  deriving DecidableEq, Repr

/-- `report.rs:38-56`: `Report::generate`. -/
def Report.generate (db : Database) (packages : List Package) (s : Settings) : Option Report :=
  match db.queryVulnerabilities packages s.query with
  | none => none
  | some vs =>
    match findWarnings db packages s with
    | none => none
    | some w =>
      some { settings := s,
             vulnerabilities := VulnerabilityInfo.new (vs.filter (fun v => !s.ignore.contains v.advisory.id)),
             warnings := w }

end Verif.Rep
