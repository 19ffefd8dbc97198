import Verif.Model.Audit
import Verif.Model.AdvisoryFile

/-!
# What `cargo audit` prints about a finding

Model of the rest of `cargo-audit/src/presenter.rs`: the text of the items of `Printed.terminal`.  Terminal colours are a
flag (red for what counts as an error), and the text of a requirement, a version and a score are arguments.
-/

namespace Verif.Audit

open Verif.Semver Verif.Osv Verif.Adv Verif.Db Verif.Rep Verif.Lock

/-- Texts made by other crates: `Display` of versions and requirements, and of the score of a CVSS vector (given by its
text). -/
structure TermLib where
  version : Version → Str
  req : VersionReq → Str
  score : Str → Str

/-- What is written: an attribute of a finding, a dependency tree, an empty line, or a total. -/
inductive TermLine where
  | attr (error : Bool) (label text : Str)
  | tree (error : Bool) (text : Str)
  | blank
  | total (error : Bool) (text : Str)
  deriving DecidableEq, Repr

/-- `[T]::join` for strings. -/
def joinWith (sep : Str) : List Str → Str
  | [] => []
  | [s] => s
  | s :: rest => s ++ sep ++ joinWith sep rest

/-- `presenter.rs:507-512`: `join_reqs`. -/
def joinReqs (T : TermLib) (rs : List VersionReq) : Str := joinWith " OR ".toList (rs.map T.req)

/-- `presenter.rs:400-415`: the link of an advisory. -/
def linkOf (m : Metadata) : Option Str :=
  if m.license = .ccBy40 then
    match m.url with
    | some u => some u.text
    | none => m.id.url
  else
    match m.id.url with
    | some u => some u
    | none => m.url.map Url.text

/-- `presenter.rs:417-423`: the line on the severity. -/
def severityLine (T : TermLib) (error : Bool) (m : Metadata) : List TermLine :=
  match m.cvss, m.severity with
  | some v, some s => [.attr error "Severity: ".toList (T.score v ++ " (".toList ++ s.asStr ++ ")".toList)]
  | _, _ => []

/-- `presenter.rs:395-424`: `print_metadata`. -/
def metadataLines (T : TermLib) (error : Bool) (m : Metadata) : List TermLine :=
  [.attr error "Title:    ".toList m.title, .attr error "Date:     ".toList m.date.text,
    .attr error "ID:       ".toList m.id.display] ++
  (match linkOf m with | some u => [.attr error "URL:      ".toList u] | none => []) ++
  severityLine T error m

/-- `presenter.rs:348-375`: what to do about a vulnerability. -/
def solution (T : TermLib) (v : Vulnerability) : Str :=
  if !v.versions.patched.isEmpty then "Upgrade to ".toList ++ joinReqs T v.versions.patched ++ " (patched)".toList
  else
    let newer := v.versions.unaffected.filter fun r => permitsNewer r v.package.version
    if newer.isEmpty then "No fixed upgrade is available!".toList
    else "Upgrade to ".toList ++ joinReqs T newer ++ " (unaffected)".toList

/-- `presenter.rs:343-376`: `print_vulnerability`. -/
def vulnerabilityLines (T : TermLib) (v : Vulnerability) : List TermLine :=
  [.attr true "Crate:    ".toList v.package.name, .attr true "Version:  ".toList (T.version v.package.version)] ++
  metadataLines T true v.advisory ++ [.attr true "Solution: ".toList (solution T v)]

/-- `presenter.rs:379-387`: `print_warning`. -/
def warningLines (T : TermLib) (error : Bool) (w : Warning) : List TermLine :=
  [.attr error "Crate:    ".toList w.package.name, .attr error "Version:  ".toList (T.version w.package.version),
    .attr error "Warning:  ".toList w.kind.asStr] ++
  (match w.advisory with | some m => metadataLines T error m | none => [])

/-- `presenter.rs:437-450`: `print_affected`. -/
def affectedLines (error : Bool) (funcs : List (List Str)) : Outcome (List TermLine) :=
  if funcs.isEmpty then .ok []
  else
    match Outcome.mapList FunctionPath.display funcs with
    | .ok texts => .ok [.attr error "Affected: ".toList (joinWith ", ".toList texts)]
    | .err => .err
    | .panic => .panic

/-- `presenter.rs:178-191, 194-225`: one item of the report. -/
def Item.lines (T : TermLib) (i : Item) : Outcome (List TermLine) :=
  match affectedLines i.error i.affected with
  | .ok affected =>
    .ok ((match i.finding with | .inl v => vulnerabilityLines T v | .inr w => warningLines T i.error w) ++ affected ++
      (match i.tree with | some t => [.tree i.error t] | none => []) ++ [.blank])
  | .err => .err
  | .panic => .panic

/-- `presenter.rs:109-111`: `warning_word`. -/
def warningWord (n : Nat) : Str := if n ≠ 1 then "warnings".toList else "warning".toList

/-- Where it was found: ` in <path>`, or the punctuation used without a path. -/
def foundIn (path : Option Str) (otherwise : String) : Str :=
  match path with
  | some p => " in ".toList ++ p
  | none => otherwise.toList

/-- `presenter.rs:227-245`: the number of vulnerabilities. -/
def vulnerabilityTotal (path : Option Str) : Option Nat → List TermLine
  | none => []
  | some n =>
    if n = 1 then [.total true ("1 vulnerability found".toList ++ foundIn path "!")]
    else [.total true (showNat n ++ " vulnerabilities found".toList ++ foundIn path "!")]

/-- `presenter.rs:249-275`: the numbers of warnings. -/
def warningTotals (path : Option Str) (denied allowed : Nat) : List TermLine :=
  (if denied > 0 then
    [.total true (showNat denied ++ " denied ".toList ++ warningWord denied ++ " found".toList ++ foundIn path "!")]
    else []) ++
  (if allowed > 0 then
    [.total false (showNat allowed ++ " allowed ".toList ++ warningWord allowed ++ " found".toList ++ foundIn path "")]
    else [])

/-- `presenter.rs:178-275`: a report on the terminal; other formats are documents. -/
def Printed.screen (T : TermLib) (path : Option Str) : Printed → Outcome (List TermLine)
  | .json _ => .ok []
  | .sarif _ => .ok []
  | .terminal items v d al =>
    match Outcome.mapList (Item.lines T) items with
    | .ok blocks => .ok (blocks.flatten ++ vulnerabilityTotal path v ++ warningTotals path d al)
    | .err => .err
    | .panic => .panic

/-- `presenter.rs:279-300`: `print_self_report`. -/
def Presenter.selfReport (T : TermLib) (p : Presenter) (self : List Advisory) : List TermLine :=
  if self.isEmpty then []
  else
    let denied := p.config.deny.contains .warnings
    .total denied
      ("This copy of cargo-audit has known advisories! Upgrade cargo-audit to the latest version: " ++
        "cargo install --force cargo-audit").toList ::
    (self.flatMap fun a => metadataLines T denied a.metadata) ++ [.blank]

/-- Which stream a line goes to: `status_err!` (the errors among the totals) writes to stderr, the rest to stdout
(`presenter.rs:229-275, 288-300, 427-434`). -/
def TermLine.onStdout : TermLine → Bool
  | .total error _ => !error
  | _ => true

/-- `commands/audit.rs:285-306` with `auditor.rs:203-224`: what a run prints: the report and the report on the tool
itself (as far as the run gets that far). -/
def runPrints (T : TermLib) (env : Env) (cmd : AuditCommand) (c : AuditConfig) : Option (Printed × List TermLine) :=
  match env.locate cmd.file with
  | none => none
  | some path =>
    match Auditor.new env c with
    | .err => none
    | .panic => none
    | .ok a =>
      match env.loadLock path with
      | none => none
      | some l =>
        match a.audit env l none with
        | .err => none
        | .panic => none
        | .ok (a, _, out) => (a.selfAdvisories env).map fun self => (out, a.presenter.selfReport T self)

end Verif.Audit
