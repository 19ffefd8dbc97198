import Verif.Model.Terminal
import Verif.Spec.Audit

/-!
# Specification: what `cargo audit` prints on the terminal (C73)
-/

namespace Verif.Spec

open Verif.Audit Verif.Semver Verif.Osv Verif.Adv Verif.Rep Verif.Lock

/-- The words one after another, with `sep` between two of them. -/
def separated (sep : String) (words : List Str) : Str := (words.intersperse sep.toList).flatten

/-- A version without prerelease or build identifiers. -/
def Release (v : Version) : Prop := v.pre = [] ∧ v.build = []

/-- Each comparator means the same to the crate as to `semver`: `=`, `>` and `<=` name all three numbers. -/
def ExactNumbers (r : VersionReq) : Prop :=
  ∀ c ∈ r.comparators, (c.op = .exact ∨ c.op = .greater ∨ c.op = .lessEq) → c.patch ≠ none

/-- The address shown for an advisory: the original one if the licence asks for credit, else the page of its ID; the
other one if there is only that. -/
inductive Linked (m : Metadata) : Str → Prop
  | original (u : Lock.Url) : m.license = .ccBy40 → m.url = some u → Linked m u.text
  | originalUnknown (s : Str) : m.license = .ccBy40 → m.url = none → m.id.url = some s → Linked m s
  | page (s : Str) : m.license ≠ .ccBy40 → m.id.url = some s → Linked m s
  | noPage (u : Lock.Url) : m.license ≠ .ccBy40 → m.id.url = none → m.url = some u → Linked m u.text

/-- The line is marked as an error. -/
def Red : TermLine → Prop
  | .attr e _ _ => e = true
  | .tree e _ => e = true
  | .total e _ => e = true
  | .blank => False

/-- What is said about an advisory. -/
structure Introduces (T : TermLib) (m : Metadata) (error : Bool) (block : List TermLine) : Prop where
  title : .attr error "Title:    ".toList m.title ∈ block
  date : .attr error "Date:     ".toList m.date.text ∈ block
  id : .attr error "ID:       ".toList m.id.display ∈ block
  link : ∀ s, .attr error "URL:      ".toList s ∈ block ↔ Linked m s
  severity : ∀ s, .attr error "Severity: ".toList s ∈ block ↔
    ∃ vector grade, m.cvss = some vector ∧ m.severity = some grade ∧
      s = T.score vector ++ " (".toList ++ grade.asStr ++ ")".toList

/-- What is said about a finding. -/
structure Describes (T : TermLib) (deny : List WarningKind) (finding : Vulnerability ⊕ Warning) (block : List TermLine) :
    Prop where
  crate : .attr (finding.elim (fun _ => true) fun w => deny.contains w.kind) "Crate:    ".toList
    (finding.elim (·.package.name) (·.package.name)) ∈ block
  version : .attr (finding.elim (fun _ => true) fun w => deny.contains w.kind) "Version:  ".toList
    (T.version (finding.elim (·.package.version) (·.package.version))) ∈ block
  vulnerability : ∀ v, finding = .inl v → Introduces T v.advisory true block
  solution : ∀ v, finding = .inl v → ∀ s, .attr true "Solution: ".toList s ∈ block ↔ s = Audit.solution T v
  warning : ∀ w, finding = .inr w → ∀ s, .attr (deny.contains w.kind) "Warning:  ".toList s ∈ block ↔ s = w.kind.asStr
  advisory : ∀ w m, finding = .inr w → w.advisory = some m → Introduces T m (deny.contains w.kind) block
  /-- Red, if it makes the run fail, or else not. -/
  colour : ∀ x ∈ block, Red x → finding.elim (fun _ => True) fun w => w.kind ∈ deny
  ends : ∃ b, block = b ++ [.blank]

/-- The findings of a report, in the order they are printed: vulnerabilities, then warnings by kind. -/
def findings (r : Report) : List (Vulnerability ⊕ Warning) :=
  r.vulnerabilities.list.map .inl ++ ((inOrder r.warnings).flatMap (·.2)).map .inr

/-- The functions that advisories name have a name. -/
def NamedFunctions (r : Report) : Prop :=
  ∀ f ∈ findings r, ∀ a, f.elim (·.affected) (·.affected) = some a → ∀ e ∈ a.functions, e.1 ≠ []

/-- Where the findings are: in the file, if there is one, else nothing but a mark. -/
def place (path : Option Str) (mark : String) : Str := match path with | some p => " in ".toList ++ p | none => mark.toList

/-- `warning`, in the right number. -/
def warningWords (n : Nat) : Str := if n = 1 then "warning".toList else "warnings".toList

/-- The totals: of vulnerabilities, of denied and of other warnings, as far as there are any. -/
def totals (path : Option Str) (vulnerabilities denied allowed : Nat) : List TermLine :=
  (if vulnerabilities = 0 then []
    else if vulnerabilities = 1 then [.total true ("1 vulnerability found".toList ++ place path "!")]
    else [.total true (showNat vulnerabilities ++ " vulnerabilities found".toList ++ place path "!")]) ++
  ((if denied = 0 then []
    else [.total true (showNat denied ++ " denied ".toList ++ warningWords denied ++ " found".toList ++ place path "!")]) ++
  (if allowed = 0 then []
    else [.total false (showNat allowed ++ " allowed ".toList ++ warningWords allowed ++ " found".toList ++ place path "")]))

end Verif.Spec
