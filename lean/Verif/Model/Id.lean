import Verif.Model.Str

/-!
# Advisory identifiers

Model of `rustsec/src/advisory/id.rs`.
-/

namespace Verif.Adv

/-- `id.rs:169-186`: `enum IdKind`. -/
inductive IdKind where
  | rustSec | cve | ghsa | talos | other
  deriving DecidableEq, Repr

/-- `id.rs:188-203`: `IdKind::detect`. -/
def IdKind.detect (s : Str) : IdKind :=
  if startsWith s "RUSTSEC-" then .rustSec
  else if startsWith s "CVE-" then .cve
  else if startsWith s "TALOS-" then .talos
  else if startsWith s "GHSA-" then .ghsa
  else .other

/-- `id.rs:12-22`: `struct Id`. -/
structure Id where
  kind : IdKind
  year : Option Nat
  string : Str
  deriving DecidableEq, Repr

/-- `id.rs:26`: `Id::PLACEHOLDER`. -/
def placeholder : Str := "RUSTSEC-0000-0000".toList

/-- `id.rs:39-41`: `Id::is_placeholder`. -/
def Id.isPlaceholder (i : Id) : Bool := decide (i.string = placeholder)

/-- `date.rs:12,15`: `YEAR_MIN`, `YEAR_MAX`. -/
def yearMin : Nat := 2000
def yearMax : Nat := yearMin + 100

/-- `id.rs:205-242`: `parse_year`.  `parts.next().unwrap()` cannot fail the first time; the second
`unwrap` fails (panics) when there is no `-`. -/
def parseYear (s : Str) : Outcome Nat :=
  match splitC '-' s with
  | [] => .panic
  | [_] => .panic
  | _ :: y :: rest =>
    match parseU32 y with
    | none => .err
    | some n =>
      if yearMin ≤ n ∧ n ≤ yearMax then
        match rest with
        | [] => .err
        | num :: rest' =>
          match parseU32 num with
          | none => .err
          | some _ => if rest'.isEmpty then .ok n else .err
      else .err

/-- `id.rs:115-123`: `Default for Id`. -/
def Id.default : Id := { kind := .rustSec, year := none, string := placeholder }

/-- `id.rs:131-157`: `FromStr for Id`. -/
def Id.fromStr (s : Str) : Outcome Id :=
  if s = placeholder then .ok Id.default
  else
    let kind := IdKind.detect s
    match kind with
    | .rustSec | .cve | .talos =>
      match parseYear s with
      | .ok y => .ok { kind, year := some y, string := s }
      | .err => .err
      | .panic => .panic
    | _ => .ok { kind, year := none, string := s }

/-- `id.rs:75-85`: `Id::numerical_part`. -/
def Id.numericalPart (i : Id) : Option Nat :=
  if i.isPlaceholder then none
  else match (splitC '-' i.string).getLast? with
    | some last => parseU32 last
    | none => none

/-- `id.rs:89-106`: `Id::url`. -/
def Id.url (i : Id) : Option Str :=
  match i.kind with
  | .rustSec =>
    if i.isPlaceholder then none else some ("https://rustsec.org/advisories/".toList ++ i.string)
  | .cve => some ("https://www.cve.org/CVERecord?id=".toList ++ i.string)
  | .ghsa => some ("https://github.com/advisories/".toList ++ i.string)
  | .talos => some ("https://www.talosintelligence.com/reports/".toList ++ i.string)
  | .other => none

/-- `id.rs:125-129`: `Display for Id`. -/
def Id.display (i : Id) : Str := i.string

end Verif.Adv
