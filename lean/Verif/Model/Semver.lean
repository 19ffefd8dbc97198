import Std.Data.TreeMap
import Mathlib.Order.Defs.LinearOrder
import Verif.Model.Basic

/-!
# The `semver` crate, as used by the code

`rustsec` uses `semver::{Version, VersionReq, Comparator, Op, Prerelease}` (a third-party crate, not in
/repo; see `rustsec/src/osv/unaffected_range.rs:6`, `rustsec/src/osv/ranges_for_advisory.rs:11`).
This file is our reading of its data types, its `Ord` on versions and `VersionReq::matches`; it belongs to
the trusted base.  Version numbers are `Nat` (the crate: `u64`).
-/

namespace Verif.Semver

open Std

/-- One dot-separated pre-release identifier: all-digits, or containing a letter or hyphen. -/
inductive Ident where
  | num (n : Nat)
  | alpha (s : Str)
  deriving DecidableEq, Repr

/-- Numeric identifiers compare numerically and are below alphanumeric ones, which compare in ASCII
order (semver.org item 11.4, `semver::Prerelease` `Ord`). -/
def Ident.cmp : Ident → Ident → Ordering
  | .num a, .num b => compare a b
  | .num _, .alpha _ => .lt
  | .alpha _, .num _ => .gt
  | .alpha a, .alpha b => List.compareLex compare a b

/-- A pre-release string: its dot-separated identifiers; `[]` is the empty pre-release (a release). -/
abbrev Pre := List Ident

/-- A release is above all its pre-releases; otherwise identifier by identifier, a proper prefix
being smaller. -/
def Pre.cmp (a b : Pre) : Ordering :=
  match a, b with
  | [], [] => .eq
  | [], _ :: _ => .gt
  | _ :: _, [] => .lt
  | _ :: _, _ :: _ => List.compareLex Ident.cmp a b

/-- One identifier of build metadata; numeric ones keep their digit count (leading zeros count). -/
inductive BuildId where
  | num (n digits : Nat)
  | alpha (s : Str)
  deriving DecidableEq, Repr

/-- `semver::BuildMetadata` `Ord` on one identifier: `0 < 00 < 1 < 01 < ... `, numeric below
alphanumeric. -/
def BuildId.cmp : BuildId → BuildId → Ordering
  | .num a la, .num b lb => (compare a b).then (compare la lb)
  | .num _ _, .alpha _ => .lt
  | .alpha _, .num _ _ => .gt
  | .alpha a, .alpha b => List.compareLex compare a b

/-- `semver::Version`. -/
structure Version where
  major : Nat
  minor : Nat
  patch : Nat
  pre : Pre := []
  build : List BuildId := []
  deriving DecidableEq, Repr

/-- Semver precedence (semver.org item 11): build metadata is ignored. -/
def Version.cmpPrec (a b : Version) : Ordering :=
  (compare a.major b.major).then ((compare a.minor b.minor).then
    ((compare a.patch b.patch).then (Pre.cmp a.pre b.pre)))

/-- The derived `Ord` of `semver::Version`: precedence, then build metadata. -/
def Version.cmp (a b : Version) : Ordering :=
  (Version.cmpPrec a b).then (List.compareLex BuildId.cmp a.build b.build)

/-- `Version::new(major, minor, patch)`. -/
def Version.release (major minor patch : Nat) : Version := { major, minor, patch }

/-- `semver::Op`. -/
inductive Op where
  | exact | greater | greaterEq | less | lessEq | tilde | caret | wildcard
  deriving DecidableEq, Repr

/-- `semver::Comparator`. -/
structure Comparator where
  op : Op
  major : Nat
  minor : Option Nat := none
  patch : Option Nat := none
  pre : Pre := []
  deriving DecidableEq, Repr

/-- The shapes the `semver` parser can produce: a patch only after a minor, a pre-release only after a
patch, and a wildcard comparator (`1.*`, `1.2.*`) never has a patch. -/
def Comparator.WF (c : Comparator) : Prop :=
  (c.minor = none → c.patch = none) ∧ (c.patch = none → c.pre = []) ∧
  (c.op = .wildcard → c.patch = none)

instance (c : Comparator) : Decidable c.WF := by unfold Comparator.WF; infer_instance

/-- `semver::VersionReq`: a conjunction of comparators (`*` is the empty conjunction). -/
structure VersionReq where
  comparators : List Comparator
  deriving DecidableEq, Repr

/-! ### `VersionReq::matches` (semver crate, `src/eval.rs`) -/

/-- `eval.rs: matches_exact`. -/
def matchesExact (c : Comparator) (v : Version) : Bool :=
  if v.major ≠ c.major then false
  else if (match c.minor with | some m => decide (v.minor ≠ m) | none => false) then false
  else if (match c.patch with | some p => decide (v.patch ≠ p) | none => false) then false
  else decide (v.pre = c.pre)

/-- `eval.rs: matches_greater`. -/
def matchesGreater (c : Comparator) (v : Version) : Bool :=
  if v.major ≠ c.major then decide (v.major > c.major)
  else match c.minor with
    | none => false
    | some m =>
      if v.minor ≠ m then decide (v.minor > m)
      else match c.patch with
        | none => false
        | some p =>
          if v.patch ≠ p then decide (v.patch > p)
          else Pre.cmp v.pre c.pre == .gt

/-- `eval.rs: matches_less`. -/
def matchesLess (c : Comparator) (v : Version) : Bool :=
  if v.major ≠ c.major then decide (v.major < c.major)
  else match c.minor with
    | none => false
    | some m =>
      if v.minor ≠ m then decide (v.minor < m)
      else match c.patch with
        | none => false
        | some p =>
          if v.patch ≠ p then decide (v.patch < p)
          else Pre.cmp v.pre c.pre == .lt

/-- `eval.rs: matches_tilde`. -/
def matchesTilde (c : Comparator) (v : Version) : Bool :=
  if v.major ≠ c.major then false
  else if (match c.minor with | some m => decide (v.minor ≠ m) | none => false) then false
  else match c.patch with
    | some p => if v.patch ≠ p then decide (v.patch > p) else Pre.cmp v.pre c.pre != .lt
    | none => Pre.cmp v.pre c.pre != .lt

/-- `eval.rs: matches_caret`. -/
def matchesCaret (c : Comparator) (v : Version) : Bool :=
  if v.major ≠ c.major then false
  else match c.minor with
    | none => true
    | some m =>
      match c.patch with
      | none => if c.major > 0 then decide (v.minor ≥ m) else decide (v.minor = m)
      | some p =>
        if c.major > 0 then
          if v.minor ≠ m then decide (v.minor > m)
          else if v.patch ≠ p then decide (v.patch > p)
          else Pre.cmp v.pre c.pre != .lt
        else if m > 0 then
          if v.minor ≠ m then false
          else if v.patch ≠ p then decide (v.patch > p)
          else Pre.cmp v.pre c.pre != .lt
        else if v.minor ≠ m || v.patch ≠ p then false
        else Pre.cmp v.pre c.pre != .lt

/-- `eval.rs: matches_impl`. -/
def Comparator.matchesImpl (c : Comparator) (v : Version) : Bool :=
  match c.op with
  | .exact | .wildcard => matchesExact c v
  | .greater => matchesGreater c v
  | .greaterEq => matchesExact c v || matchesGreater c v
  | .less => matchesLess c v
  | .lessEq => matchesExact c v || matchesLess c v
  | .tilde => matchesTilde c v
  | .caret => matchesCaret c v

/-- `eval.rs: pre_is_compatible`. -/
def preIsCompatible (c : Comparator) (v : Version) : Bool :=
  decide (c.major = v.major) && decide (c.minor = some v.minor) &&
    decide (c.patch = some v.patch) && !c.pre.isEmpty

/-- `eval.rs: matches_req`, i.e. `VersionReq::matches`. -/
def VersionReq.isMatch (r : VersionReq) (v : Version) : Bool :=
  if r.comparators.any (fun c => !c.matchesImpl v) then false
  else if v.pre.isEmpty then true
  else r.comparators.any (fun c => preIsCompatible c v)

end Verif.Semver
