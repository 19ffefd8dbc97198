import Verif.Model.Osv

/-!
# Specification: what version requirements of an advisory mean

Independent of the range algorithm.  A requirement is read the way Cargo's documentation describes it, with
missing minor/patch numbers read as zero (this is where it differs from `semver::VersionReq::matches`, see
property C07); versions are compared by semver precedence, i.e. ignoring build metadata.
-/

namespace Verif.Spec

open Verif.Semver Verif.Osv

/-- `a` has lower precedence than `b`. -/
def PrecLT (a b : Version) : Prop := a.cmpPrec b = .lt
/-- `a` has lower precedence than, or the same as, `b`. -/
def PrecLE (a b : Version) : Prop := a.cmpPrec b ≠ .gt
/-- `a` and `b` have the same precedence (they differ at most in build metadata). -/
def PrecEq (a b : Version) : Prop :=
  a.major = b.major ∧ a.minor = b.minor ∧ a.patch = b.patch ∧ a.pre = b.pre

/-- The version written in a comparator, missing parts read as zero. -/
def named (c : Comparator) : Version :=
  { major := c.major, minor := c.minor.getD 0, patch := c.patch.getD 0, pre := c.pre }

/-- The lowest pre-release of `M.m.p`, which precedes every version called `M.m.p-something`. -/
def lowest (M m p : Nat) : Version := { major := M, minor := m, patch := p, pre := [.num 0] }

/-- First version that is no longer caret-compatible: bump the left-most non-zero number, or the last
written one if all are zero. -/
def caretLimit (c : Comparator) : Version :=
  match c.major, c.minor, c.patch with
  | M + 1, _, _ => lowest (M + 2) 0 0
  | 0, some (m + 1), _ => lowest 0 (m + 2) 0
  | 0, some 0, some p => lowest 0 0 (p + 1)
  | 0, some 0, none => lowest 0 1 0
  | 0, none, _ => lowest 1 0 0

/-- First version that is no longer tilde-compatible: bump the minor number if written, else the major. -/
def tildeLimit (c : Comparator) : Version :=
  match c.minor with
  | some m => lowest c.major (m + 1) 0
  | none => lowest (c.major + 1) 0 0

/-- Does a single comparator admit `w`? (Wildcards are not supported by advisories.) -/
def Admits (c : Comparator) (w : Version) : Prop :=
  match c.op with
  | .greater => PrecLT (named c) w
  | .greaterEq => PrecLE (named c) w
  | .less => PrecLT w (named c)
  | .lessEq => PrecLE w (named c)
  | .exact => PrecEq w (named c)
  | .caret => PrecLE (named c) w ∧ PrecLT w (caretLimit c)
  | .tilde => PrecLE (named c) w ∧ PrecLT w (tildeLimit c)
  | .wildcard => False

/-- A requirement covers `w` when all its comparators admit it. -/
def Covers (r : VersionReq) (w : Version) : Prop := ∀ c ∈ r.comparators, Admits c w

/-! ### Which requirement lists are acceptable -/

/-- All comparators are of a shape the `semver` parser produces. -/
def ReqWF (r : VersionReq) : Prop := ∀ c ∈ r.comparators, c.WF

instance (r : VersionReq) : Decidable (ReqWF r) := by unfold ReqWF; infer_instance

/-- `>` or `>=`. -/
def IsLower (c : Comparator) : Prop := c.op = .greater ∨ c.op = .greaterEq
/-- `<` or `<=`. -/
def IsUpper (c : Comparator) : Prop := c.op = .less ∨ c.op = .lessEq

/-- The lower comparator is below the upper one, or they meet in one version that both include. -/
def Sensible (lo hi : Comparator) : Prop :=
  PrecLT (named lo) (named hi) ∨
    (PrecEq (named lo) (named hi) ∧ lo.op = .greaterEq ∧ hi.op = .lessEq)

/-- Supported requirement shapes: `*`, one comparator, or a lower and an upper bound in either order. -/
def Supported (r : VersionReq) : Prop :=
  match r.comparators with
  | [] => True
  | [c] => c.op ≠ .wildcard
  | [a, b] => (IsLower a ∧ IsUpper b ∧ Sensible a b) ∨ (IsUpper a ∧ IsLower b ∧ Sensible b a)
  | _ => False

/-- Left end of the interval of a requirement: version and whether it is included; `none` if open to the
left. -/
def lowEnd (r : VersionReq) : Option (Version × Bool) :=
  r.comparators.findSome? fun c =>
    match c.op with
    | .greater => some (named c, false)
    | .greaterEq | .exact | .caret | .tilde => some (named c, true)
    | .less | .lessEq | .wildcard => none

/-- Right end of the interval of a requirement. -/
def highEnd (r : VersionReq) : Option (Version × Bool) :=
  r.comparators.findSome? fun c =>
    match c.op with
    | .less => some (named c, false)
    | .lessEq | .exact => some (named c, true)
    | .caret => some (caretLimit c, false)
    | .tilde => some (tildeLimit c, false)
    | .greater | .greaterEq | .wildcard => none

/-- The interval of `a` ends before that of `b` begins (touching is fine unless both include the common
end point). -/
def EndsBefore (a b : VersionReq) : Prop :=
  match highEnd a, lowEnd b with
  | some (u, ui), some (l, li) => PrecLT u l ∨ (PrecEq u l ∧ ¬ (ui = true ∧ li = true))
  | _, _ => False

/-- The intervals of `a` and `b` are apart. -/
def Apart (a b : VersionReq) : Prop := EndsBefore a b ∨ EndsBefore b a

/-- `a` covers exactly the versions with the precedence of some `v` while `b` starts just after the
same `v`, e.g. `=1.0.0` and `>1.0.0`. -/
def PointThenOpen (a b : VersionReq) : Prop :=
  match lowEnd a, highEnd a, lowEnd b with
  | some (v, true), some (v', true), some (w, false) => PrecEq v v' ∧ PrecEq v w
  | _, _, _ => False

/-! ### OSV evaluation of an event list

<https://ossf.github.io/osv-schema/#evaluation>: for a SEMVER range the events are processed in version
order; `introduced` at or below the version makes it affected, `fixed` at or below makes it unaffected. -/

/-- OSV specification pseudo-code (`IncludedInRanges`), events already in version order. -/
def evalEvents (w : Version) : List TimelineEvent → Bool → Bool
  | [], affected => affected
  | .introduced v :: es, affected => evalEvents w es (if w.cmpPrec v = .lt then affected else true)
  | .fixed v :: es, affected => evalEvents w es (if w.cmpPrec v = .lt then affected else false)

/-- The version at which an event happens. -/
def eventVersion : TimelineEvent → Version
  | .introduced v => v
  | .fixed v => v

/-- Affected ranges are listed left to right: each ends no later than any later one begins (so in
particular only the first can lack `introduced` and only the last can lack `fixed`), and none is reversed. -/
def OrderedRanges (rs : List OsvRange) : Prop :=
  rs.Pairwise (fun a b => ∃ e s, a.fixed = some e ∧ b.introduced = some s ∧ PrecLE e s) ∧
  ∀ r ∈ rs, ∀ s e, r.introduced = some s → r.fixed = some e → PrecLE s e

end Verif.Spec
