import Mathlib.Data.List.Sort
import Verif.Lemmas.SemverOrder

/-!
# Version ranges of an advisory

Model of `rustsec/src/osv/unaffected_range.rs`, `rustsec/src/osv/range.rs`,
`rustsec/src/osv/ranges_for_advisory.rs` and `rustsec/src/advisory/versions.rs`.

Simplification: version numbers are unbounded, so `patch + 1`, `minor + 1`, `major + 1` never overflow
(the code uses `u64`; it differs only for a component equal to `u64::MAX`).
-/

namespace Verif.Osv

open Verif.Semver

/-- `unaffected_range.rs:9-14`: `enum Bound`. -/
inductive Bound where
  | unbounded
  | exclusive (v : Version)
  | inclusive (v : Version)
  deriving DecidableEq, Repr

/-- `unaffected_range.rs:17-24`: `Bound::version`. -/
def Bound.version : Bound → Option Version
  | .unbounded => none
  | .exclusive v => some v
  | .inclusive v => some v

/-- `unaffected_range.rs:30-48`: `Bound::less_or_equal`, first argument a range start, second a range
end.  (The `unwrap`s there are guarded by the first test.) -/
def Bound.lessOrEqual : Bound → Bound → Bool
  | .unbounded, _ => true
  | _, .unbounded => true
  | .inclusive s, .inclusive e => if s < e then true else decide (s = e)
  | .inclusive s, .exclusive e => if s < e then true else false
  | .exclusive s, .inclusive e => if s < e then true else false
  | .exclusive s, .exclusive e => if s < e then true else false

/-- `unaffected_range.rs:56-60`: `struct UnaffectedRange`. -/
structure URange where
  start : Bound
  fin : Bound
  deriving DecidableEq, Repr

/-- `unaffected_range.rs:63-72`: `UnaffectedRange::new`. -/
def URange.new (start fin : Bound) : Outcome URange :=
  if start.lessOrEqual fin then .ok { start, fin } else .err

/-- `unaffected_range.rs:82-85`: `UnaffectedRange::overlaps`. -/
def URange.overlaps (a b : URange) : Bool :=
  a.start.lessOrEqual b.fin && b.start.lessOrEqual a.fin

/-- `unaffected_range.rs:246-254`: `comp_to_ver`. -/
def compToVer (c : Comparator) : Version :=
  { major := c.major, minor := c.minor.getD 0, patch := c.patch.getD 0, pre := c.pre, build := [] }

/-- The lowest pre-release `-0` (`Prerelease::new("0").unwrap()`, `unaffected_range.rs:204,226`). -/
def preZero : Pre := [.num 0]

/-- `unaffected_range.rs:187-204`: upper end of a caret range, `none` for `unreachable!`. -/
def caretEnd (c : Comparator) : Option Version :=
  let v : Option Version :=
    if (compToVer c).major = 0 then
      match c.minor, c.patch with
      | some 0, some patch => some (Version.release 0 0 (patch + 1))
      | some minor, _ => some (Version.release 0 (minor + 1) 0)
      | none, none => some (Version.release 1 0 0)
      | none, some _ => none
    else some (Version.release ((compToVer c).major + 1) 0 0)
  v.map fun v => { v with pre := preZero }

/-- `unaffected_range.rs:217-226`: upper end of a tilde range, `none` for `unreachable!`. -/
def tildeEnd (c : Comparator) : Option Version :=
  let v : Option Version :=
    match c.minor, c.patch with
    | none, none => some (Version.release (c.major + 1) 0 0)
    | some minor, _ => some (Version.release c.major (minor + 1) 0)
    | none, some _ => none
  v.map fun v => { v with pre := preZero }

/-- `unaffected_range.rs:126-239`: one iteration of the loop over comparators; `n` is
`input.comparators.len()`, the state is `(start, end)`. -/
def tryFromStep (n : Nat) (st : Bound × Bound) (c : Comparator) : Outcome (Bound × Bound) :=
  match c.op with
  | .greater =>
    if st.1 ≠ .unbounded then .err else .ok (.exclusive (compToVer c), st.2)
  | .greaterEq =>
    if st.1 ≠ .unbounded then .err else .ok (.inclusive (compToVer c), st.2)
  | .less =>
    if st.2 ≠ .unbounded then .err else .ok (st.1, .exclusive (compToVer c))
  | .lessEq =>
    if st.2 ≠ .unbounded then .err else .ok (st.1, .inclusive (compToVer c))
  | .exact =>
    if n ≠ 1 then .err else .ok (.inclusive (compToVer c), .inclusive (compToVer c))
  | .caret =>
    if n ≠ 1 then .err
    else match caretEnd c with
      | some e => .ok (.inclusive (compToVer c), .exclusive e)
      | none => .panic
  | .tilde =>
    if n ≠ 1 then .err
    else match tildeEnd c with
      | some e => .ok (.inclusive (compToVer c), .exclusive e)
      | none => .panic
  | .wildcard => .err

/-- The `for comparator in &input.comparators` loop. -/
def tryFromLoop (n : Nat) : Bound × Bound → List Comparator → Outcome (Bound × Bound)
  | st, [] => .ok st
  | st, c :: cs => tryFromStep n st c >>= fun st' => tryFromLoop n st' cs

/-- `unaffected_range.rs:115-242`: `UnaffectedRange::try_from(&VersionReq)`. -/
def URange.tryFrom (req : VersionReq) : Outcome URange :=
  if req.comparators.length > 2 then .err
  else tryFromLoop req.comparators.length (.unbounded, .unbounded) req.comparators >>= fun st =>
    URange.new st.1 st.2

/-- `range.rs:10-15`: `struct OsvRange`. -/
structure OsvRange where
  introduced : Option Version
  fixed : Option Version
  deriving DecidableEq, Repr

/-- `range.rs:19-27`: `OsvRange::affects`. -/
def OsvRange.affects (r : OsvRange) (v : Version) : Bool :=
  (match r.introduced with
    | none => true
    | some s => decide (v ≥ s)) &&
  (match r.fixed with
    | none => true
    | some e => decide (v < e))

/-- `ranges_for_advisory.rs:140-163`: `increment`. (Appending `".0"` to the pre-release text appends the
identifier `0`.) -/
def increment (v : Version) : Version :=
  if v.pre.isEmpty then { v with build := [], patch := v.patch + 1, pre := preZero }
  else { v with build := [], pre := v.pre ++ preZero }

/-- `ranges_for_advisory.rs:57-69`: does any pair of ranges (earlier, later) overlap? -/
def anyOverlap : List URange → Bool
  | [] => false
  | a :: rest => rest.any (fun b => a.overlaps b) || anyOverlap rest

/-- Do two ranges both have a start version, and the same one?  This is when the `assert!(v1 != v2)` of
`ranges_for_advisory.rs:80` fires if the two are compared. -/
def sameStart (a b : URange) : Bool :=
  match a.start.version, b.start.version with
  | some v1, some v2 => decide (v1 = v2)
  | _, _ => false

/-- Some pair of ranges (earlier, later) has the same start version. -/
def anySameStart : List URange → Bool
  | [] => false
  | a :: rest => rest.any (fun b => sameStart a b) || anySameStart rest

/-- `ranges_for_advisory.rs:75-84`: the comparison closure says "not greater". -/
def startLE (a b : URange) : Prop :=
  match a.start.version, b.start.version with
  | none, _ => True
  | some _, none => False
  | some v1, some v2 => v1 ≤ v2

instance (a b : URange) : Decidable (startLE a b) := by
  unfold startLE; split <;> infer_instance

/-- `ranges_for_advisory.rs:73-84`: `sort_unstable_by` with the asserting comparator.  Any comparison
sort must compare two elements that are neighbours in the final order, hence it panics exactly when two
elements have equal start versions; otherwise the sorted list is unique. -/
def sortRanges (l : List URange) : Outcome (List URange) :=
  if anySameStart l then .panic else .ok (l.insertionSort startLE)

/-- `ranges_for_advisory.rs:88-99`: the range before the first unaffected one. -/
def leading (first : URange) : List OsvRange :=
  match first.start with
  | .unbounded => []
  | .exclusive v => [{ introduced := none, fixed := some (increment v) }]
  | .inclusive v => [{ introduced := none, fixed := some v }]

/-- `ranges_for_advisory.rs:102-118`: the range between two neighbouring unaffected ones; `none` for
`unreachable!()`. -/
def between (a b : URange) : Option OsvRange :=
  let start := match a.fin with
    | .unbounded => none
    | .exclusive v => some v
    | .inclusive v => some (increment v)
  let fin := match b.start with
    | .unbounded => none
    | .exclusive v => some (increment v)
    | .inclusive v => some v
  match start, fin with
  | some s, some e => some { introduced := some s, fixed := some e }
  | _, _ => none

/-- `ranges_for_advisory.rs:117-127`: the range after the last unaffected one. -/
def trailing (last : URange) : List OsvRange :=
  match last.fin with
  | .unbounded => []
  | .exclusive v => [{ introduced := some v, fixed := none }]
  | .inclusive v => [{ introduced := some (increment v), fixed := none }]

/-- `ranges_for_advisory.rs:102-131`: the `windows(2)` loop followed by the trailing range, for a
non-empty sorted list `a :: rest`. -/
def complementFrom (a : URange) : List URange → Outcome (List OsvRange)
  | [] => .ok (trailing a)
  | b :: rest =>
    match between a b with
    | none => .panic
    | some r => complementFrom b rest >>= fun rs => .ok (r :: rs)

/-- `ranges_for_advisory.rs:86-133`. -/
def complement : List URange → Outcome (List OsvRange)
  | [] => .ok [{ introduced := none, fixed := none }]
  | a :: rest => complementFrom a rest >>= fun rs => .ok (leading a ++ rs)

/-- `ranges_for_advisory.rs:36-134`: `unaffected_to_osv_ranges`. -/
def unaffectedToOsvRanges (unaffected patched : List VersionReq) : Outcome (List OsvRange) :=
  Outcome.mapList URange.tryFrom (unaffected ++ patched) >>= fun ranges =>
    if ranges.isEmpty then .ok [{ introduced := none, fixed := none }]
    else if anyOverlap ranges then .err
    else sortRanges ranges >>= complement

/-- `versions.rs:11-18`: `struct Versions` (and `RawVersions`, `versions.rs:66-71`). -/
structure Versions where
  patched : List VersionReq
  unaffected : List VersionReq
  deriving DecidableEq, Repr

/-- `versions.rs:33-39, 52-62, 73-76` with `ranges_for_advisory.rs:26-30`: `Versions::new` / deserialising
a `[versions]` table. -/
def Versions.new (patched unaffected : List VersionReq) : Outcome Versions :=
  unaffectedToOsvRanges unaffected patched >>= fun _ => .ok { patched, unaffected }

/-- `ranges_for_advisory.rs:18-20`: `ranges_for_advisory`; `unwrap` turns an error into a panic. -/
def rangesForAdvisory (vs : Versions) : Outcome (List OsvRange) :=
  match unaffectedToOsvRanges vs.unaffected vs.patched with
  | .ok rs => .ok rs
  | .err => .panic
  | .panic => .panic

/-- `versions.rs:22-29`: `Versions::is_vulnerable`. -/
def Versions.isVulnerable (vs : Versions) (v : Version) : Outcome Bool :=
  rangesForAdvisory vs >>= fun rs => .ok (rs.any (fun r => r.affects v))

/-- `osv/advisory.rs:136-144`: `enum OsvTimelineEvent` (the `LastAffected` variant is never written by the
exporter; versions are carried as values instead of their text). -/
inductive TimelineEvent where
  | introduced (v : Version)
  | fixed (v : Version)
  deriving DecidableEq, Repr

/-- `osv/advisory.rs:117-127`: the events of one range; a missing `introduced` is written `0.0.0-0`. -/
def rangeEvents (r : OsvRange) : List TimelineEvent :=
  (match r.introduced with
    | some v => [.introduced v]
    | none => [.introduced { major := 0, minor := 0, patch := 0, pre := preZero }]) ++
  (match r.fixed with
    | some v => [.fixed v]
    | none => [])

/-- `osv/advisory.rs:113-133`: `OsvJsonRange::new`, including its `assert!(!ranges.is_empty())`. -/
def osvTimeline (vs : Versions) : Outcome (List TimelineEvent) :=
  rangesForAdvisory vs >>= fun rs =>
    if rs.isEmpty then .panic else .ok (rs.flatMap rangeEvents)

end Verif.Osv
