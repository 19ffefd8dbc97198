import Verif.Model.Osv

/-!
# Ranges of versions, with numbers of 64 bits

`Model/Osv.lean` adds one without overflow.  Here the additions are those of `u64`: in a debug build overflow panics, in a
release build (`Cargo.toml:61-64` does not turn on `overflow-checks`) it wraps around.  Everything else is unchanged.
-/

namespace Verif.Osv64

open Verif Verif.Semver Verif.Osv

/-- Addition of one to a number: how a build of the program does it. -/
abbrev Build := Nat → Outcome Nat

/-- A debug build: overflow panics (Rust reference, "Overflow"). -/
def debug : Build := fun n => if n + 1 < 2 ^ 64 then .ok (n + 1) else .panic

/-- A release build: overflow wraps around (Rust reference, "Overflow"; `Cargo.toml:61-64`). -/
def release : Build := fun n => .ok ((n + 1) % 2 ^ 64)

variable (B : Build)

/-- `rustsec/src/osv/unaffected_range.rs:187-204`: upper end of a caret range. -/
def caretEnd (c : Comparator) : Outcome Version :=
  let v : Outcome Version :=
    if (compToVer c).major = 0 then
      match c.minor, c.patch with
      | some 0, some patch => B patch >>= fun p => .ok (Version.release 0 0 p)
      | some minor, _ => B minor >>= fun m => .ok (Version.release 0 m 0)
      | none, none => .ok (Version.release 1 0 0)
      | none, some _ => .panic
    else B (compToVer c).major >>= fun m => .ok (Version.release m 0 0)
  v >>= fun v => .ok { v with pre := preZero }

/-- `rustsec/src/osv/unaffected_range.rs:217-226`: upper end of a tilde range. -/
def tildeEnd (c : Comparator) : Outcome Version :=
  let v : Outcome Version :=
    match c.minor, c.patch with
    | none, none => B c.major >>= fun m => .ok (Version.release m 0 0)
    | some minor, _ => B minor >>= fun m => .ok (Version.release c.major m 0)
    | none, some _ => .panic
  v >>= fun v => .ok { v with pre := preZero }

/-- `rustsec/src/osv/unaffected_range.rs:126-239`: one iteration of the loop over comparators. -/
def tryFromStep (n : Nat) (st : Bound × Bound) (c : Comparator) : Outcome (Bound × Bound) :=
  match c.op with
  | .greater =>
    if st.1 ≠ .unbounded then .err else .ok (.exclusive (compToVer c), st.2)
  | .greaterEq =>
    if st.1 ≠ .unbounded then .err else .ok (.inclusive (compToVer c), st.2)
  | .less =>
    if st.2 ≠ .unbounded then .err else .ok (st.1, .exclusive (compToVer c))
  | .lessEq =>
    if st.2 ≠ .unbounded then .err else .ok (st.1, .inclusive (compToVer c))
  | .exact =>
    if n ≠ 1 then .err else .ok (.inclusive (compToVer c), .inclusive (compToVer c))
  | .caret =>
    if n ≠ 1 then .err else caretEnd B c >>= fun e => .ok (.inclusive (compToVer c), .exclusive e)
  | .tilde =>
    if n ≠ 1 then .err else tildeEnd B c >>= fun e => .ok (.inclusive (compToVer c), .exclusive e)
  | .wildcard => .err

/-- `rustsec/src/osv/unaffected_range.rs:126`: the loop. -/
def tryFromLoop (n : Nat) : Bound × Bound → List Comparator → Outcome (Bound × Bound)
  | st, [] => .ok st
  | st, c :: cs => tryFromStep B n st c >>= fun st' => tryFromLoop n st' cs

/-- `rustsec/src/osv/unaffected_range.rs:115-242`: `UnaffectedRange::try_from(&VersionReq)`. -/
def tryFrom (req : VersionReq) : Outcome URange :=
  if req.comparators.length > 2 then .err
  else tryFromLoop B req.comparators.length (.unbounded, .unbounded) req.comparators >>= fun st =>
    URange.new st.1 st.2

/-- `rustsec/src/osv/ranges_for_advisory.rs:140-163`: `increment`. -/
def increment (v : Version) : Outcome Version :=
  if v.pre.isEmpty then B v.patch >>= fun p => .ok { v with build := [], patch := p, pre := preZero }
  else .ok { v with build := [], pre := v.pre ++ preZero }

/-- `rustsec/src/osv/ranges_for_advisory.rs:88-99`: the range before the first unaffected one. -/
def leading (first : URange) : Outcome (List OsvRange) :=
  match first.start with
  | .unbounded => .ok []
  | .exclusive v => increment B v >>= fun w => .ok [{ introduced := none, fixed := some w }]
  | .inclusive v => .ok [{ introduced := none, fixed := some v }]

/-- `rustsec/src/osv/ranges_for_advisory.rs:104-108`: where the range after an unaffected one begins; `unreachable!()` is a
panic. -/
def startAfter : Bound → Outcome Version
  | .unbounded => .panic
  | .exclusive v => .ok v
  | .inclusive v => increment B v

/-- `rustsec/src/osv/ranges_for_advisory.rs:109-113`: where the range before an unaffected one ends. -/
def endBefore : Bound → Outcome Version
  | .unbounded => .panic
  | .exclusive v => increment B v
  | .inclusive v => .ok v

/-- `rustsec/src/osv/ranges_for_advisory.rs:102-118`: the range between two neighbouring unaffected ones. -/
def between (a b : URange) : Outcome OsvRange :=
  startAfter B a.fin >>= fun s => endBefore B b.start >>= fun e => .ok { introduced := some s, fixed := some e }

/-- `rustsec/src/osv/ranges_for_advisory.rs:117-127`: the range after the last unaffected one. -/
def trailing (last : URange) : Outcome (List OsvRange) :=
  match last.fin with
  | .unbounded => .ok []
  | .exclusive v => .ok [{ introduced := some v, fixed := none }]
  | .inclusive v => increment B v >>= fun w => .ok [{ introduced := some w, fixed := none }]

/-- `rustsec/src/osv/ranges_for_advisory.rs:102-131`: the `windows(2)` loop and the trailing range. -/
def complementFrom (a : URange) : List URange → Outcome (List OsvRange)
  | [] => trailing B a
  | b :: rest => between B a b >>= fun r => complementFrom b rest >>= fun rs => .ok (r :: rs)

/-- `rustsec/src/osv/ranges_for_advisory.rs:86-133`. -/
def complement : List URange → Outcome (List OsvRange)
  | [] => .ok [{ introduced := none, fixed := none }]
  | a :: rest => leading B a >>= fun l => complementFrom B a rest >>= fun rs => .ok (l ++ rs)

/-- `rustsec/src/osv/ranges_for_advisory.rs:36-134`: `unaffected_to_osv_ranges`. -/
def unaffectedToOsvRanges (unaffected patched : List VersionReq) : Outcome (List OsvRange) :=
  Outcome.mapList (tryFrom B) (unaffected ++ patched) >>= fun ranges =>
    if ranges.isEmpty then .ok [{ introduced := none, fixed := none }]
    else if anyOverlap ranges then .err
    else sortRanges ranges >>= complement B

/-- `rustsec/src/advisory/versions.rs:33-39, 52-62, 73-76`: `Versions::new`. -/
def Versions.new (patched unaffected : List VersionReq) : Outcome Versions :=
  unaffectedToOsvRanges B unaffected patched >>= fun _ => .ok { patched, unaffected }

/-- `rustsec/src/osv/ranges_for_advisory.rs:18-20`: `ranges_for_advisory`; `unwrap` turns an error into a panic. -/
def rangesForAdvisory (vs : Versions) : Outcome (List OsvRange) :=
  match unaffectedToOsvRanges B vs.unaffected vs.patched with
  | .ok rs => .ok rs
  | .err => .panic
  | .panic => .panic

/-- `rustsec/src/advisory/versions.rs:22-29`: `Versions::is_vulnerable`. -/
def isVulnerable (vs : Versions) (v : Version) : Outcome Bool :=
  rangesForAdvisory B vs >>= fun rs => .ok (rs.any (fun r => r.affects v))

/-- `rustsec/src/osv/advisory.rs:113-133`: `OsvJsonRange::new`. -/
def osvTimeline (vs : Versions) : Outcome (List TimelineEvent) :=
  rangesForAdvisory B vs >>= fun rs =>
    if rs.isEmpty then .panic else .ok (rs.flatMap rangeEvents)

end Verif.Osv64
