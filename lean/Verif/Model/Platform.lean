import Verif.Model.PlatformTable

/-!
# Platform requirements and platform lookup

`platforms/src/platform/req.rs` and `platforms/src/platform/mod.rs`.
-/

namespace Verif.Plat

/-- `str::contains(pat)`: some suffix of the text starts with `pat`.  (The byte search of the standard
library and this character search agree because UTF-8 is self-synchronising.) -/
def containsStr : Str → Str → Bool
  | [], m => m.isEmpty
  | c :: t, m => m.isPrefixOf (c :: t) || containsStr t m

/-- `PlatformReq(String)` (`platforms/src/platform/req.rs:24`). -/
structure PlatformReq where
  text : Str
  deriving DecidableEq, Repr

/-- `PlatformReq::matches` (`platforms/src/platform/req.rs:40-72`).  `panic` is the `unwrap` of the first
character of an empty requirement; the two `checked_sub(1).unwrap()` and the byte slices `[1..]`, `[..len-1]`
cut a `*`, which is one byte long, so on characters they are `drop 1` and `dropLast` (the slice
`[1..len-1]` needs at least two bytes: the first character was consumed before `chars.last()` is asked).
`self.0.len() == 1` counts bytes: together with "the first character is `*`" it says the text is `*`. -/
def PlatformReq.matches (r : PlatformReq) (p : Platform) : Outcome Bool :=
  match r.text with
  | [] => .panic
  | c :: rest =>
    if c = '*' ∧ rest = [] then .ok true
    else
      let startsWithWildcard : Bool := c = '*'
      let endsWithWildcard : Bool := rest.getLast? = some '*'
      if startsWithWildcard then
        if endsWithWildcard then .ok (containsStr p.triple rest.dropLast)
        else .ok (rest.isSuffixOf p.triple)
      else if endsWithWildcard then .ok ((c :: rest).dropLast.isPrefixOf p.triple)
      else .ok (c :: rest = p.triple)

/-- `matching_platforms(req, platforms)` run to the end (`platforms/src/platform/req.rs:74-89`): the
platforms that match, in order; a panic of `matches` is a panic. -/
def matchingPlatforms (r : PlatformReq) : List Platform → Outcome (List Platform)
  | [] => .ok []
  | p :: ps =>
    match r.matches p with
    | .ok b =>
      match matchingPlatforms r ps with
      | .ok qs => .ok (if b then p :: qs else qs)
      | .err => .err
      | .panic => .panic
    | .err => .err
    | .panic => .panic

/-- `matching_platforms(req, platforms).next()` (`platforms/src/platform/req.rs:74-89`): the iterator is
lazy and stops at the first match. -/
def firstMatch (r : PlatformReq) : List Platform → Outcome (Option Platform)
  | [] => .ok none
  | p :: ps =>
    match r.matches p with
    | .ok true => .ok (some p)
    | .ok false => firstMatch r ps
    | .err => .err
    | .panic => .panic

/-- `PlatformReq::from_str` (`platforms/src/platform/req.rs:98-106`): `||` does not evaluate the second
condition for the empty string. -/
def PlatformReq.fromStr (s : Str) : Outcome PlatformReq :=
  let r : PlatformReq := ⟨s⟩
  if r.text.isEmpty then .err
  else
    match firstMatch r Platform.all with
    | .ok none => .err
    | .ok (some _) => .ok r
    | .err => .err
    | .panic => .panic

/-- `PlatformReq: Display` (`platforms/src/platform/req.rs:109-113`). -/
def PlatformReq.display (r : PlatformReq) : Str := r.text

/-- `Platform::find` (`platforms/src/platform/mod.rs:66-70`). -/
def Platform.find (triple : Str) : Option Platform :=
  Platform.all.find? fun p => p.triple = triple

/-- `Tier::to_usize` (`platforms/src/platform/tier.rs:46-52`). -/
def Tier.toUsize : Tier → Nat
  | .one => 1
  | .two => 2
  | .three => 3

/-- `Tier: TryFrom<usize>` (`platforms/src/platform/tier.rs:73-80`). -/
def Tier.tryFrom : Nat → Option Tier
  | 1 => some .one
  | 2 => some .two
  | 3 => some .three
  | _ => none

/-- `PointerWidth: Into<u8>` (`platforms/src/target/pointer_width.rs:68-76`). -/
def PointerWidth.toU8 : PointerWidth → Nat
  | .u64 => 64
  | .u32 => 32
  | .u16 => 16

/-- `PointerWidth: TryFrom<u8>` (`platforms/src/target/pointer_width.rs:55-66`). -/
def PointerWidth.tryFrom : Nat → Option PointerWidth
  | 64 => some .u64
  | 32 => some .u32
  | 16 => some .u16
  | _ => none

end Verif.Plat
