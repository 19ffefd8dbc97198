import Verif.Spec.Versions

/-!
# Specification: which versions meet a requirement, as `semver` documents it (C109)
-/

namespace Verif.Spec

open Verif.Semver

/-- The numbers written in a comparator: one, two or three of them. -/
def numbers (c : Comparator) : List Nat := c.major :: (c.minor.toList ++ c.patch.toList)

/-- The numbers of a version. -/
def numbersOf (w : Version) : List Nat := [w.major, w.minor, w.patch]

/-- All three numbers are written. -/
def Full (c : Comparator) : Prop := c.minor ≠ none ∧ c.patch ≠ none

/-- The version begins with the numbers written. -/
def Begins (c : Comparator) (w : Version) : Prop := numbers c <+: numbersOf w

/-- The version's numbers are above those written, where they first differ. -/
def Above (c : Comparator) (w : Version) : Prop :=
  ∃ before a b rest rest', numbers c = before ++ a :: rest ∧ numbersOf w = before ++ b :: rest' ∧ a < b

/-- The version's numbers are below those written, where they first differ. -/
def Below (c : Comparator) (w : Version) : Prop :=
  ∃ before a b rest rest', numbers c = before ++ a :: rest ∧ numbersOf w = before ++ b :: rest' ∧ b < a

/-- The version keeps the numbers up to the first that is not zero, or all of them if all are zero. -/
def Compatible (c : Comparator) (w : Version) : Prop :=
  ∃ kept rest, numbers c = kept ++ rest ∧ kept <+: numbersOf w ∧ ((∃ n ∈ kept, n ≠ 0) ∨ rest = [])

/-- The version meets the comparator.  If all three numbers are written it is compared with that very version: precedence,
for `~` with the same first two numbers, for `^` with the same numbers up to the first that is not zero.  Else only the numbers
written count, and a version that begins with them must not be a pre-release, except for `^`. -/
def Meets (c : Comparator) (w : Version) : Prop :=
  (Full c → match c.op with
    | .exact | .wildcard => PrecEq w (named c)
    | .greater => PrecLT (named c) w
    | .greaterEq => PrecLE (named c) w
    | .less => PrecLT w (named c)
    | .lessEq => PrecLE w (named c)
    | .tilde => PrecLE (named c) w ∧ w.major = c.major ∧ some w.minor = c.minor
    | .caret => PrecLE (named c) w ∧ Compatible c w) ∧
  (¬ Full c → match c.op with
    | .exact | .wildcard | .tilde => Begins c w ∧ w.pre = []
    | .greater => Above c w
    | .greaterEq => Above c w ∨ (Begins c w ∧ w.pre = [])
    | .less => Below c w
    | .lessEq => Below c w ∨ (Begins c w ∧ w.pre = [])
    | .caret => Compatible c w ∧ (Above c w ∨ Begins c w))

/-- The version meets the requirement: every comparator, and a pre-release must be asked for, by a pre-release of the very same
three numbers. -/
def MeetsAll (r : VersionReq) (w : Version) : Prop :=
  (∀ c ∈ r.comparators, Meets c w) ∧
  (w.pre ≠ [] → ∃ c ∈ r.comparators, c.pre ≠ [] ∧ numbers c = numbersOf w)

end Verif.Spec
