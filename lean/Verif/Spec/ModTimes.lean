import Verif.Model.ModTimes
import Verif.Spec.AdvisoryFile

/-!
# Specification of modification times (C55)
-/

namespace Verif.Spec

open Verif.Adv Verif.Git

/-- The content of the file `p` in the tree that the commit `c` was made from: that of its parent, or nothing
if it has none or the parent is missing from the clone. -/
def before (db : Objects) (c : GitCommit) (p : Str) : Option Nat :=
  match c.parents.head?.bind fun id => db.lookup id with
  | some parent => parent.tree.lookup p
  | none => none

/-- Some commit of the history `ids`, made at time `t` and not a merge, changed the file `p`. -/
def TouchedAt (db : Objects) (ids : List Nat) (p : Str) (t : Time) : Prop :=
  ∃ id ∈ ids, ∃ c, db.lookup id = some c ∧ c.parents.length ≤ 1 ∧ c.time = t ∧
    before db c p ≠ c.tree.lookup p

/-- `a` is not later than `b`; commits of the same second are compared by their time zone. -/
def NotLater (a b : Time) : Prop := a.seconds < b.seconds ∨ (a.seconds = b.seconds ∧ a.offset ≤ b.offset)

/-- What is assumed of the calendar of the `time` crate: days of years from 0 to 9999 exist. -/
def CalLaw (cal : Int → Int × Nat × Nat) : Prop :=
  ∀ n y m d, cal n = (y, m, d) → 0 ≤ y → y ≤ 9999 → CalendarDay y.toNat m d

end Verif.Spec
