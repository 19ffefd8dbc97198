import Verif.Model.Id

/-! # Specification of advisory identifiers -/

namespace Verif.Spec

open Verif.Adv

/-- `s` is decimal text of a `u32` with value `n` (Rust accepts one leading `+` and leading zeros). -/
def IsU32Text (s : Str) (n : Nat) : Prop :=
  ∃ ds : Str, (s = ds ∨ s = '+' :: ds) ∧ ds ≠ [] ∧ (∀ c ∈ ds, c.isDigit = true) ∧
    n = Nat.ofDigitChars 10 ds 0 ∧ n < 2 ^ 32

/-- The databases whose identifiers have the form `PREFIX-YEAR-NUMBER`. -/
def yearPrefixes : List (Str × IdKind) :=
  [("RUSTSEC-".toList, .rustSec), ("CVE-".toList, .cve), ("TALOS-".toList, .talos)]

/-- `s` is `PREFIX-YEAR-NUMBER` of kind `k`, with a year in 2000..=2100. -/
def IsYearId (s : Str) (k : IdKind) (year number : Nat) : Prop :=
  ∃ p, (p, k) ∈ yearPrefixes ∧ ∃ y m : Str, s = p ++ y ++ '-' :: m ∧
    IsU32Text y year ∧ 2000 ≤ year ∧ year ≤ 2100 ∧ IsU32Text m number

/-- `s` begins with none of the three prefixes. -/
def NotYearId (s : Str) : Prop := ∀ p k, (p, k) ∈ yearPrefixes → ¬ p <+: s

end Verif.Spec
