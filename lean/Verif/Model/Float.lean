import Mathlib.Algebra.Order.Floor.Ring
import Mathlib.Data.Rat.Floor

/-!
# 64-bit floating point arithmetic

The score computations use `f64`.  A finite `f64` is the rational number it stands for; every arithmetic
operation of Rust on `f64` is the exact operation followed by rounding, `fl`; a literal is the rounded decimal.
`fl` is a parameter: the theorems hold for every rounding with the properties `Fp.Ok`, which `Lemmas/Float.lean`
shows of IEEE binary64 rounding to nearest, ties to even.  NaN, infinities and the sign of zero are not
modelled (no computation here divides by zero or overflows, and no result depends on the sign of zero).
-/

namespace Verif.Cvss

/-- Floating point: rounding, and `powf(15.0)` of the mathematics library. -/
structure Fp where
  /-- rounding of an exact result -/
  fl : ℚ → ℚ
  /-- `f64::powf(x, 15.0)` -/
  pow15 : ℚ → ℚ

/-- What is assumed of the arithmetic, well below overflow: a relative error of at most `2^-52` (binary64 guarantees half of it) plus
a tiny absolute error for subnormal numbers; integers up to `2^53` are exact; `powf(15.0)` is accurate to
`2^-40` on `[-1, 1]`. -/
structure Fp.Ok (F : Fp) : Prop where
  err : ∀ x, |x| ≤ 2 ^ 60 → |F.fl x - x| ≤ |x| / 2 ^ 52 + 1 / 2 ^ 100
  int : ∀ n : ℤ, |n| ≤ 2 ^ 53 → F.fl n = n
  pow : ∀ x, |x| ≤ 1 → |F.pow15 x - x ^ 15| ≤ 1 / 2 ^ 40

namespace Fp

variable (F : Fp)

/-- `a + b` on `f64`. -/
def add (a b : ℚ) : ℚ := F.fl (a + b)

/-- `a - b` on `f64`. -/
def sub (a b : ℚ) : ℚ := F.fl (a - b)

/-- `a * b` on `f64`. -/
def mul (a b : ℚ) : ℚ := F.fl (a * b)

/-- `a / b` on `f64`. -/
def div (a b : ℚ) : ℚ := F.fl (a / b)

end Fp

/-- `f64::round`: to the nearest integer, ties away from zero (exact). -/
def roundAway (x : ℚ) : ℚ := if x < 0 then -(⌊-x + 1 / 2⌋ : ℚ) else ⌊x + 1 / 2⌋

/-- `x as u64`: truncated, and saturated to the range of `u64`. -/
def castU64 (x : ℚ) : ℕ := min (⌊x⌋.toNat) (2 ^ 64 - 1)

/-- `f64::floor` (exact). -/
def floorF (x : ℚ) : ℚ := ⌊x⌋

/-- `f64::abs` (exact). -/
def absF (x : ℚ) : ℚ := |x|

/-- `f64::min`. -/
def minF (x y : ℚ) : ℚ := if x ≤ y then x else y

/-- `f64::max`. -/
def maxF (x y : ℚ) : ℚ := if x ≤ y then y else x

end Verif.Cvss
