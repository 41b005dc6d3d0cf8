import Mathlib.Data.Int.Log
import Mathlib.Data.Rat.Floor
import Mathlib.Algebra.Order.Field.Rat
/-!
# Model of floating-point rounding

Every `+`, `*`, `/` of numpy on float64 (`p = 53`) or float32 (`p = 24`) returns the rounded exact result. Nothing in /repo implements it; it is what
the arithmetic at detect.py 2387 and track.py 2206, 2439, 2542 does. The range of exponents is unbounded (no overflow, no subnormal numbers).
-/
namespace MarEx

/-- The nearest integer, ties to even. -/
def roundEven (x : ℚ) : ℤ :=
  if x - ⌊x⌋ < 1 / 2 then ⌊x⌋ else if 1 / 2 < x - ⌊x⌋ then ⌊x⌋ + 1 else if ⌊x⌋ % 2 = 0 then ⌊x⌋ else ⌊x⌋ + 1

/-- The distance between neighbouring numbers of `p` bits around `x`. -/
def ulp (p : Nat) (x : ℚ) : ℚ := (2 : ℚ) ^ (Int.log 2 |x| - (p : ℤ) + 1)

/-- `x` rounded to `p` significant bits. -/
def fl (p : Nat) (x : ℚ) : ℚ := ulp p x * (roundEven (x / ulp p x) : ℚ)

end MarEx
