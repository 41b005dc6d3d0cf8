import Mathlib.Algebra.Order.Field.Rat
import Mathlib.Data.Rat.Floor
import Mathlib.Algebra.Order.Group.Abs
import Mathlib.Algebra.Group.Int.Even
/-!
# Specification of binary floating point

Numbers with `p` significant bits (53 for Python floats and numpy's float64, 24 for float32) and rounding to the nearest of them, ties to the even
mantissa (IEEE 754). The range of exponents is unbounded: overflow and gradual underflow are left out.
-/
namespace MarEx.Spec

/-- `z` is a number of `p` significant bits. -/
def Representable (p : Nat) (z : ℚ) : Prop := ∃ m e : ℤ, |m| < 2 ^ p ∧ z = (m : ℚ) * (2 : ℚ) ^ e

/-- `y` is the number of `p` significant bits nearest to `x`; of two equally near ones it is the one with the even mantissa. -/
def RoundsTo (p : Nat) (x y : ℚ) : Prop :=
  Representable p y ∧ (∀ z, Representable p z → |x - y| ≤ |x - z|) ∧
  ∀ z, Representable p z → z ≠ y → |x - z| = |x - y| → ∃ m e : ℤ, Even m ∧ 2 ^ (p - 1) ≤ m ∧ m < 2 ^ p ∧ y = (m : ℚ) * (2 : ℚ) ^ e

end MarEx.Spec
