import Mathlib.Data.Rat.Floor
/-! Specification of a centroid on a circle of `nx` columns. -/
namespace MarEx.Spec

/-- `y` is `x` moved by a whole number of turns into `[0, nx)`. -/
def WrapsTo (nx : Nat) (x y : ℚ) : Prop := 0 ≤ y ∧ y < nx ∧ ∃ k : ℤ, y = x + k * nx

/-- Weighted mean of positions given as (position, weight). -/
def weightedMean (l : List (ℚ × ℚ)) : ℚ := (l.map fun p => p.1 * p.2).sum / (l.map (·.2)).sum

/-- The object obtained from offsets `d` (with weights) to the east of column `s`: its cells are the columns `(s + d) mod nx`. -/
def placed (nx s : Nat) (off : List (Nat × ℚ)) : List (Nat × ℚ) := off.map fun p => ((s + p.1) % nx, p.2)

end MarEx.Spec
