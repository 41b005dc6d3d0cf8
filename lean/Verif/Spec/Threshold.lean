import Verif.Spec.Climatology
/-! Specification vocabulary for thresholds and extremes. -/
namespace MarEx.Spec

/-- How many samples lie strictly below / at or below a value. -/
def below (S : List ℚ) (x : ℚ) : Nat := (S.filter fun s => s < x).length
def atMost (S : List ℚ) (x : ℚ) : Nat := (S.filter fun s => s ≤ x).length

/-- `x` is the sample of `S` reached when counting `r` samples from the smallest: fewer than `r` are below it,
at least `r` are at or below it. -/
def AtRank (S : List ℚ) (r : ℚ) (x : ℚ) : Prop := x ∈ S ∧ (below S x : ℚ) < r ∧ r ≤ (atMost S x : ℚ)

/-- `x` is the sample of `S` just after `r` samples: at most `r` are below it, more than `r` are at or below it. -/
def JustAfter (S : List ℚ) (r : ℚ) (x : ℚ) : Prop := x ∈ S ∧ (below S x : ℚ) ≤ r ∧ r < (atMost S x : ℚ)

/-- The days of year (from 0) in the window of `w` days centred on day `d`, wrapping around a year of 366 days. -/
def dayWindow (w d : Nat) : List Nat := (List.range w).map fun k => (d + 366 * w + k - w / 2) % 366

/-- The grid rows within `s / 2` of row `y`, cut off at the edges of the grid. -/
def latWindow (s ny y : Nat) : List Nat :=
  (List.range s).filterMap fun k => if s / 2 ≤ y + k ∧ y + k - s / 2 < ny then some (y + k - s / 2) else none

/-- The grid columns within `s / 2` of column `x`, wrapping around. -/
def lonWindow (s nx x : Nat) : List Nat := (List.range s).map fun k => (x + nx * s + k - s / 2) % nx

/-- The cells of the `s` by `s` window around a cell. -/
def cellWindow (s ny nx y x : Nat) : List (Nat × Nat) :=
  (latWindow s ny y).flatMap fun y' => (lonWindow s nx x).map fun x' => (y', x')

/-- All values on the `w` days around day `d` (from 0) at the cells around `(y, x)`. -/
def windowSamples (s ny nx w : Nat) (recs : Nat → Nat → List Sample) (y x d : Nat) : List (Option ℚ) :=
  (dayWindow w d).flatMap fun k => (cellWindow s ny nx y x).flatMap fun c =>
    ((recs c.1 c.2).filter fun r => r.doy = k + 1).map Sample.val

end MarEx.Spec
