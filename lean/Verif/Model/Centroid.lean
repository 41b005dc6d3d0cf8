import Mathlib.Data.Rat.Floor
import Mathlib.Tactic.Ring
import Mathlib.Tactic.Linarith
/-!
# Model of the pixel centroid of an object on a structured grid

`/repo/marEx/track.py` 2050–2107 (`calculate_centroid`) and 3213–3261 (`calculate_area_centroid_for_slice`, structured grids).

An object is the list of its cells as (column, weight). `calculate_centroid` averages with equal weights (`np.mean`, and the centroid of
`regionprops_table` when the object is not near both edges); `calculate_area_centroid_for_slice` weights by cell area.
The row test `x > nx / 2` (float, 3242) and the row test `x > shape[1] // 2` (integer, 2089) agree for integer columns and are one
definition here. `-100:` slices of grids narrower than 100 columns select the whole grid; so does `x + 100 ≥ nx`.
Floats are rationals.
-/
namespace MarEx

/-- `np.sum(v * pixel_areas)` (track.py 3234, 3249). -/
def wsum (cells : List (ℚ × ℚ)) : ℚ := (cells.map fun p => p.1 * p.2).sum

/-- `total_area` (track.py 3230). -/
def wtotal {α : Type} (cells : List (α × ℚ)) : ℚ := (cells.map (·.2)).sum

/-- `near_left` and `near_right` (track.py 2075–2076, 3239–3240). -/
def nearBoth (nx : Nat) (cells : List (Nat × ℚ)) : Bool :=
  cells.any (fun p => decide (p.1 < 100)) && cells.any (fun p => decide (nx ≤ p.1 + 100))

/-- `x_adjusted` (track.py 2090–2093, 3244–3246). -/
def adjCol (nx x : Nat) : ℚ := if nx / 2 < x then (x : ℚ) - nx else x

/-- `centroid_x_pix` (track.py 3236–3259; 2085–2105). `periodic = false` is regional mode. -/
def xCentroid (periodic : Bool) (nx : Nat) (cells : List (Nat × ℚ)) : ℚ :=
  if periodic && nearBoth nx cells then
    let c := wsum (cells.map fun p => (adjCol nx p.1, p.2)) / wtotal cells
    if c < 0 then c + nx else c
  else wsum (cells.map fun p => ((p.1 : ℚ), p.2)) / wtotal cells

/-- `centroid_y_pix` (track.py 3234). -/
def yCentroid (cells : List (Nat × ℚ)) : ℚ := wsum (cells.map fun p => ((p.1 : ℚ), p.2)) / wtotal cells

/-- `np.interp(c, np.arange(len(vals)), vals)` (track.py 3262–3263): linear between the nodes, constant outside. -/
def npInterp (nx : Nat) (vals : Nat → ℚ) (c : ℚ) : ℚ :=
  if c ≤ 0 then vals 0
  else if (nx : ℚ) - 1 ≤ c then vals (nx - 1)
  else vals ⌊c⌋.toNat + (c - ⌊c⌋) * (vals (⌊c⌋.toNat + 1) - vals ⌊c⌋.toNat)

end MarEx
