import Mathlib.Analysis.SpecialFunctions.Trigonometric.Basic
/-!
# Model of the cell areas derived from `grid_resolution`

`/repo/marEx/track.py` 440–464. Exact reals (no rounding to `float32`); latitudes and resolution in degrees.
-/
namespace MarEx

/-- `np.radians`. -/
noncomputable def radians (x : ℝ) : ℝ := x * Real.pi / 180

/-- Area of a cell of the grid, a function of latitude only (track.py 453–458): `R² · |sin(lat + d/2) − sin(lat − d/2)| · d`. -/
noncomputable def gridArea (R res lat : ℝ) : ℝ :=
  R ^ 2 * |Real.sin (radians lat + radians res / 2) - Real.sin (radians lat - radians res / 2)| * radians res

end MarEx
