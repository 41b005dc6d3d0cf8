import Mathlib.Analysis.SpecialFunctions.Complex.Arg
import Mathlib.Analysis.SpecialFunctions.Trigonometric.Inverse
/-!
# Model of the area-weighted centroid of an object on an unstructured mesh

`/repo/marEx/track.py` 2189–2230 (`object_properties_chunk`, unstructured) and 3164–3208 (`calculate_area_centroid_for_slice`, unstructured).

A cell is (latitude, longitude, area), angles in degrees. Floats are real numbers; `np.arctan2(y, x)` is the argument of `x + i y`, so the
sign of zero is not modelled (`np.arctan2(-0.0, -1.0)` is -π, the argument is π).
-/
namespace MarEx

open Real

/-- `np.radians`. -/
noncomputable def toRad (d : ℝ) : ℝ := d * (π / 180)

/-- `np.degrees`. -/
noncomputable def toDeg (r : ℝ) : ℝ := r * (180 / π)

/-- A mesh cell: latitude and longitude in degrees, and its area. -/
structure MCell where
  lat : ℝ
  lon : ℝ
  area : ℝ

/-- `weighted_x`, `weighted_y`, `weighted_z` before normalisation (track.py 2189–2208, 3181–3190). -/
noncomputable def sumX (cells : List MCell) : ℝ := (cells.map fun c => c.area * (cos (toRad c.lat) * cos (toRad c.lon))).sum
/-- See `sumX`. -/
noncomputable def sumY (cells : List MCell) : ℝ := (cells.map fun c => c.area * (cos (toRad c.lat) * sin (toRad c.lon))).sum
/-- See `sumX`. -/
noncomputable def sumZ (cells : List MCell) : ℝ := (cells.map fun c => c.area * sin (toRad c.lat)).sum

/-- The divisor: `np.where(norm > 0, norm, 1)` (track.py 2214–2215); `if norm > 0` in 3193–3197 leaves the zero vector, as dividing by 1 does. -/
noncomputable def meshNorm (cells : List MCell) : ℝ :=
  if 0 < √(sumX cells ^ 2 + sumY cells ^ 2 + sumZ cells ^ 2) then √(sumX cells ^ 2 + sumY cells ^ 2 + sumZ cells ^ 2) else 1

/-- `centroid_lat` (track.py 2222, 3200). -/
noncomputable def meshLat (cells : List MCell) : ℝ := toDeg (arcsin (max (-1) (min 1 (sumZ cells / meshNorm cells))))

/-- `centroid_lon` (track.py 2223–2230, 3201–3207). -/
noncomputable def meshLon (cells : List MCell) : ℝ :=
  let lon := toDeg (Complex.arg ⟨sumX cells / meshNorm cells, sumY cells / meshNorm cells⟩)
  if 180 < lon then lon - 360 else if lon < -180 then lon + 360 else lon

end MarEx
