import Verif.Model.FloatUse
/-!
# The day-of-year thresholds in floating point

The other models of `/repo/marEx/detect.py` 2337–2606 compute bin edges, bin centres and interpolation exactly. Here they are computed as the code does, in
float32 and float64: `_compute_histogram_quantile_2d` (2434–2606) and `_rolling_histogram_quantile` (2337–2429). Sums of counts are exact (their overflow is
not modelled). The range of exponents is unbounded (`Model/Float.lean`).
-/
namespace MarEx

/-- Entry `j` of `np.arange(-precision, max_anomaly + precision, precision, dtype=float)` for floats of `b` bits (detect.py 2475–2477: `b = 24`). numpy stores the
first two entries, `-precision` and `-precision + precision = 0`, takes their difference as the step and computes every later entry from the first one,
`start + j * step`, rounding the product and the sum (`j` itself is exact up to `2 ^ b`). -/
def edgeFl (b : Nat) (p : ℚ) (j : Nat) : ℚ :=
  if j = 0 then -(fl b p) else if j = 1 then 0 else fl b (-(fl b p) + fl b ((j : ℚ) * fl b p))

/-- The length of the same `np.arange`: `ceil((stop - start) / step)` in float64 (detect.py 2476). -/
def nBinsFl (p mx : ℚ) : Nat := ⌈fl 53 (fl 53 (fl 53 (mx + p) + p) / p)⌉.toNat

/-- `np.digitize(value, bin_edges) - 1` (detect.py 2496) with the float32 edges. -/
def digitizeFl (p mx : ℚ) : Option ℚ → Nat
  | none => nBinsFl p mx
  | some x => ((List.range (nBinsFl p mx)).filter fun j => decide (edgeFl 24 p j ≤ x)).length

/-- The counts in the float32 bins, with 16-bit bin numbers (detect.py 2494–2520), for up to 65536 bins. -/
def histCountsFl (p mx : ℚ) (vs : List (Option ℚ)) : List Nat :=
  (List.range (nBinsFl p mx)).map fun b => (vs.filter fun v => digitizeFl p mx v % 65536 = b).length

/-- `bin_centers` (detect.py 2479–2487): a rounded sum, halved (which is exact), the first one set to 0. -/
def centreFl (p : ℚ) (k : Nat) : ℚ := if k = 0 then 0 else fl 24 (edgeFl 24 p k + edgeFl 24 p (k - 1)) / 2

/-- One row of `_rolling_histogram_quantile` (detect.py 2383–2429): the position and the fraction are float64, the bin centres and their difference float32, the
interpolated value float64 and then cast to float32. -/
def rowThresholdFl (P : ℚ) (centre : Nat → ℚ) (row : List Nat) : Option ℚ :=
  let m := row.length
  let cum := fun k => (row.take (k + 1)).sum
  let total := cum (m - 1)
  let pos := quantilePosition P total
  let idx := if total = 0 then 0 else ((List.range m).filter fun k => (cum k : ℚ) ≤ pos).length
  let up := min idx (m - 1)
  let lo := up - 1
  let diff : ℚ := (cum up : ℚ) - (cum lo : ℚ)
  let frac : ℚ := if (1 / 10000000000 : ℚ) < diff then fl 53 (fl 53 (pos - (cum lo : ℚ)) / diff) else 1 / 2
  if total = 0 then none
  else if up = 0 then some (fl 24 (centre 0))
  else some (fl 24 (fl 53 (centre lo + fl 53 (frac * fl 24 (centre up - centre lo)))))

/-- The lower bound `bin_edges[3]` (detect.py 2581, 2594–2604). -/
def applyFloorFl (p : ℚ) (t : Option ℚ) : Option ℚ := t.map fun x => if x < edgeFl 24 p 2 then edgeFl 24 p 2 else x

/-- The day-of-year histogram of one location (detect.py 2509–2520). -/
def doyHistFl (p mx : ℚ) (record : List Sample) : List (List Nat) :=
  (List.range 366).map fun d => histCountsFl p mx ((record.filter fun s => s.doy = d + 1).map Sample.val)

/-- The smoothed day-of-year histogram of a cell (detect.py 2509–2540). -/
def pooledHistFl (p mx : ℚ) (s ny nx : Nat) (recs : Nat → Nat → List Sample) (y x : Nat) : List (List Nat) :=
  (List.range 366).map fun d => (List.range (nBinsFl p mx)).map fun b =>
    pooled s ny nx (fun y' x' => ((doyHistFl p mx (recs y' x')).getD d []).getD b 0) y x

/-- `_compute_histogram_quantile_2d` (detect.py 2434–2606): the thresholds of one cell as the float32 numbers the code returns. -/
def gridThresholdsFl (p mx P : ℚ) (w s ny nx : Nat) (recs : Nat → Nat → List Sample) (y x : Nat) : Except ThErr (List (Option ℚ)) :=
  match windowedHist w (nBinsFl p mx) (pooledHistFl p mx s ny nx recs y x) with
  | .error e => .error e
  | .ok rows => .ok (rows.map fun row =>
      if ((recs y x).map Sample.val).headD none = none then none else applyFloorFl p (rowThresholdFl P (centreFl p) row))

end MarEx
