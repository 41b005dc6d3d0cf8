import Verif.Model.Climatology
import Verif.Model.Detrend
import Verif.Spec.Threshold
/-! Model of the threshold and extreme-event computation of marEx/detect.py (`_rolling_histogram_quantile`,
`_compute_histogram_quantile_2d`, `_compute_histogram_quantile_1d`, `_identify_extremes_hobday`, `_identify_extremes_constant`).
Arithmetic is exact: the code uses float32 bin edges and counts in uint16/int32, whose rounding and overflow are not modelled, except for the bin
numbers in `binNumber16`. -/
namespace MarEx

/-- Number of entries of `np.arange(-precision, max_anomaly + precision, precision)` (detect.py 2475–2477, 2644),
which is also the number of bins, since `-inf` is put in front. -/
def nBins (p mx : ℚ) : Nat := ⌈(mx + 2 * p) / p⌉.toNat

/-- The finite bin edges, `bin_edges[1:]` (detect.py 2475–2477, 2644). -/
def finiteEdges (p mx : ℚ) : List ℚ := (List.range (nBins p mx)).map fun j : Nat => -p + (j : ℚ) * p

/-- `bin_centers` (detect.py 2479–2480, 2655–2656): midpoints of neighbouring edges, the unbounded first bin being given the centre 0. -/
def binCentres (p mx : ℚ) : List ℚ :=
  (List.range (nBins p mx)).map fun k =>
    if k = 0 then 0 else ((finiteEdges p mx).getD k 0 + (finiteEdges p mx).getD (k - 1) 0) / 2

/-- `bin_edges[3]`, the lower bound applied to thresholds (detect.py 2581, 2712). -/
def lowerBound (p mx : ℚ) : ℚ := (finiteEdges p mx).getD 2 0

/-- The last bin edge. -/
def lastEdge (p mx : ℚ) : ℚ := (finiteEdges p mx).getD (nBins p mx - 1) 0

/-- `np.digitize(value, bin_edges) - 1` (detect.py 2496): the number of finite edges at or below the value; NaN sorts after every edge. -/
def digitize (p mx : ℚ) : Option ℚ → Nat
  | none => nBins p mx
  | some x => ((finiteEdges p mx).filter fun e => e ≤ x).length

/-- Counts of the binned values in the expected groups `0 … n_bins-1` (detect.py 2509–2520); other values are dropped. -/
def histCounts (p mx : ℚ) (vs : List (Option ℚ)) : List Nat :=
  (List.range (nBins p mx)).map fun b => (vs.filter fun v => digitize p mx v = b).length

/-- `.astype(np.uint16)` of the bin number (detect.py 2494–2503). -/
def binNumber16 (p mx : ℚ) (v : Option ℚ) : Nat := digitize p mx v % 65536

/-- The counts with 16-bit bin numbers (detect.py 2494–2520), for up to 65536 bins: the expected groups `np.arange(n_bins, dtype=np.uint16)` are then distinct. -/
def histCounts16 (p mx : ℚ) (vs : List (Option ℚ)) : List Nat :=
  (List.range (nBins p mx)).map fun b => (vs.filter fun v => binNumber16 p mx v = b).length

/-- The day-of-year histogram of one location (detect.py 2509–2520), 366 rows. -/
def doyHist (p mx : ℚ) (record : List Sample) : List (List Nat) :=
  (List.range 366).map fun d => histCounts p mx ((record.filter fun s => s.doy = d + 1).map Sample.val)

/-- Python `l[-k:]`: for `k = 0` this is the whole list. -/
def pyTail {α : Type} (k : Nat) (l : List α) : List α := if k = 0 then l else l.drop (l.length - k)

/-- The element-wise sum of rows of `m` counts. -/
def addRows (m : Nat) (rows : List (List Nat)) : List Nat :=
  (List.range m).map fun b => (rows.map fun r => r.getD b 0).sum

/-- numpy raises `ValueError` when a window does not fit or shapes do not broadcast. -/
inductive ThErr | shape
deriving DecidableEq, Repr

/-- The windowed histogram of `_rolling_histogram_quantile` (detect.py 2367–2373): wrap padding by `window // 2`, then sliding sums.
Later lines combine the result with arrays of length `n_doy` (2398–2414), which raises `ValueError` unless the lengths agree. -/
def windowedHist (w m : Nat) (hist : List (List Nat)) : Except ThErr (List (List Nat)) :=
  let pad := w / 2
  let padded := pyTail pad hist ++ hist ++ hist.take pad
  if padded.length < w then .error .shape
  else
    let windows := (List.range (padded.length - w + 1)).map fun i => addRows m ((padded.drop i).take w)
    if windows.length = hist.length then .ok windows else .error .shape

/-- One row of `_rolling_histogram_quantile` (detect.py 2383–2429). -/
def rowQuantile (q : ℚ) (centres : List ℚ) (row : List Nat) : Option ℚ :=
  let m := row.length
  let cum := fun k => (row.take (k + 1)).sum
  let total := cum (m - 1)
  let pos : ℚ := q * (total : ℚ)
  let idx := if total = 0 then 0 else ((List.range m).filter fun k => (cum k : ℚ) ≤ pos).length
  let up := min idx (m - 1)
  let lo := up - 1
  let diff : ℚ := (cum up : ℚ) - (cum lo : ℚ)
  let frac : ℚ := if (1 / 10000000000 : ℚ) < diff then (pos - (cum lo : ℚ)) / diff else 1 / 2
  if total = 0 then none
  else if up = 0 then some (centres.getD 0 0)
  else some (centres.getD lo 0 + frac * (centres.getD up 0 - centres.getD lo 0))

/-- The lower bound applied to computed thresholds; missing ones stay missing (detect.py 2579–2604, 2711–2737). -/
def applyFloor (p mx : ℚ) (t : Option ℚ) : Option ℚ := t.map fun x => if x < lowerBound p mx then lowerBound p mx else x

/-- `_compute_histogram_quantile_2d` after the histogram (detect.py 2542–2606) for one location; `firstMissing` says whether the first time
step is missing there (2575–2577). -/
def thresholds2d (p mx q : ℚ) (w : Nat) (firstMissing : Bool) (hist : List (List Nat)) : Except ThErr (List (Option ℚ)) :=
  match windowedHist w (nBins p mx) hist with
  | .error e => .error e
  | .ok rows => .ok (rows.map fun row =>
      if firstMissing then none else applyFloor p mx (rowQuantile q (binCentres p mx) row))

/-- The counts of `xhistogram.histogram` (detect.py 2645): as above, but the last bin includes its right edge. -/
def histCounts1d (p mx : ℚ) (vs : List (Option ℚ)) : List Nat :=
  (List.range (nBins p mx)).map fun b => (vs.filter fun v =>
    (if v = some (lastEdge p mx) then nBins p mx - 1 else digitize p mx v) = b).length

/-- `boolean.argmax`: the first index that is true, 0 if there is none. -/
def argmaxFirst (n : Nat) (f : Nat → Bool) : Nat := ((List.range n).find? f).getD 0

/-- The interpolation of `_compute_histogram_quantile_1d` (detect.py 2647–2711) on the counts of one location. -/
def quantile1d (q : ℚ) (centres : List ℚ) (hist : List Nat) : ℚ :=
  let eps : ℚ := 1 / 10000000000
  let m := hist.length
  let cdf := fun k => (((hist.take (k + 1)).sum : Nat) : ℚ) / ((hist.sum : ℚ) + eps)
  let idxUpper := argmaxFirst m fun k => q - eps ≤ cdf k
  let before := idxUpper - 1
  let idxLower := argmaxFirst m fun k => cdf before < cdf k
  let lo := if m - 2 < idxLower then m - 2 else idxLower
  let up := if idxUpper < 1 then 1 else if m - 1 < idxUpper then m - 1 else idxUpper
  let binLo := centres.getD lo 0
  let binUp := centres.getD up 0
  let denom := cdf up - cdf lo
  let frac := (q - cdf lo) / (if eps < |denom| then denom else 1)
  if |denom| ≤ eps ∧ ¬ (|cdf lo - q| < eps) then (binLo + binUp) / 2
  else if |cdf lo - q| < eps then binLo
  else binLo + frac * (binUp - binLo)

/-- `_compute_histogram_quantile_1d` (detect.py 2609–2743) for one location: a missing value at any time makes the threshold missing. -/
def threshold1d (p mx q : ℚ) (vs : List (Option ℚ)) : Option ℚ :=
  if vs.any (fun v => v = none) then none
  else applyFloor p mx (some (quantile1d q (binCentres p mx) (histCounts1d p mx vs)))

/-- A comparison `anomaly >= threshold` with NaN on either side is False (detect.py 1919, 2788). -/
def geNaN (v t : Option ℚ) : Bool := match v, t with
  | some x, some y => decide (y ≤ x)
  | _, _ => false

/-- The extreme mask of `_identify_extremes_hobday` (detect.py 1918–1919): each step is compared with the threshold of its day of year. -/
def extremesHobday (record : List Sample) (thresholds : List (Option ℚ)) : List Bool :=
  record.map fun s => geNaN s.val (thresholds.getD (s.doy - 1) none)

/-- The extreme mask of `_identify_extremes_constant` (detect.py 2788). -/
def extremesConstant (vs : List (Option ℚ)) (threshold : Option ℚ) : List Bool := vs.map fun v => geNaN v threshold

/-- `da.quantile(q, dim=time)` (detect.py 2775): NaN-skipping linear-interpolation quantile of a float series. -/
def quantileExact (q : ℚ) (vs : List (Option ℚ)) : Option ℚ :=
  let v := vs.filterMap id
  if v.isEmpty then none else some (percentile v q)

/-- The exact thresholds of `_identify_extremes_hobday` (detect.py 1863–1871) for day of year `d`: NaN-skipping percentile of the centred windows
(`rolling(...).construct("window")`, which fills with NaN outside the record) of all steps on that day. -/
def thresholdExact (q : ℚ) (w : Nat) (record : List Sample) (d : Nat) : Option ℚ :=
  let vals := record.map Sample.val
  let windows := (List.range record.length).flatMap fun i =>
    if (record.map Sample.doy).getD i 0 = d then
      (List.range w).map fun k => if i + k < w / 2 then none else vals.getD (i + k - w / 2) none
    else []
  quantileExact q windows

/-- One entry of a centred rolling sum with `min_periods=1` (detect.py 2533, 2538): positions outside the array are ignored. -/
def rollSum (s : Nat) (xs : List Nat) (i : Nat) : Nat :=
  ((List.range s).map fun k => if i + k < s / 2 then 0 else xs.getD (i + k - s / 2) 0).sum

/-- The spatial smoothing of one histogram entry (detect.py 2523–2540) on an `ny` by `nx` grid: wrap padding and rolling sum in longitude,
trimmed, then rolling sum in latitude.  `H y x` is the count of one (day, bin) entry at a cell. -/
def pooled (s ny nx : Nat) (H : Nat → Nat → Nat) (y x : Nat) : Nat :=
  if s ≤ 1 then H y x
  else
    let lonRolled := fun y' => rollSum s (wrapPad (s / 2) ((List.range nx).map fun x' => H y' x')) (s / 2 + x)
    rollSum s ((List.range ny).map lonRolled) y

/-- The smoothed day-of-year histogram of a cell (detect.py 2509–2540); `s = 1` stands for no spatial window. -/
def pooledHist (p mx : ℚ) (s ny nx : Nat) (recs : Nat → Nat → List Sample) (y x : Nat) : List (List Nat) :=
  (List.range 366).map fun d => (List.range (nBins p mx)).map fun b =>
    pooled s ny nx (fun y' x' => ((doyHist p mx (recs y' x')).getD d []).getD b 0) y x

/-- `_compute_histogram_quantile_2d` (detect.py 2434–2606): the thresholds of one cell.  Unstructured data are a grid of one row with `s = 1`. -/
def gridThresholds (p mx q : ℚ) (w s ny nx : Nat) (recs : Nat → Nat → List Sample) (y x : Nat) : Except ThErr (List (Option ℚ)) :=
  thresholds2d p mx q w (((recs y x).map Sample.val).headD none = none) (pooledHist p mx s ny nx recs y x)

/-- `_identify_extremes_hobday` with the approximate method (detect.py 1873–1938): the extreme mask and the thresholds of one cell. -/
def hobdayApprox (p mx q : ℚ) (w s ny nx : Nat) (recs : Nat → Nat → List Sample) (y x : Nat) :
    Except ThErr (List Bool × List (Option ℚ)) :=
  match gridThresholds p mx q w s ny nx recs y x with
  | .error e => .error e
  | .ok ts => .ok (extremesHobday (recs y x) ts, ts)

end MarEx
