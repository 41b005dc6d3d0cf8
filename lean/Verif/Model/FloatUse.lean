import Verif.Model.Float
import Verif.Model.Overlap
import Verif.Model.Threshold
/-!
# The decisions of the code that rest on rounded numbers

The other models compute with exact numbers. Here are the places where a rounded number decides about links, areas and bins, as the code computes them.
-/
namespace MarEx

variable {n : Nat}

/-- `np.add.at(zeros, …, values)` for one target of `p` bits: the values are added one after the other, each sum rounded
(track.py 2190–2206, 2438–2439). -/
def addAt (p : Nat) (vs : List ℚ) : ℚ := vs.foldl (fun s v => fl p (s + v)) 0

/-- `cell_areas.astype(np.float32)` (track.py 477). -/
def storedArea (w : Fin n → ℚ) (i : Fin n) : ℚ := fl 24 (w i)

/-- The area of object `k` on a mesh: float32 sums of stored cell areas in the order of the cells (track.py 2170–2206). -/
def meshAreaFl (w : Fin n → ℚ) (f : Fin n → Nat) (k : Nat) : ℚ :=
  addAt 24 (((List.finRange n).filter fun i => f i == k).map (storedArea w))

/-- The area shared by object `a` of one step and object `b` of the next on a mesh (track.py 2431–2439; the sum over steps at 2498–2500 has one term,
since IDs occur at one step only). -/
def meshOverlapFl (w : Fin n → ℚ) (f g : Fin n → Nat) (a b : Nat) : ℚ :=
  addAt 24 (((List.finRange n).filter fun i => f i == a && g i == b).map (storedArea w))

/-- `overlap.astype(float) / min_area >= overlap_threshold` (track.py 2541–2549): the quotient is a float64, and so is `thr`. -/
def fractionAtLeastFl (v m thr : ℚ) : Bool := if m = 0 then decide (0 < v) else decide (thr ≤ fl 53 (v / m))

/-- `enforce_overlap_threshold` (track.py 2506–2552) with the rounded quotient. -/
def enforceOverlapFl (thr : ℚ) (props : List Obj) (ovs : List Ov) : List Ov :=
  ovs.filter fun o =>
    match areaOf props o.a, areaOf props o.b with
    | some x, some y => fractionAtLeastFl o.v (min x y) thr
    | _, _ => false

/-- One row of `_rolling_histogram_quantile` (detect.py 2383–2429) with the position `pos` of the quantile among the counts given. -/
def rowQuantileAt (pos : ℚ) (centres : List ℚ) (row : List Nat) : Option ℚ :=
  let m := row.length
  let cum := fun k => (row.take (k + 1)).sum
  let total := cum (m - 1)
  let idx := if total = 0 then 0 else ((List.range m).filter fun k => (cum k : ℚ) ≤ pos).length
  let up := min idx (m - 1)
  let lo := up - 1
  let diff : ℚ := (cum up : ℚ) - (cum lo : ℚ)
  let frac : ℚ := if (1 / 10000000000 : ℚ) < diff then (pos - (cum lo : ℚ)) / diff else 1 / 2
  if total = 0 then none
  else if up = 0 then some (centres.getD 0 0)
  else some (centres.getD lo 0 + frac * (centres.getD up 0 - centres.getD lo 0))

/-- `q * total_counts` with `q = threshold_percentile / 100.0` (detect.py 1875, 2388): two rounded operations. -/
def quantilePosition (P : ℚ) (total : Nat) : ℚ := fl 53 (fl 53 (P / 100) * (total : ℚ))

/-- One row of `_rolling_histogram_quantile` with the position as the code computes it. The interpolation between bin centres (detect.py 2412–2416) is
exact here. -/
def rowQuantileFl (P : ℚ) (centres : List ℚ) (row : List Nat) : Option ℚ := rowQuantileAt (quantilePosition P row.sum) centres row

end MarEx
