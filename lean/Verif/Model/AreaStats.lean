import Verif.Model.Checkpoint
import Verif.Model.Filter
/-!
# Model of the statistics of `run_preprocess` as computed from the fields

`/repo/marEx/track.py` 1285, 1303–1313, 1331–1350 and `compute_area`, 1499–1518. The sums are exact; the time steps are a list.
-/
namespace MarEx

variable {n : Nat}

/-- `compute_area` at one step (track.py 1513–1516): `w` is the area of each cell on a mesh and 1 on a structured grid. -/
def computeArea (w : Fin n → ℚ) (f : Fin n → Bool) : ℚ := ((List.finRange n).map fun i => if f i then w i else 0).sum

/-- `total_hobday_area`, `total_processed_area` (track.py 1340–1341). -/
def totalArea (w : Fin n → ℚ) (fs : List (Fin n → Bool)) : ℚ := (fs.map (computeArea w)).sum

/-- The filter and the statistics of `run_preprocess` on a structured grid (track.py 1285, 1303–1342): `raw` is the record of the
extremes, `labels` the objects of the filled record. -/
def gridStats (c : AreaCriterion) (raw : List (Fin n → Bool)) (labels : List (Fin n → Nat)) : Except PErr (FilterResult n × AreaStats) :=
  match filterGrid c labels with
  | .error _ => .error .noObjects
  | .ok fr =>
    match areaStats ((objectTable labels).map fun e => (e.2 : ℚ)) fr.threshold (totalArea (fun _ => 1) raw) (totalArea (fun _ => 1) fr.field) with
    | .error e => .error e
    | .ok s => .ok (fr, s)

/-- The same on a mesh with cell areas `w` (track.py 1285, 1303–1342); the sizes of the objects are numbers of cells (1789–1795, 1868). The zeros that pad
`cluster_sizes` are left out: they do not change the sums. -/
def meshStats (w : Fin n → ℚ) (c : AreaCriterion) (raw : List (Fin n → Bool)) (labels : List (Fin n → Nat)) : Except PErr (FilterResult n × AreaStats) :=
  match filterMesh c labels with
  | .error _ => .error .noObjects
  | .ok fr =>
    match areaStats ((objectTable labels).map fun e => (e.2 : ℚ)) fr.threshold (totalArea w raw) (totalArea w fr.field) with
    | .error e => .error e
    | .ok s => .ok (fr, s)

end MarEx
