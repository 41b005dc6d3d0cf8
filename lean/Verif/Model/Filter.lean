import Verif.Model.Util
/-!
# Model of the area filter

`/repo/marEx/track.py` 1755–1906 (`filter_small_objects`), 712–748 (`_resolve_area_filtering_parameters`),
672–702 (validation of the resolved parameters).

Cells of one time step are `Fin n` (a gridded field is flattened). A label field is one `Fin n → Nat` per step.
-/
namespace MarEx

variable {n : Nat}

/-- Number of cells of a step carrying ID `k`: `area` of `regionprops_table` (track.py 2337) and `np.unique(...,
return_counts=True)` (track.py 1789). Pixel counts, not physical areas. -/
def cellCount (f : Fin n → Nat) (k : Nat) : Nat := ((List.finRange n).filter fun i => f i == k).length

/-- The positive IDs of a step in increasing order (`regionprops_table` labels; `np.unique(ids[ids > 0])`, track.py 1789). -/
def idsOf (f : Fin n → Nat) : List Nat := npUnique (((List.finRange n).map f).filter fun k => decide (0 < k))

/-- The object table `(ID, area)` of one step. -/
def stepTable (f : Fin n → Nat) : List (Nat × Nat) := (idsOf f).map fun k => (k, cellCount f k)

/-- The object table of the whole record: per-step tables concatenated along `ID` (track.py 2365–2374). -/
def objectTable (fs : List (Fin n → Nat)) : List (Nat × Nat) := fs.flatMap stepTable

/-- The filter criterion after resolution (`_use_absolute_filtering`, track.py 712–734). -/
inductive AreaCriterion
  | quartile (q : ℚ)
  | absolute (a : ℚ)

/-- Errors of the area filter and its parameters. -/
inductive FilterError
  | bothGiven | badQuartile | badAbsolute | noObjects
  deriving DecidableEq

/-- `_resolve_area_filtering_parameters` (track.py 712–748) followed by the range checks of `_validate_inputs`
(track.py 672–702). -/
def resolveAreaFilter (quartile absolute : Option ℚ) : Except FilterError AreaCriterion :=
  match quartile, absolute with
  | none, none => .ok (.quartile (1 / 2))
  | some q, none => if q < 0 ∨ q > 1 then .error .badQuartile else .ok (.quartile q)
  | none, some a => if a ≤ 0 then .error .badAbsolute else .ok (.absolute a)
  | some _, some _ => .error .bothGiven

/-- `area_threshold` (track.py 1835–1838, 1885–1888). -/
def areaThreshold (c : AreaCriterion) (areas : List Nat) : ℚ :=
  match c with
  | .quartile q => percentile (areas.map fun (a : Nat) => (a : ℚ)) q
  | .absolute a => a

/-- `object_ids_keep` on a structured grid (track.py 1891–1892): IDs with `area >= threshold`, `-1` otherwise, and then
`object_ids_keep[0] = -1`. -/
def keepIdsGrid (thr : ℚ) (table : List (Nat × Nat)) : List Int :=
  (table.map fun e => if thr ≤ (e.2 : ℚ) then (e.1 : Int) else -1).set 0 (-1)

/-- Result of the filter: kept cells per step, the threshold, objects before, objects after. -/
structure FilterResult (n : Nat) where
  field : List (Fin n → Bool)
  threshold : ℚ
  nBefore : Nat
  nAfter : Nat

/-- `filter_small_objects` on a structured grid (track.py 1863–1906), given the label field. -/
def filterGrid (c : AreaCriterion) (labels : List (Fin n → Nat)) : Except FilterError (FilterResult n) :=
  let table := objectTable labels
  if table.length = 0 then .error .noObjects
  else
    let thr := areaThreshold c (table.map (·.2))
    let keep := keepIdsGrid thr table
    .ok { field := labels.map fun f => fun i => keep.contains (f i : Int)
          threshold := thr
          nBefore := table.length   -- `N_objects` of `label` (track.py 1778); equal to the number of table rows
          nAfter := (keep.filter fun k => decide (0 < k)).length }

/-- Sizes below which objects are ignored for the threshold and the counts on a mesh (track.py 1809–1814). -/
def prefilterSize : AreaCriterion → Nat
  | .quartile _ => 50
  | .absolute _ => 5

/-- `filter_small_objects` on a mesh (track.py 1780–1861), given the label field (IDs start at 1 in every step). -/
def filterMesh (c : AreaCriterion) (labels : List (Fin n → Nat)) : Except FilterError (FilterResult n) :=
  let sizes := (objectTable labels).map (·.2)
  let areas := sizes.filter fun (s : Nat) => decide (prefilterSize c < s)
  if areas.length = 0 then .error .noObjects
  else
    let thr := areaThreshold c areas
    .ok { field := labels.map fun f =>
            let keep := ((stepTable f).map fun e => if thr < (e.2 : ℚ) then e.1 else 0).filter fun k => decide (0 < k)
            fun i => keep.contains (f i)
          threshold := thr
          nBefore := areas.length
          nAfter := (areas.filter fun (s : Nat) => decide (thr < (s : ℚ))).length }

end MarEx
