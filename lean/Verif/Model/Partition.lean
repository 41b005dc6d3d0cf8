import Verif.Model.SplitMerge
/-!
# Model of the partition functions

`/repo/marEx/track.py` 4825–4884 (`wrapped_euclidian_distance_mask_parallel`), 4887–4932 (`create_grid_index_arrays`),
4935–4969 (`wrapped_euclidian_distance_points`), 4972–5113 (`partition_nn_grid`), 5245–5353
(`partition_nn_unstructured_optimised`), 5356–5419 (`partition_centroid_unstructured`), 3490–3556 and 4053–4085 (callers).

Distances are compared through their squares, which has the same order as the distances. `prange` loops write disjoint
elements and are modelled as sequential. `partition_nn_unstructured` (5116–5242) is only called from the serial loop on
unstructured grids, which `track_objects` (2776) never selects; it is not modelled.
-/
namespace MarEx

variable {n : Nat}

/-- x-difference with the two `np.where` corrections (track.py 4873–4880). -/
def wrapDxMask (wrap : Bool) (Nx : ℚ) (dx : ℚ) : ℚ :=
  if wrap then
    let d1 := if Nx / 2 < dx then dx - Nx else dx
    if d1 < -(Nx / 2) then d1 + Nx else d1
  else dx

/-- x-difference with the `if/elif` correction (track.py 4961–4967). -/
def wrapDxPoint (wrap : Bool) (Nx : ℚ) (dx : ℚ) : ℚ :=
  if wrap then (if Nx / 2 < dx then dx - Nx else if dx < -(Nx / 2) then dx + Nx else dx) else dx

/-- Square of `wrapped_euclidian_distance_points` (track.py 4935–4969). -/
def distSqPoint (wrap : Bool) (Nx y1 x1 y2 x2 : ℚ) : ℚ := (y1 - y2) ^ 2 + (wrapDxPoint wrap Nx (x1 - x2)) ^ 2

/-- Square of one entry of `wrapped_euclidian_distance_mask_parallel` (track.py 4825–4884). -/
def distSqMask (wrap : Bool) (Nx y1 x1 y2 x2 : ℚ) : ℚ := (y1 - y2) ^ 2 + (wrapDxMask wrap Nx (x1 - x2)) ^ 2

/-- `np.argmin` of a list: the first index of the smallest value, 0 for an empty list. `best`/`at`: current best value and index. -/
def argminFrom (best : ℚ) (at' : Nat) (k : Nat) : List ℚ → Nat
  | [] => at'
  | x :: xs => if x < best then argminFrom x k (k + 1) xs else argminFrom best at' (k + 1) xs

/-- `np.argmin`. -/
def argmin : List ℚ → Nat
  | [] => 0
  | x :: xs => argminFrom x 0 1 xs

/-- Row and column of the `i`-th cell of a grid with `nx` columns (C order, `np.nonzero` order). -/
def rowOf (nx : Nat) (i : Fin n) : Nat := i.val / nx
/-- Column. -/
def colOf (nx : Nat) (i : Fin n) : Nat := i.val % nx

/-- `object_props.sel(ID=k).centroid`. -/
def cenOf (props : List Obj) (k : Nat) : ℚ × ℚ := ((props.find? fun o => o.id == k).map (·.cen)).getD (0, 0)

/-- Centroid partition on a structured grid (track.py 3550–3557). -/
def centroidPart (wrap : Bool) (nx : Nat) (_prev _cur : Frame n) (_child : Nat) (parents childIds : List Nat)
    (props : List Obj) (i : Fin n) : Nat :=
  childIds.getD (argmin (parents.map fun p =>
    distSqMask wrap nx (rowOf nx i) (colOf nx i) (cenOf props p).1 (cenOf props p).2)) 0

/-! ### Nearest-neighbour partition on a structured grid -/

/-- `a < b` where `none` is `np.inf`. -/
def lessInf : Option ℚ → Option ℚ → Bool
  | some a, some b => decide (a < b)
  | some _, none => true
  | none, _ => false

/-- Scan of the points of the nine buckets (track.py 5055–5077), with the early exit at distance 0. Input: squared distances in
scan order. Result: smallest squared distance not above the limit, and whether a zero distance was found. -/
def scanPoints (maxSq : ℚ) : List ℚ → Option ℚ → Option ℚ × Bool
  | [], m => (m, false)
  | d :: ds, m =>
    if maxSq < d then scanPoints maxSq ds m
    else if d = 0 then (some d, true)
    else scanPoints maxSq ds (if lessInf (some d) m then some d else m)

/-- `min(v // grid_size, n_grids - 1)` (track.py 4925–4926, 5040–5041). -/
def bucket (gs len : Nat) (v : Nat) : Nat := min (v / gs) ((len + gs - 1) / gs - 1)

/-- `(grid + d) % n_grids` (track.py 5047, 5050). -/
def bucketShift (gs len : Nat) (b : Nat) (d : Int) : Nat := ((((b : Int) + d) % (((len + gs - 1) / gs : Nat) : Int))).toNat

/-- Points of a parent in the 3×3 buckets around the bucket of cell `i`, in scan order (track.py 5046–5058). -/
def nearPoints (ny nx gs : Nat) (i : Fin n) (cells : List (Fin n)) : List (Fin n) :=
  [-1, 0, 1].flatMap fun (dy : Int) => [-1, 0, 1].flatMap fun (dx : Int) =>
    cells.filter fun j =>
      decide (bucket gs ny (rowOf nx j) = bucketShift gs ny (bucket gs ny (rowOf nx i)) dy) &&
      decide (bucket gs nx (colOf nx j) = bucketShift gs nx (bucket gs nx (colOf nx i)) dx)

/-- Squared distance between two cells. -/
def cellDistSq (wrap : Bool) (nx : Nat) (i j : Fin n) : ℚ :=
  distSqPoint wrap nx (rowOf nx i) (colOf nx i) (rowOf nx j) (colOf nx j)

/-- State of the search of one child cell: `min_distances`, `parent_assignments`, `found_close`. -/
structure NNState where
  best : Option ℚ
  assign : Nat
  found : Bool

/-- Body of the loop over parents for one child cell (track.py 5023–5082). -/
def nnParent (wrap : Bool) (ny nx gs : Nat) (maxSq : ℚ) (i : Fin n) (st : NNState) (p : Nat × List (Fin n)) : NNState :=
  if st.found || p.2.isEmpty then st
  else
    let r := scanPoints maxSq ((nearPoints ny nx gs i p.2).map (cellDistSq wrap nx i)) none
    if lessInf r.1 st.best then ⟨r.1, p.1, r.2⟩ else { st with found := r.2 }

/-- Index of the parent that a child cell is assigned to: `partition_nn_grid` before the last lookup (track.py 5011–5111).
`parents`: cells of each parent; `cens`: their centroids. -/
def nnAssign (wrap : Bool) (ny nx : Nat) (maxDist : Nat) (parents : List (List (Fin n))) (cens : List (ℚ × ℚ)) (i : Fin n) : Nat :=
  let gs := max 2 (maxDist / 4)
  let st := ((List.range parents.length).zip parents).foldl (nnParent wrap ny nx gs ((maxDist : ℚ) ^ 2) i) ⟨none, 0, false⟩
  match st.best with
  | some _ => st.assign
  | none => argmin (cens.map fun c => distSqPoint wrap nx (rowOf nx i) (colOf nx i) c.1 c.2)

/-- Cells of a frame with ID `k`, in `np.nonzero` order. -/
def cellsWith (f : Frame n) (k : Nat) : List (Fin n) := (List.finRange n).filter fun i => f i == k

/-- Integer part of the square root of a non-negative rational, times a factor: `int(np.sqrt(x) * f)`. -/
def sqrtTimes (x : ℚ) (f : Nat) : Nat := Nat.sqrt ((x * (f : ℚ) ^ 2).floor.toNat)

/-- Nearest-neighbour partition on a structured grid (track.py 3511–3537, 4972–5113). -/
def nnPart (wrap : Bool) (ny nx : Nat) (prev _cur : Frame n) (_child : Nat) (parents childIds : List Nat)
    (props : List Obj) (i : Fin n) : Nat :=
  let maxArea := (parents.map fun p => (areaOf props p).getD 0).foldl max 0
  childIds.getD (nnAssign wrap ny nx (max (sqrtTimes maxArea 3) 40) (parents.map (cellsWith prev)) (parents.map (cenOf props)) i) 0

/-! ### Meshes -/

/-- One pass over the neighbour direction `d` for one parent (track.py 5303–5320): every unvisited neighbour (in direction `d`)
of a cell held by the parent is taken by the parent. `nbr d p`: neighbour table, `none` for -1. -/
def frontPass (nbr : Fin 3 → Fin n → Option (Fin n)) (parent : Nat) (fr : Fin n → Option Nat) (d : Fin 3) : Fin n → Option Nat :=
  fun q => match fr q with
    | some x => some x
    | none => if (List.finRange n).any (fun p => fr p == some parent && nbr d p == some q) then some parent else none

/-- One round over all parents and directions (track.py 5294–5323). -/
def frontRound (nbr : Fin 3 → Fin n → Option (Fin n)) (nPar : Nat) (fr : Fin n → Option Nat) : Fin n → Option Nat :=
  (List.range nPar).foldl (fun fr p => (List.finRange 3).foldl (frontPass nbr p) fr) fr

/-- The `while current_distance < max_distance and any_unassigned` loop (track.py 5288–5325). A round without a newly assigned
child cell ends the loop. -/
def frontLoop (nbr : Fin 3 → Fin n → Option (Fin n)) (nPar : Nat) (child : Fin n → Bool) : Nat → (Fin n → Option Nat) → Fin n → Option Nat
  | 0, fr => fr
  | fuel + 1, fr =>
    if (List.finRange n).any (fun i => child i && (fr i).isNone) then
      let fr' := frontRound nbr nPar fr
      if (List.finRange n).any (fun i => child i && (fr i).isNone && (fr' i).isSome) then frontLoop nbr nPar child fuel fr' else fr'
    else fr

/-- `partition_nn_unstructured_optimised` (track.py 5245–5353). `far` is the great-circle `argmin` for cells the search did not
reach (not modelled further). -/
def partitionMeshNN (nbr : Fin 3 → Fin n → Option (Fin n)) (child : Fin n → Bool) (fr : Fin n → Option Nat)
    (maxDist : Nat) (far : Fin n → Nat) (i : Fin n) : Nat :=
  let nPar := ((List.finRange n).map fun j => match fr j with | some x => x + 1 | none => 0).foldl max 0
  match frontLoop nbr nPar child maxDist fr i with
  | some p => p
  | none => far i

/-- `partition_centroid_unstructured` (track.py 5356–5419): the label array has one entry per cell of the mesh. `closest` is
the great-circle nearest parent. -/
def partitionMeshCentroid (child : Fin n → Bool) (childIds : List Nat) (closest : Fin n → Nat) : List Nat :=
  (List.finRange n).map fun i => if child i then childIds.getD (closest i) 0 else 0

/-- numpy `a[mask] = values`: fails unless there is one value per selected cell, or a single value. -/
def assignMasked (f : Frame n) (mask : Fin n → Bool) (values : List Nat) : Option (Frame n) :=
  let sel := (List.finRange n).filter mask
  if values.length = sel.length then
    some fun i => if mask i then values.getD (sel.idxOf i) 0 else f i
  else if values.length = 1 then some fun i => if mask i then values.getD 0 0 else f i
  else none

/-- Centroid partition of a merged object of a mesh (track.py 4082–4085). -/
def meshCentroidStep (f : Frame n) (child : Nat) (childIds : List Nat) (closest : Fin n → Nat) : Option (Frame n) :=
  assignMasked f (fun i => f i == child) (partitionMeshCentroid (fun i => f i == child) childIds closest)

end MarEx
