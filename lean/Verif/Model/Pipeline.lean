import Verif.Model.FillHoles
import Verif.Model.TimeGaps
import Verif.Model.Filter
import Verif.Model.Components
import Verif.Model.Parallel
/-!
# Model of object identification on a structured grid and of the whole pipeline

`/repo/marEx/track.py` 2006–2046 (`identify_objects`, structured), 1234–1313 (`run_preprocess`), 1370–1412 (`run_tracking`).

`dask_image.ndmeasure.label(data, structure, wrap_axes)` is an external call. Contract: extreme voxels get the positive label of their
connected component in the graph given by the structuring element, whose columns are joined around axis 2 with `wrap_axes=(2,)`; labels
are `1..N`; other voxels get 0. It is modelled through the same component routine `cc` as on meshes.

A cell of a grid with `nx` columns is `Fin n`, row `i / nx`, column `i % nx`.
-/
namespace MarEx

variable {n : Nat}

/-- Label the nodes of a list by connected component of the relation `adj`: `1..N`, and 0 for everything not in the list. -/
def labelGraph {V : Type} [DecidableEq V] (cc : Labeller) (nodes : List V) (adj : V → V → Bool) : V → Nat :=
  let edges := nodes.flatMap fun a => nodes.filterMap fun b => if adj a b then some (nodes.idxOf a, nodes.idxOf b) else none
  fun v => if nodes.contains v then (cc nodes.length edges).2 (nodes.idxOf v) + 1 else 0

/-- Indices at distance at most one. -/
def near (a b : Nat) : Bool := decide (a ≤ b + 1 ∧ b ≤ a + 1)

/-- The structuring element with wrapping (track.py 2008–2032): all 26 neighbours with `time_connectivity`, else the 8 neighbours of the
same step; first and last column are joined unless in regional mode. A voxel is (step, cell). -/
def voxelAdj (timeConn regional : Bool) (nx : Nat) (a b : Nat × Fin n) : Bool :=
  (if timeConn then near a.1 b.1 else a.1 == b.1) && near (a.2.val / nx) (b.2.val / nx) &&
  (near (a.2.val % nx) (b.2.val % nx) ||
    (!regional && ((a.2.val % nx == 0 && b.2.val % nx == nx - 1) || (a.2.val % nx == nx - 1 && b.2.val % nx == 0))))

/-- The extreme voxels of a record in C order. -/
def extremeVoxels (data : List (Fin n → Bool)) : List (Nat × Fin n) :=
  (List.range data.length).flatMap fun t => ((List.finRange n).filter fun i => (data[t]?.map fun d => d i).getD false).map fun i => (t, i)

/-- `identify_objects` on a structured grid (track.py 2006–2046). -/
def identifyObjectsGrid (cc : Labeller) (timeConn regional : Bool) (nx : Nat) (data : List (Fin n → Bool)) : List (Frame n) :=
  let lab := labelGraph cc (extremeVoxels data) (voxelAdj timeConn regional nx)
  (List.range data.length).map fun t i => lab (t, i)

/-- A frame as an image (values outside the grid are never used). -/
def toImg (ny nx : Nat) (f : Fin (ny * nx) → Bool) : Img := fun y x =>
  if h : (y.toNat * nx + x.toNat) < ny * nx then f ⟨y.toNat * nx + x.toNat, h⟩ else false

/-- An image as a frame. -/
def ofImg (ny nx : Nat) (g : Img) : Fin (ny * nx) → Bool := fun i => g (i.val / nx : Nat) (i.val % nx : Nat)

/-- `fill_holes` on the frames of a structured record (track.py 1608–1673). -/
def fillFrameGrid (regional : Bool) (ny nx : Nat) (mask : Fin (ny * nx) → Bool) (R : Nat) (f : Fin (ny * nx) → Bool) : Fin (ny * nx) → Bool :=
  ofImg ny nx (fillHolesGrid regional ny nx (toImg ny nx mask) R (toImg ny nx f))

/-- Parameters of a run on a structured grid. -/
structure GridRun (ny nx : Nat) where
  regional : Bool
  mask : Fin (ny * nx) → Bool
  R : Nat
  T : Nat
  criterion : AreaCriterion
  allowMerging : Bool
  track : TrackCfg (ny * nx)

/-- The filling stages on a structured grid (track.py 1288–1301). -/
def fillStagesGrid {ny nx : Nat} (p : GridRun ny nx) (data : List (Fin (ny * nx) → Bool)) : List (Fin (ny * nx) → Bool) :=
  fillTimeGaps (fillFrameGrid p.regional ny nx p.mask) p.T p.R (data.map (fillFrameGrid p.regional ny nx p.mask p.R))

/-- `run_preprocess` on a structured grid, without checkpoint and statistics (track.py 1288–1313). -/
def preprocessGrid {ny nx : Nat} (cc : Labeller) (p : GridRun ny nx) (data : List (Fin (ny * nx) → Bool)) :
    Except FilterError (FilterResult (ny * nx)) :=
  filterGrid p.criterion (identifyObjectsGrid cc false p.regional nx (fillStagesGrid p data))

/-- Split a record into chunks of the given lengths. -/
def chunksOf {α : Type} : List Nat → List α → List (List α)
  | [], l => if l.isEmpty then [] else [l]
  | k :: ks, l => l.take k :: chunksOf ks (l.drop k)

/-- `run_tracking` on a structured grid (track.py 1388–1397): the variable `ID_field` of the result. `chunks`: time chunk lengths. -/
def trackingGrid {ny nx : Nat} (cc : Labeller) (p : GridRun ny nx) (chunks : List Nat) (pre : List (Fin (ny * nx) → Bool)) :
    List (Frame (ny * nx)) :=
  if p.allowMerging then
    (trackGrid cc p.track (chunksOf chunks (identifyObjectsGrid cc false p.regional nx pre))).idField
  else identifyObjectsGrid cc true p.regional nx pre

/-- `run` on a structured grid: preprocessed field and `ID_field` (track.py 1162–1232). -/
def runGrid {ny nx : Nat} (cc : Labeller) (p : GridRun ny nx) (chunks : List Nat) (data : List (Fin (ny * nx) → Bool)) :
    Except FilterError (List (Fin (ny * nx) → Bool) × List (Frame (ny * nx))) :=
  match preprocessGrid cc p data with
  | .error e => .error e
  | .ok r => .ok (r.field, trackingGrid cc p chunks r.field)

/-- Errors of a run on a mesh. -/
inductive MeshErr
  | filter (e : FilterError)
  | track (e : TErr)

/-- Parameters of a run on a mesh. `allowMerging` is not read by `run_tracking` (track.py 1388: `allow_merging or unstructured_grid`). -/
structure MeshRun (n : Nat) where
  nbr : NbrTable n
  mask : Fin n → Bool
  R : Nat
  T : Nat
  criterion : AreaCriterion
  allowMerging : Bool
  track : MeshCfg n
  cen : Frame n → Nat → ℚ × ℚ

/-- `run_preprocess` on a mesh, without checkpoint and statistics (track.py 1288–1313). -/
def preprocessMesh (cc : Labeller) (p : MeshRun n) (data : List (Fin n → Bool)) : Except FilterError (FilterResult n) :=
  filterMesh p.criterion ((fillTimeGaps (fillHolesMesh (dilationRow p.nbr) p.mask) p.T p.R
    (data.map (fillHolesMesh (dilationRow p.nbr) p.mask p.R))).map (identifyObjectsMesh cc p.nbr p.mask))

/-- `run_tracking` on a mesh (track.py 1388–1390, 2755–2790): object field, property table, split and merge, renaming. For a record of one
step `calculate_object_properties` (2252–2259) takes the plain values, indexing the coordinates, which `xr.broadcast` (2143–2145) has put in
the order (cell, time), by a mask in the order (time, cell): numpy raises `IndexError` unless there is only one cell. -/
def trackingMesh (cc : Labeller) (p : MeshRun n) (pre : List (Fin n → Bool)) : Except TErr (List (Frame n)) :=
  if pre.length = 1 ∧ n ≠ 1 then .error .index
  else
  let objs := objectFieldMesh cc p.nbr p.mask pre
  let props := objs.flatMap (calcProps ⟨p.track.w, p.track.thr, p.cen, fun _ _ _ _ _ _ _ => 0⟩)
  match splitAndMergeParallel p.track p.cen objs props with
  | .error e => .error e
  | .ok r => .ok (renameField cc r.field (r.links.map fun o => (o.a, o.b)))

/-- `run` on a mesh (track.py 1162–1232): preprocessed field and `ID_field`. -/
def runMesh (cc : Labeller) (p : MeshRun n) (data : List (Fin n → Bool)) :
    Except MeshErr (List (Fin n → Bool) × List (Frame n)) :=
  match preprocessMesh cc p data with
  | .error e => .error (.filter e)
  | .ok r => match trackingMesh cc p r.field with
    | .error e => .error (.track e)
    | .ok ids => .ok (r.field, ids)

end MarEx
