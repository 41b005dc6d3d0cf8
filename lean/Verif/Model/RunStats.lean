import Verif.Model.Pipeline
import Verif.Model.Checkpoint
/-!
# Model of what a run reports about itself

`/repo/marEx/track.py` 2805 (event count), 2930–2931, 3331 (event coordinate), 3752–3793 and 4748–4796 (merge dataset), 1414–1484 (attributes).
-/
namespace MarEx

variable {n : Nat}

/-- `ID_field.max()` (track.py 2805). -/
def maxId (fs : List (Frame n)) : Nat := (fs.flatMap fun f => (List.finRange n).map f).foldl max 0

/-- The second result of `dask_image.ndmeasure.label`: the number of components (track.py 2022–2036). -/
def labelCount {V : Type} [DecidableEq V] (cc : Labeller) (nodes : List V) (adj : V → V → Bool) : Nat :=
  (cc nodes.length (nodes.flatMap fun a => nodes.filterMap fun b => if adj a b then some (nodes.idxOf a, nodes.idxOf b) else none)).1

/-- `N_events_final` on a structured grid (track.py 1388–1393). -/
def eventCountGrid {ny nx : Nat} (cc : Labeller) (p : GridRun ny nx) (chunks : List Nat) (pre : List (Fin (ny * nx) → Bool)) : Nat :=
  if p.allowMerging then maxId (trackingGrid cc p chunks pre) else labelCount cc (extremeVoxels pre) (voxelAdj true p.regional nx)

/-- The coordinate `ID` of the events (track.py 2930–2931, 3331): one more than there are components, the last one dropped. -/
def eventCoord (cc : Labeller) (fs : List (Frame n)) (pairs : List (Nat × Nat)) : List Nat :=
  (List.range' 1 (numEvents cc fs pairs + 1)).dropLast

/-- One row of the merge dataset. -/
structure MergeRow where
  parents : List Int
  children : List Int
  areas : List ℚ
  time : Nat
  nParents : Int
  nChildren : Int
  deriving DecidableEq, Repr

/-- `np.full(…, -1)` with its first entries overwritten (track.py 3763–3774). -/
def padRow {α : Type} (w : Nat) (fill : α) (l : List α) : List α := l ++ List.replicate (w - l.length) fill

/-- `max(len(ids) for ids in …)`, 1 without merges (track.py 3755–3760). -/
def maxLen (ls : List (List Nat)) : Nat := if ls.isEmpty then 1 else (ls.map List.length).foldl max 0

/-- One row of `merge_events` (track.py 3762–3791; on meshes 4761–4794), padded to the widths `wp` and `wc`. `int8` is numpy's conversion of a count to an
8-bit integer: some numpy versions wrap counts beyond 127, others raise. -/
def mergeRow (int8 : Nat → Except TErr Int) (wp wc : Nat) (r : MergeRec) : Except TErr MergeRow :=
  match int8 r.parents.length, int8 r.children.length with
  | .ok a, .ok b => .ok ⟨padRow wp (-1) (r.parents.map Int.ofNat), padRow wc (-1) (r.children.map Int.ofNat), padRow wp (-1) r.areas, r.time, a, b⟩
  | .error e, _ => .error e
  | _, .error e => .error e

/-- `merge_events` (track.py 3752–3793; on meshes 4748–4796). -/
def mergeDataset (int8 : Nat → Except TErr Int) (recs : List MergeRec) : Except TErr (List MergeRow) :=
  recs.mapM (mergeRow int8 (maxLen (recs.map (·.parents))) (maxLen (recs.map (·.children))))

/-- Values of attributes. -/
inductive AttrVal
  | int (i : Int)
  | num (q : ℚ)
  | text (s : String)
  deriving DecidableEq

/-- `d[k] = v` of a Python dictionary. -/
def attrSet (d : List (String × AttrVal)) (k : String) (v : AttrVal) : List (String × AttrVal) :=
  if d.any (fun p => p.1 == k) then d.map fun p => if p.1 = k then (k, v) else p else d ++ [(k, v)]

/-- `d[k]`. -/
def attrGet (d : List (String × AttrVal)) (k : String) : Option AttrVal := d.lookup k

/-- `d.update(e)`. -/
def attrUpdate (d e : List (String × AttrVal)) : List (String × AttrVal) := e.foldl (fun d p => attrSet d p.1 p.2) d

/-- What `run_stats_attributes` is given (track.py 1414–1448) besides the events. -/
structure RunInfo where
  allowMerging : Bool
  nPrefiltered : Nat
  nFiltered : Nat
  nEvents : Nat
  R : ℚ
  T : Nat
  quartile : ℚ
  stats : AreaStats
  overlap : ℚ
  nn : Bool
  merges : List MergeRow

/-- The attributes set before the input's are added (track.py 1451–1460, 1473–1479). -/
def ownAttrs (r : RunInfo) : List (String × AttrVal) :=
  [("allow_merging", .int (if r.allowMerging then 1 else 0)), ("N_objects_prefiltered", .int r.nPrefiltered), ("N_objects_filtered", .int r.nFiltered),
   ("N_events_final", .int r.nEvents), ("R_fill", .num r.R), ("T_fill", .int r.T), ("area_filter_quartile", .num r.quartile),
   ("area_threshold (cells)", .num r.stats.threshold), ("accepted_area_fraction", .num r.stats.acceptedFraction),
   ("preprocessed_area_fraction", .num r.stats.preprocessedFraction)] ++
  if r.allowMerging then
    [("overlap_threshold", .num r.overlap), ("nn_partitioning", .int (if r.nn then 1 else 0)), ("total_merges", .int r.merges.length),
     ("multi_parent_merges", .int (r.merges.filter fun m => decide (2 < m.nParents)).length)]
  else []

/-- The attributes of the returned events (track.py 1450–1484); `input`: those of the extremes given to the tracker (427–430). -/
def runAttrs (input : List (String × AttrVal)) (r : RunInfo) : List (String × AttrVal) := attrUpdate (ownAttrs r) input

end MarEx
