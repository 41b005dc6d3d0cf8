import Verif.Model.Rename
import Verif.Model.Partition
/-!
# Model of the chunk-parallel split-and-merge for unstructured meshes

`/repo/marEx/track.py` 3804–4814 (`split_and_merge_objects_parallel`) and 2658–2728 (`compute_id_time_dict`).

The chunks of one iteration read the field as it was before the iteration and write disjoint time ranges, so the order in which dask
runs them cannot matter; they are processed in time order here. Python errors are values of `TErr`. The iteration order of the Python
set `merging_objects` is the order of the list `merging`; the theorems hold for every order. Partitioning (`nn_partitioning=True`) is the
parameter `part`; with `nn_partitioning=False` every merge raises (see `C113_mesh_centroid_partition_raises_fails`).
Int32 overflow of IDs and float rounding are not modelled.
-/
namespace MarEx

variable {n : Nat}

/-- Errors: `TrackingError("Too many parent objects…")`, `IndexError`/`ValueError` of numpy, `TrackingError("Maximum iterations…")`. -/
inductive TErr where
  | tooManyParents
  | index
  | maxIterations
  deriving DecidableEq, Repr

/-- Parameters of the parallel path. `part prev cur child parents i` is the index of the parent that cell `i` of the child goes to. -/
structure MeshCfg (n : Nat) where
  w : Fin n → ℚ
  thr : ℚ
  part : Frame n → Frame n → Nat → List Nat → Fin n → Nat
  timechunks : Nat
  maxIter : Nat

/-- `area[(f == a) & (g == b)].sum()` (track.py 3989, 4114). -/
def sharedArea (w : Fin n → ℚ) (f : Frame n) (a : Nat) (g : Frame n) (b : Nat) : ℚ :=
  ((List.finRange n).map fun i => if f i = a ∧ g i = b then w i else 0).sum

/-- `np.unique(f[g == k])`, positive values only (track.py 3956, 3966, 4108–4110). -/
def idsUnder (f g : Frame n) (k : Nat) : List Nat :=
  (npUnique (((List.finRange n).filter fun i => g i == k).map f)).filter fun x => decide (0 < x)

/-- `overlap_area / min_area` (track.py 3986–3993, 4113–4117). Areas are positive, so the divisor is not 0. -/
def overlapFraction (w : Fin n → ℚ) (f : Frame n) (a : Nat) (g : Frame n) (b : Nat) : ℚ :=
  sharedArea w f a g b / min (weightOf w f a) (weightOf w g b)

/-- Loop over the potential parents (track.py 3966–4025): IDs and overlap areas of the accepted ones. The limit is `MAX_PARENTS = 10`. -/
def gatherParents (c : MeshCfg n) (m1 cur : Frame n) (child : Nat) : List Nat → List (Nat × ℚ) → Except TErr (List (Nat × ℚ))
  | [], acc => .ok acc
  | p :: ps, acc =>
    if 10 ≤ acc.length then .error .tooManyParents
    else if overlapFraction c.w m1 p cur child < c.thr then gatherParents c m1 cur child ps acc
    else gatherParents c m1 cur child ps (acc ++ [(p, sharedArea c.w m1 p cur child)])

/-- Merge record with temporary IDs (one row of `merge_child_ids`, `merge_parent_ids`, `merge_areas`). -/
structure RawMerge where
  children : List Nat
  parents : List Nat
  areas : List ℚ
  deriving DecidableEq, Repr

/-- State of the processing of one time step. `upd i = none` stands for the value 255 of `updates_array`. -/
structure StepOut (n : Nat) where
  cur : Frame n
  nextId : Nat
  merges : List RawMerge
  updIds : List Nat
  upd : Fin n → Option Nat
  found : List Nat

/-- State before the first merging object of a step (track.py 3925–3946). -/
def initStep (f : Frame n) (off : Nat) : StepOut n := ⟨f, off, [], [], fun _ => none, []⟩

/-- Objects of the next step that overlap the pieces (track.py 4103–4119). -/
def nextChildren (c : MeshCfg n) (cur p1 : Frame n) (ids : List Nat) : List Nat :=
  ids.flatMap fun k => (idsUnder p1 cur k).filter fun x => decide (c.thr < overlapFraction c.w cur k p1 x)

/-- One merging object of one time step (track.py 3949–4117). The row number of the 21st merge of a step is outside the arrays
(`curr_merge_idx > MAX_MERGES` does not catch 20), and so is the 256th new ID. -/
def processMeshChild (c : MeshCfg n) (m1 p1 : Frame n) (st : StepOut n) (child : Nat) : Except TErr (StepOut n) :=
  match gatherParents c m1 st.cur child (idsUnder m1 st.cur child) [] with
  | .error e => .error e
  | .ok ps =>
    if ps.length < 2 then .ok st
    else
      let newIds := List.range' st.nextId (ps.length - 1)
      let childIds := child :: newIds
      let idx := c.part m1 st.cur child (ps.map (·.1))
      if 20 ≤ st.merges.length then .error .index
      else if (List.finRange n).any (fun i => st.cur i == child && decide (childIds.length ≤ idx i)) then .error .index
      else if 255 < st.updIds.length + newIds.length then .error .index
      else
        let lab : Fin n → Nat := fun i => childIds.getD (idx i) 0
        let cur' : Frame n := fun i => if st.cur i = child then lab i else st.cur i
        .ok { cur := cur', nextId := st.nextId + (ps.length - 1),
              merges := st.merges ++ [⟨childIds, ps.map (·.1), ps.map (·.2)⟩],
              updIds := st.updIds ++ newIds,
              upd := fun i => if st.cur i = child ∧ lab i ∈ newIds then some (st.updIds.length + newIds.idxOf (lab i)) else st.upd i,
              found := st.found ++ nextChildren c cur' p1 childIds }

/-- `while merging_objects_list[t]` (track.py 3949). -/
def runQueue (c : MeshCfg n) (m1 p1 : Frame n) : List Nat → StepOut n → Except TErr (StepOut n)
  | [], st => .ok st
  | k :: ks, st =>
    match processMeshChild c m1 p1 st k with
    | .error e => .error e
    | .ok st' => runQueue c m1 p1 ks st'

/-- Append the elements not yet in the queue (track.py 4122–4124, 4143–4145). -/
def addNew (q new : List Nat) : List Nat := new.foldl (fun q x => if q.contains x then q else q ++ [x]) q

/-- What `process_chunk` gets for one time step. -/
structure Row (n : Nat) where
  m1 : Frame n
  p1 : Frame n
  queue : List Nat
  off : Nat

/-- Loop over the time steps of a chunk (track.py 3935–4145): per step its result, and the objects passed on to the next chunk.
`extra`: objects queued by the step before. At most 20 objects fit in `final_merging_objects`. -/
def chunkGo (c : MeshCfg n) : Frame n → Frame n → List Nat → List (Row n) → Except TErr (List (StepOut n) × List Nat)
  | _, _, _, [] => .ok ([], [])
  | m1, cur, extra, r :: rs =>
    match runQueue c m1 r.p1 (addNew r.queue extra) (initStep cur r.off) with
    | .error e => .error e
    | .ok st =>
      if rs.isEmpty then
        if 20 < (addNew [] st.found).length then .error .index else .ok ([st], addNew [] st.found)
      else
        match chunkGo c st.cur r.p1 st.found rs with
        | .error e => .error e
        | .ok (outs, fin) => .ok (st :: outs, fin)

/-- `process_chunk` (track.py 3832–4156). The first two steps of the shifted field give the frames before and at the first step of the
chunk (3886–3887). For a chunk of a single step `next_id_start.squeeze()` has no dimension left and `next_id_start[0]` (3940) raises. -/
def processChunk (c : MeshCfg n) : List (Row n) → Except TErr (List (StepOut n) × List Nat)
  | [] => .ok ([], [])
  | [_] => .error .index
  | r0 :: r1 :: rs => chunkGo c r0.m1 r1.m1 [] (r0 :: r1 :: rs)

/-- Cut a list into pieces of length `k` (the last one may be shorter): `.chunk({time: k})`. -/
def piecesOf {α : Type} (k : Nat) : Nat → List α → List (List α)
  | 0, _ => []
  | _ + 1, [] => []
  | fuel + 1, a :: l => (a :: l).take k :: piecesOf k fuel ((a :: l).drop k)

/-- All chunks of an iteration. -/
def processChunks (c : MeshCfg n) : List (List (Row n)) → Except TErr (List (StepOut n) × List Nat)
  | [] => .ok ([], [])
  | ch :: chs =>
    match processChunk c ch with
    | .error e => .error e
    | .ok (outs, fin) =>
      match processChunks c chs with
      | .error e => .error e
      | .ok (outs', fin') => .ok (outs ++ outs', fin ++ fin')

/-- Time index of an ID: the first step that contains it, 0 if there is none (`argmax`, track.py 2721–2727). -/
def timeOf (fs : List (Frame n)) (k : Nat) : Nat :=
  argmaxBool (fs.map fun f => (List.finRange n).any fun i => f i == k)

/-- `compute_id_time_dict` (track.py 2658–2728) for one ID: the table has `int(max_objects / n_time * 100)` columns, and a step with more
distinct values (0 included) does not fit. -/
def idTime (fs : List (Frame n)) (maxObjects : Nat) (k : Nat) : Except TErr Nat :=
  if fs.any (fun f => decide (maxObjects * 100 / fs.length < (npUnique ((List.finRange n).map f)).length)) then .error .index
  else .ok (timeOf fs k)

/-- `max_merges` (track.py 4426). -/
def maxMerges (fs : List (Frame n)) (merging : List Nat) : Nat :=
  ((List.range fs.length).map fun t => (merging.filter fun b => timeOf fs b == t).length).foldl max 0

/-- Inputs of all time steps (track.py 4427–4459). -/
def rowsOf (c : MeshCfg n) (fs : List (Frame n)) (merging : List Nat) (counter : Nat) : List (Row n) :=
  (List.range fs.length).map fun t =>
    { m1 := if t = 0 then zeroFrame else fs.getD (t - 1) zeroFrame
      p1 := fs.getD (t + 1) zeroFrame
      queue := merging.filter fun b => timeOf fs b == t
      off := t * maxMerges fs merging * c.timechunks + counter }

/-- `all_temp_ids` (track.py 4564–4565). -/
def tempIds (counter : Nat) (outs : List (StepOut n)) : List Nat :=
  npUnique (outs.flatMap fun o => o.merges.flatMap fun m => m.children.filter fun k => decide (counter ≤ k))

/-- `id_lookup.get(k, k)` (track.py 4567–4578). -/
def lookupId (counter : Nat) (temps : List Nat) (k : Nat) : Nat := if temps.contains k then counter + temps.idxOf k else k

/-- `update_time_chunk` for one step (track.py 4296–4321). -/
def updateFrame (counter : Nat) (temps : List Nat) (f : Frame n) (o : StepOut n) : Frame n := fun i =>
  match o.upd i with
  | none => f i
  | some j => lookupId counter temps (o.updIds.getD j 0)

/-- State between two iterations of the main loop. -/
structure ParState (n : Nat) where
  fs : List (Frame n)
  merging : List Nat
  processed : List Nat
  counter : Nat
  recs : List MergeRec

/-- Merge records of an iteration with permanent IDs (track.py 4616–4641, 4700–4720). -/
def recordsOf (counter : Nat) (temps : List Nat) (outs : List (StepOut n)) : List MergeRec :=
  ((List.range outs.length).zip outs).flatMap fun p =>
    p.2.merges.map fun m => ⟨p.1, m.children.map (lookupId counter temps), m.parents.map (lookupId counter temps), m.areas⟩

/-- `set` of IDs: duplicates removed. -/
def dedup (l : List Nat) : List Nat := addNew [] l

/-- One iteration: `merge_objects_parallel_iteration` and the bookkeeping after it (track.py 4369–4660, 4690–4733). -/
def parIteration (c : MeshCfg n) (s : ParState n) : Except TErr (ParState n) :=
  match idTime s.fs s.counter 0 with
  | .error e => .error e
  | .ok _ =>
    match processChunks c (piecesOf c.timechunks s.fs.length (rowsOf c s.fs s.merging s.counter)) with
    | .error e => .error e
    | .ok (outs, fin) =>
      let temps := tempIds s.counter outs
      let newMerging := dedup (fin.map (lookupId s.counter temps))
      .ok { fs := (s.fs.zip outs).map fun p => updateFrame s.counter temps p.1 p.2
            merging := newMerging.filter fun k => !s.processed.contains k
            processed := s.processed ++ newMerging
            counter := s.counter + temps.length
            recs := s.recs ++ recordsOf s.counter temps outs }

/-- The main loop (track.py 4680–4733); `fuel = max_iteration - iteration`. After the loop `iteration == max_iteration` raises (4736). -/
def parLoop (c : MeshCfg n) : Nat → ParState n → Except TErr (ParState n)
  | 0, _ => .error .maxIterations
  | fuel + 1, s =>
    if s.merging.isEmpty then .ok s
    else
      match parIteration c s with
      | .error e => .error e
      | .ok s' => parLoop c fuel s'

/-- State before the first iteration (track.py 4666–4688). -/
def parInit (c : MeshCfg n) (fs : List (Frame n)) (props : List Obj) : ParState n :=
  { fs := fs, merging := repeated ((enforceOverlap c.thr props (findOverlaps c.w fs)).map (·.b)), processed := [],
    counter := firstNewId props, recs := [] }

/-- `split_and_merge_objects_parallel` (track.py 3804–4814). -/
def splitAndMergeParallel (c : MeshCfg n) (cen : Frame n → Nat → ℚ × ℚ) (fs : List (Frame n)) (props : List Obj) : Except TErr (SMResult n) :=
  match parLoop c c.maxIter (parInit c fs props) with
  | .error e => .error e
  | .ok s =>
    let props' := s.fs.flatMap (calcProps ⟨c.w, c.thr, cen, fun _ _ _ _ _ _ _ => 0⟩)
    .ok { field := s.fs, props := props', merges := s.recs
          links := enforceOverlap c.thr props' (findOverlaps c.w s.fs) }

/-- The configuration of a mesh with `nn_partitioning=True` (track.py 4058–4075): neighbour table `nbr`, mean cell area, and `far`, the
great-circle nearest centroid of cells the search does not reach. -/
def meshCfg (nbr : Fin 3 → Fin n → Option (Fin n)) (w : Fin n → ℚ) (meanArea thr : ℚ) (timechunks maxIter : Nat)
    (far : Frame n → List Nat → Fin n → Nat) : MeshCfg n :=
  { w := w, thr := thr, timechunks := timechunks, maxIter := maxIter
    part := fun m1 cur child parents i =>
      let maxArea := (parents.map (weightOf w m1)).foldl max 0 / meanArea
      partitionMeshNN nbr (fun j => cur j == child) (fun j => if parents.contains (m1 j) then some (parents.idxOf (m1 j)) else none)
        (max (sqrtTimes maxArea 2) 20 * 2) (far m1 parents) i }

end MarEx
