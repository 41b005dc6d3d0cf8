import Verif.Model.Overlap
/-!
# Model of consolidation and of the serial split-and-merge loop

`/repo/marEx/track.py` 2554–2656 (`consolidate_object_ids`), 3337–3604 (`split_and_merge_objects`, the loop up to
"Recompute final overlapping objects"), 3606–3609 (final overlap list).

Everything that is external to this logic is in `TrackCfg`: the cell weights, the overlap threshold, how a centroid is
computed and how a child is partitioned. Log messages are not modelled.
-/
namespace MarEx

variable {n : Nat}

/-- One step of the object-ID field. -/
abbrev Frame (n : Nat) := Fin n → Nat

/-- Parameters of the tracking loop. -/
structure TrackCfg (n : Nat) where
  /-- cell weight: 1 (pixel count) on a structured grid, `cell_area` on a mesh -/
  w : Fin n → ℚ
  /-- `overlap_threshold` -/
  thr : ℚ
  /-- centroid of an object of a frame -/
  cen : Frame n → Nat → ℚ × ℚ
  /-- partition: previous frame, current frame, child ID, parent IDs, child IDs, object table ↦ new label of each child cell -/
  part : Frame n → Frame n → Nat → List Nat → List Nat → List Obj → Fin n → Nat

/-- Total weight of the cells carrying ID `k`. -/
def weightOf (w : Fin n → ℚ) (f : Frame n) (k : Nat) : ℚ := ((List.finRange n).map fun i => if f i = k then w i else 0).sum

/-- Property row of object `k` of a frame. -/
def objOf (c : TrackCfg n) (f : Frame n) (k : Nat) : Obj := ⟨k, weightOf c.w f k, c.cen f k⟩

/-- `calculate_object_properties(data_t, properties=["area", "centroid"])` of one frame (track.py 2109–2390). -/
def calcProps (c : TrackCfg n) (f : Frame n) : List Obj := (idsOf f).map (objOf c f)

/-- `field.where(field != old, new)`. -/
def relabel (f : Frame n) (old new : Nat) : Frame n := fun i => if f i = old then new else f i

/-- `object_props.drop_sel(ID=k)`. -/
def dropId (props : List Obj) (k : Nat) : List Obj := props.filter fun o => o.id != k

/-- Assignment to the row of an existing ID. -/
def setRow (props : List Obj) (r : Obj) : List Obj := props.map fun o => if o.id = r.id then r else o

/-- Inner loop of `consolidate_object_ids` (track.py 2625–2636). -/
def consolidateChild (first : Nat) (st : Frame n × List Obj) (child : Nat) : Frame n × List Obj :=
  if hasId st.2 child then (relabel st.1 child first, dropId st.2 child) else st

/-- Loop over one splitting parent (track.py 2607–2654). -/
def consolidateParent (c : TrackCfg n) (ovs : List Ov) (st : Frame n × List Obj) (parent : Nat) : Frame n × List Obj :=
  if hasId st.2 parent then
    match (ovs.filter fun o => o.a == parent).map (·.b) with
    | [] => st
    | first :: rest =>
      if rest.isEmpty || !hasId st.2 first then st
      else
        let st1 := rest.foldl (consolidateChild first) st
        if (List.finRange n).any (fun i => st1.1 i == first) then (st1.1, setRow st1.2 (objOf c st1.1 first)) else st1
  else st

/-- IDs that occur more than once in a column: `np.unique(..., return_counts=True)`, `counts > 1` (track.py 2598–2599, 3445–3446). -/
def repeated (col : List Nat) : List Nat := (npUnique col).filter fun k => decide (1 < col.count k)

/-- `consolidate_object_ids` (track.py 2554–2656): `f2` is the frame at t-2, `f1` the frame at t-1. -/
def consolidate (c : TrackCfg n) (f2 f1 : Frame n) (props : List Obj) : Frame n × List Obj :=
  let ovs := enforceOverlap c.thr props (checkOverlapSlice c.w f2 f1)
  (repeated (ovs.map (·.a))).foldl (consolidateParent c ovs) (f1, props)

/-- One record of the merge output. -/
structure MergeRec where
  time : Nat
  children : List Nat
  parents : List Nat
  areas : List ℚ
  deriving DecidableEq, Repr

/-- The state threaded through the loop besides the frames. -/
structure SMState where
  props : List Obj
  nextId : Nat
  merges : List MergeRec
  deriving DecidableEq, Repr

/-- Replace the `b` of the rows with `b = child`, after the first one, by the given new IDs in order (track.py 3461). -/
def replaceLater (child : Nat) (seen : Bool) : List Nat → List Ov → List Ov
  | _, [] => []
  | ids, o :: os =>
    if o.b = child then
      if seen then
        match ids with
        | [] => o :: replaceLater child true [] os
        | k :: ids => { o with b := k } :: replaceLater child true ids os
      else o :: replaceLater child true ids os
    else o :: replaceLater child seen ids os

/-- Body of the loop over merging children (track.py 3454–3591). State: current frame, tables, current overlap list. -/
def processChild (c : TrackCfg n) (t : Nat) (prev : Frame n) (st : Frame n × SMState × List Ov) (child : Nat) :
    Frame n × SMState × List Ov :=
  let (cur, s, ovs) := st
  let group := ovs.filter fun o => o.b == child
  let parents := group.map (·.a)
  let newIds := List.range' s.nextId (parents.length - 1)
  let childIds := child :: newIds
  let labels := c.part prev cur child parents childIds s.props
  let cur' : Frame n := fun i => if cur i = child then labels i else cur i
  let newProps := calcProps c cur'
  let props1 := if hasId newProps child then setRow s.props (objOf c cur' child) else dropId s.props child
  let props2 := props1 ++ newProps.filter fun o => newIds.contains o.id
  (cur', { props := props2, nextId := s.nextId + (parents.length - 1),
           merges := s.merges ++ [⟨t, childIds, parents, group.map (·.v)⟩] },
   replaceLater child false newIds ovs)

/-- The `while not timestep_converged and iteration < 10` loop (track.py 3440–3600), with the remaining number of
iterations as fuel. -/
def resolveMerges (c : TrackCfg n) (t : Nat) (prev : Frame n) : Nat → Frame n × SMState → Frame n × SMState
  | 0, st => st
  | fuel + 1, (cur, s) =>
    let ovs := enforceOverlap c.thr s.props (checkOverlapSlice c.w prev cur)
    let merging := repeated (ovs.map (·.b))
    if merging.isEmpty then (cur, s)
    else
      let r := merging.foldl (processChild c t prev) (cur, s, ovs)
      resolveMerges c t prev fuel (r.1, r.2.1)

/-- Everything done for one time step once `data_t_minus_1` is known (track.py 3431–3600). -/
def processStep (c : TrackCfg n) (t : Nat) (prev cur : Frame n) (s : SMState) : Frame n × SMState :=
  resolveMerges c t prev 10 (cur, s)

/-- The all-zero frame used where no earlier frame exists (track.py 3405, 3413–3420). -/
def zeroFrame : Frame n := fun _ => 0

/-- Loop over the frames of one chunk (track.py 3388–3600). `last2`, `last1`: the two frames before the current one as
`data_t_minus_2`, `data_t_minus_1` see them; `done`: the frames of this chunk before `last1`, most recent first;
`first`: is the current frame the first of the chunk (`relative_t = 0`)? Returns the frames of the chunk in order. -/
def chunkLoop (c : TrackCfg n) : Nat → Frame n → Frame n → List (Frame n) → Bool → List (Frame n) → SMState →
    List (Frame n) × SMState
  | _, last2, last1, done, first, [], s =>
    -- end-of-chunk consolidation if the chunk has at least two frames (track.py 3587–3601)
    if first then (done.reverse, s)
    else if done.isEmpty then ([last1], s)
    else
      let r := consolidate c last2 last1 s.props
      ((r.1 :: done).reverse, { s with props := r.2 })
  | t, last2, last1, done, first, cur :: rest, s =>
    if first then
      let r := processStep c t last1 cur s
      chunkLoop c (t + 1) last1 r.1 [] false rest r.2
    else
      let k := consolidate c last2 last1 s.props
      let r := processStep c t k.1 cur { s with props := k.2 }
      chunkLoop c (t + 1) k.1 r.1 (k.1 :: done) false rest r.2

/-- Loop over the chunks (track.py 3379–3624). `prev`: the frames of the previous chunk (`updated_chunks[-1]`), if any. -/
def chunksLoop (c : TrackCfg n) : Nat → List (Frame n) → List (List (Frame n)) → SMState → List (Frame n) × SMState
  | _, _, [], s => ([], s)
  | t, prev, ch :: chs, s =>
    let last1 := prev.getLast?.getD zeroFrame
    let last2 := prev.dropLast.getLast?.getD zeroFrame
    let r := chunkLoop c t last2 last1 [] true ch s
    let r2 := chunksLoop c (t + ch.length) r.1 chs r.2
    (r.1 ++ r2.1, r2.2)

/-- `next_new_id = int(object_props.ID.max()) + 1` (track.py 3370). -/
def firstNewId (props : List Obj) : Nat := props.foldl (fun m o => max m o.id) 0 + 1

/-- Result of split-and-merge: final field, object table, final links, merge records. -/
structure SMResult (n : Nat) where
  field : List (Frame n)
  props : List Obj
  links : List Ov
  merges : List MergeRec

/-- `split_and_merge_objects` (track.py 3337–3802) on a record given chunk by chunk. -/
def splitAndMerge (c : TrackCfg n) (chunks : List (List (Frame n))) (props : List Obj) : SMResult n :=
  let r := chunksLoop c 0 [] chunks ⟨props, firstNewId props, []⟩
  { field := r.1, props := r.2.props, merges := r.2.merges
    links := enforceOverlap c.thr r.2.props (findOverlaps c.w r.1) }

end MarEx
