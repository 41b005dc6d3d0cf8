import Verif.Model.Parallel
/-!
# Model of the temporary store of mesh tracking

On a mesh the object field lives in `temp_dir/marEx_temp_field.zarr`: the constructor removes the store (`/repo/marEx/track.py`
1041–1045), `refresh_dask_graph` (1728–1753) writes the field into it and reads it back lazily, and every iteration of the parallel
split-and-merge updates it in place, one dask task per time chunk (4237–4367).

A task is two kinds of events: it reads its chunk, and it writes cells of its region. A task that dies has written any part of its region,
or nothing, and the scheduler runs it again; several executions of a task may overlap in time. Not modelled: the number format of the
store, and the failure of a write other than by the death of the worker.
-/
namespace MarEx

variable {n : Nat}

/-- What happens to the store while the update tasks run: execution `task` of `update_time_chunk` reads its chunk (track.py 4288),
or writes the cells `which` of its region (4325–4328). -/
inductive StoreEv (n : Nat) where
  | read (task chunk : Nat)
  | write (task : Nat) (which : Nat → Fin n → Bool)

/-- Content of the store, and the chunk number and data that every execution has in memory. -/
structure StoreSt (n : Nat) where
  field : List (Frame n)
  mem : Nat → Option (Nat × List (Frame n))

/-- `ds_chunk["has_merge"].any()` of chunk `ch` (track.py 4283); `k` is the chunk length. -/
def chunkHasMerge (k : Nat) (outs : List (StepOut n)) (ch : Nat) : Bool :=
  (List.range outs.length).any fun t => t / k == ch && !((outs.getD t (initStep zeroFrame 0)).merges.isEmpty)

/-- One event (track.py 4282–4330). A chunk without merges is not written. -/
def storeStep (k counter : Nat) (temps : List Nat) (outs : List (StepOut n)) (st : StoreSt n) : StoreEv n → StoreSt n
  | .read j ch => { st with mem := fun x => if x = j then some (ch, st.field) else st.mem x }
  | .write j which =>
    match st.mem j with
    | none => st
    | some (ch, snap) =>
      if chunkHasMerge k outs ch then
        { st with field := st.field.mapIdx fun t f i =>
            if t / k = ch ∧ which t i = true then
              updateFrame counter temps (snap.getD t zeroFrame) (outs.getD t (initStep zeroFrame 0)) i
            else f i }
      else st

/-- The events of one update (track.py 4349–4358), from the content `fs`. -/
def runStore (k counter : Nat) (temps : List Nat) (outs : List (StepOut n)) (fs : List (Frame n)) (evs : List (StoreEv n)) : StoreSt n :=
  evs.foldl (storeStep k counter temps outs) ⟨fs, fun _ => none⟩

/-- `update_object_id_field_zarr` (track.py 4237–4367): nothing is done without a merge; a missing store is created from `field`. -/
def updateOnDisk (k counter : Nat) (temps : List Nat) (outs : List (StepOut n)) (disk : Option (List (Frame n))) (field : List (Frame n))
    (evs : List (StoreEv n)) : Option (List (Frame n)) :=
  if outs.all fun o => o.merges.isEmpty then disk
  else some (runStore k counter temps outs (disk.getD field) evs).field

/-- Errors of the version with the store: the store is not there, or an error of the algorithm. -/
inductive DErr where
  | noStore
  | track (e : TErr)
  deriving DecidableEq, Repr

/-- State between two iterations: the field is the content of the store. -/
structure DiskState (n : Nat) where
  disk : Option (List (Frame n))
  merging : List Nat
  processed : List Nat
  counter : Nat
  recs : List MergeRec

/-- The values the algorithm works with when the store holds `fs`. -/
def DiskState.load (s : DiskState n) (fs : List (Frame n)) : ParState n := ⟨fs, s.merging, s.processed, s.counter, s.recs⟩

/-- One iteration (track.py 4369–4660, 4690–4733) with the field in the store. `evs`: the events of the update. The results of
`process_chunk` are computed from the store before the update and kept (`persist`, 4525). -/
def diskIteration (c : MeshCfg n) (evs : List (StoreEv n)) (s : DiskState n) : Except DErr (DiskState n) :=
  match s.disk with
  | none => .error .noStore
  | some fs =>
    match idTime fs s.counter 0 with
    | .error e => .error (.track e)
    | .ok _ =>
      match processChunks c (piecesOf c.timechunks fs.length (rowsOf c fs s.merging s.counter)) with
      | .error e => .error (.track e)
      | .ok (outs, fin) =>
        let temps := tempIds s.counter outs
        let newMerging := dedup (fin.map (lookupId s.counter temps))
        .ok { disk := updateOnDisk c.timechunks s.counter temps outs s.disk fs evs
              merging := newMerging.filter fun k => !s.processed.contains k
              processed := s.processed ++ newMerging
              counter := s.counter + temps.length
              recs := s.recs ++ recordsOf s.counter temps outs }

/-- The main loop (track.py 4680–4746). `it` is the number of the iteration, `sched it` the events of its update, `env it` what others
do to the store before it. -/
def diskLoop (c : MeshCfg n) (sched : Nat → List (StoreEv n)) (env : Nat → Option (List (Frame n)) → Option (List (Frame n))) :
    Nat → Nat → DiskState n → Except DErr (DiskState n)
  | 0, _, _ => .error (.track .maxIterations)
  | fuel + 1, it, s =>
    if s.merging.isEmpty then .ok { s with disk := env it s.disk }
    else
      match diskIteration c (sched it) { s with disk := env it s.disk } with
      | .error e => .error e
      | .ok s' => diskLoop c sched env fuel (it + 1) s'

/-- The constructor (track.py 1041–1045) removes the store. -/
def removeStore (_ : Option (List (Frame n))) : Option (List (Frame n)) := none

/-- `to_zarr(…, mode="w")` in `refresh_dask_graph` (track.py 1748) replaces the store. -/
def refreshStore (_ : Option (List (Frame n))) (fs : List (Frame n)) : Option (List (Frame n)) := some fs

/-- Constructor, `refresh_dask_graph` and `split_and_merge_objects_parallel` on a mesh (track.py 1041–1045, 2765, 3804–4814): `left` is
what is in `temp_dir` before. Result and content of the store at the end; the result is in memory (`persist`, 4798, 2783). -/
def diskSplitMerge (c : MeshCfg n) (cen : Frame n → Nat → ℚ × ℚ) (sched : Nat → List (StoreEv n))
    (env : Nat → Option (List (Frame n)) → Option (List (Frame n))) (left : Option (List (Frame n))) (fs : List (Frame n))
    (props : List Obj) : Except DErr (SMResult n) :=
  let p := parInit c fs props
  match diskLoop c sched env c.maxIter 0 ⟨refreshStore (removeStore left) fs, p.merging, p.processed, p.counter, p.recs⟩ with
  | .error e => .error e
  | .ok s =>
    match s.disk with
    | none => .error .noStore
    | some gs =>
      let props' := gs.flatMap (calcProps ⟨c.w, c.thr, cen, fun _ _ _ _ _ _ _ => 0⟩)
      .ok { field := gs, props := props', merges := s.recs, links := enforceOverlap c.thr props' (findOverlaps c.w gs) }

/-- The records of an iteration when the kept results of `process_chunk` are lost after the update. The scheduler computes them again
from their graph (track.py 4463–4513), which reads the store as it is now; the merging objects and the offsets are part of the graph
(4432–4459). `temps` is the mapping computed before the loss (4565–4578). -/
def recordsAfterLoss (c : MeshCfg n) (s : ParState n) (now : List (Frame n)) (temps : List Nat) : Except TErr (List MergeRec) :=
  match processChunks c (piecesOf c.timechunks s.fs.length
      ((rowsOf c s.fs s.merging s.counter).zip (rowsOf c now s.merging s.counter) |>.map fun p => { p.1 with m1 := p.2.m1, p1 := p.2.p1 })) with
  | .error e => .error e
  | .ok (outs, _) => .ok (recordsOf s.counter temps outs)

end MarEx
