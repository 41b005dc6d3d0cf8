import Verif.Model.SplitMerge
/-!
# Model of the final clustering and renaming of objects into events

`/repo/marEx/track.py` 2809–3331 (`cluster_rename_objects_and_props`), 2734–2807 (`track_objects`, structured grids).

`connected_components` is the parameter `cc` (see `Verif.Model.Components`). Centroids are modelled in `Verif.Model.Centroid`.
A record without any object is outside the model (`isel(ID=0)` on an empty table raises).
-/
namespace MarEx

variable {n : Nat}

/-- `field_ids` (track.py 2849–2850). -/
def fieldIds (fs : List (Frame n)) : List Nat := (npUnique (fs.flatMap fun f => (List.finRange n).map f)).filter fun k => decide (0 < k)

/-- `overlap_ids` (track.py 2841–2846). -/
def overlapIds (pairs : List (Nat × Nat)) : List Nat := (npUnique (pairs.flatMap fun p => [p.1, p.2])).filter fun k => decide (0 < k)

/-- `all_valid_ids` (track.py 2853). The dense index of an ID is its position (2859). -/
def allValidIds (fs : List (Frame n)) (pairs : List (Nat × Nat)) : List Nat := npUnique (overlapIds pairs ++ fieldIds fs)

/-- `overlap_pairs_dense` (track.py 2867–2873). -/
def densePairs (ids : List Nat) (pairs : List (Nat × Nat)) : List (Nat × Nat) :=
  (pairs.filter fun p => ids.contains p.1 && ids.contains p.2).map fun p => (ids.idxOf p.1, ids.idxOf p.2)

/-- `num_components` (track.py 2883). -/
def numEvents (cc : Labeller) (fs : List (Frame n)) (pairs : List (Nat × Nat)) : Nat :=
  (cc (allValidIds fs pairs).length (densePairs (allValidIds fs pairs) pairs)).1

/-- `ID_to_cluster_index_array` (track.py 2889–2897): 0 for IDs that do not exist. -/
def eventOf (cc : Labeller) (fs : List (Frame n)) (pairs : List (Nat × Nat)) (k : Nat) : Nat :=
  let ids := allValidIds fs pairs
  if ids.contains k then (cc ids.length (densePairs ids pairs)).2 (ids.idxOf k) + 1 else 0

/-- `map_IDs_to_indices` for all steps (track.py 2908–2927): the output variable `ID_field`. -/
def renameField (cc : Labeller) (fs : List (Frame n)) (pairs : List (Nat × Nat)) : List (Frame n) :=
  fs.map fun f i => if 0 < f i then eventOf cc fs pairs (f i) else 0

/-- `process_timestep` (track.py 2948–2971), one column of the output variable `global_ID`: the loop over the unique pairs overwrites,
so the last original ID stays. -/
def globalId (orig new : Frame n) (e : Nat) : Nat :=
  let cells := (List.finRange n).filter fun i => decide (0 < new i)
  (uniquePairs (cells.map fun i => (orig i, new i))).foldl (fun r p => if p.2 = e then p.1 else r) 0

/-- The output variable `presence` of one event (track.py 3109–3111). -/
def presenceOf (fs nf : List (Frame n)) (e : Nat) : List Bool := (fs.zip nf).map fun p => decide (0 < globalId p.1 p.2 e)

/-- `np.argmax` of a boolean array: the first `True`, 0 if there is none. -/
def argmaxBool (l : List Bool) : Nat := if l.contains true then l.idxOf true else 0

/-- Index behind the output variable `time_start` (track.py 3112–3114). -/
def timeStartIdx (pres : List Bool) : Nat := argmaxBool pres

/-- Index behind the output variable `time_end` (track.py 3115–3117). -/
def timeEndIdx (pres : List Bool) : Nat := (pres.length - 1) - argmaxBool pres.reverse

/-- The output variable `area` of an event at one step (track.py 3150–3159, 3176–3179, 3220–3231); `none` is NaN. -/
def eventArea (cellArea : Fin n → ℚ) (present : Bool) (new : Frame n) (e : Nat) : Option ℚ :=
  if present && (List.finRange n).any (fun i => new i == e) then
    some (((List.finRange n).filter fun i => new i == e).map cellArea).sum
  else none

/-- One assignment `result.loc[{time, ID: merger_IDs[valid]}] = expanded_IDs[:, valid]` (track.py 3077–3093), where every row of
`expanded_IDs` is `merger_IDs`. -/
def ledgerWrite (res : Nat → Nat → Int) (mergerIds : List Nat) : Nat → Nat → Int :=
  mergerIds.foldl (fun res v => if 0 < v then fun slot e => if e = v then (v : Int) else res slot e else res) res

/-- The output variable `merge_ledger` at time step `t`, as a function of the sibling slot and the event (track.py 3033–3103). `ev` is
`ID_to_cluster_index_da`; missing parents are -1 in the padded array, hence 0 after the `where` of 3024. -/
def ledgerAt (ev : Nat → Nat) (recs : List MergeRec) (t : Nat) : Nat → Nat → Int :=
  ((recs.filter fun r => r.time == t).map fun r => r.parents.map ev).foldl ledgerWrite (fun _ _ => -1)

/-- Events of a gridded record: `track_objects` after object identification (track.py 2768–2788). `chunks`: the label field. -/
structure Events (n : Nat) where
  idField : List (Frame n)
  objects : SMResult n
  count : Nat

/-- `track_objects` after object identification, structured grids (track.py 2768–2788). -/
def trackGrid (cc : Labeller) (c : TrackCfg n) (chunks : List (List (Frame n))) : Events n :=
  let props := chunks.flatten.flatMap (calcProps c)
  let r := splitAndMerge c chunks props
  let pairs := r.links.map fun o => (o.a, o.b)
  { idField := renameField cc r.field pairs, objects := r, count := numEvents cc r.field pairs }

end MarEx
