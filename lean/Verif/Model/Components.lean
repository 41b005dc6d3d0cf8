import Verif.Model.Mesh
/-!
# Model of object identification on a mesh, and of `connected_components`

`/repo/marEx/track.py` 1939–2012 (`identify_objects`, unstructured), 2758–2765 (IDs made unique across time).

`connected_components` is an external call (scipy). It is a parameter `cc` of the model; the theorems assume only the
contract `Spec.CorrectLabeller`, and `quickFind` below is a verified routine that meets it.
-/
namespace MarEx

/-- Type of `connected_components(csgraph, directed=False)`: number of nodes and edge list to
(number of components, label of each node). -/
abbrev Labeller := Nat → List (Nat × Nat) → Nat × (Nat → Nat)

/-- Merge the label classes of the two ends of each edge in turn (quick-find). Reference routine, not in `/repo`. -/
def quickMerge (edges : List (Nat × Nat)) : Nat → Nat :=
  edges.foldl (fun l e => fun v => if l v = l e.2 then l e.1 else l v) id

/-- Quick-find labels, renumbered `0..N-1` in order of first appearance. Reference routine, not in `/repo`. -/
def quickFind : Labeller := fun n edges =>
  let l := quickMerge edges
  let reps := ((List.range n).map l).eraseDups
  (reps.length, fun v => reps.idxOf (l v))

/-- `true_indices = np.where(arr[i])[0]` (track.py 1954): the extreme cells in increasing order. -/
def trueIndices {n : Nat} (arr : Fin n → Bool) : List (Fin n) := (List.finRange n).filter arr

/-- The mapped edges (track.py 1957–1971): one entry per `(v, c)` with a valid neighbour `r`, `arr[r]`, and
`r`, `c` both in the mapping; given as positions in `true_indices`. -/
def mappedEdges {n : Nat} (nbr : NbrTable n) (arr : Fin n → Bool) : List (Nat × Nat) :=
  let idx := trueIndices arr
  (List.finRange 3).flatMap fun v => (List.finRange n).filterMap fun c =>
    match toCell n (neighboursInt nbr v c) with
    | none => none
    | some r => if arr r && idx.contains r && idx.contains c then some (idx.idxOf r, idx.idxOf c) else none

/-- `cluster_true_values` for one time step (track.py 1947–1982). Label 0 = no object. -/
def clusterTrueValues {n : Nat} (cc : Labeller) (nbr : NbrTable n) (arr : Fin n → Bool) : Fin n → Nat :=
  let idx := trueIndices arr
  let labelsTrue := (cc idx.length (mappedEdges nbr arr)).2
  fun i => if idx.contains i then labelsTrue (idx.idxOf i) + 1 else 0

/-- `identify_objects` for one step of an unstructured mesh (track.py 1984–2003): mask, cluster, mask again. -/
def identifyObjectsMesh {n : Nat} (cc : Labeller) (nbr : NbrTable n) (mask : Fin n → Bool) (data : Fin n → Bool) :
    Fin n → Nat :=
  let lab := clusterTrueValues cc nbr (fun i => mask i && data i)
  fun i => if mask i then lab i else 0

/-- Largest ID of a label field: `object_id_field.max(dim=xdim)` (track.py 2763). -/
def fieldMax {n : Nat} (f : Fin n → Nat) : Nat := (List.finRange n).foldl (fun m i => max m (f i)) 0

/-- `cumsum(time).shift(time=1, fill_value=0)` of the maxima and the addition on positive IDs (track.py 2763–2764):
the shift of step `t` is the sum of the maxima of the earlier steps. -/
def uniqueAcrossTime {n : Nat} (s : Nat) : List (Fin n → Nat) → List (Fin n → Nat)
  | [] => []
  | f :: fs => (fun i => if f i > 0 then f i + s else 0) :: uniqueAcrossTime (s + fieldMax f) fs

/-- `track_objects` up to and including the shift, for a mesh (track.py 2755–2765). -/
def objectFieldMesh {n : Nat} (cc : Labeller) (nbr : NbrTable n) (mask : Fin n → Bool) (data : List (Fin n → Bool)) :
    List (Fin n → Nat) :=
  uniqueAcrossTime 0 (data.map (identifyObjectsMesh cc nbr mask))

end MarEx
