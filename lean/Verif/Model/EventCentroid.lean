import Verif.Model.EventVars
import Verif.Model.Rename
import Verif.Model.MeshCentroid
/-!
# Model of the variable `centroid` of the events

`/repo/marEx/track.py` 3124–3268 (`calculate_area_centroid_for_slice`) and 3282–3318 (the call and the assembly): what an event gets at one step. The cells of a
structured grid are numbered row by row, cell `i` is in row `i / nx` and column `i % nx`. `none` is NaN.
-/
namespace MarEx

variable {n : Nat}

/-- `y_indices` with `pixel_areas` (track.py 3217–3229): row and area of every cell of event `e`, in the order of the array. -/
def eventRows (nx : Nat) (cellArea : Fin n → ℚ) (new : Frame n) (e : Nat) : List (Nat × ℚ) :=
  ((List.finRange n).filter fun i => new i == e).map fun i => (i.val / nx, cellArea i)

/-- `x_indices` with `pixel_areas` (track.py 3217–3229): column and area of every cell of event `e`. -/
def eventCols (nx : Nat) (cellArea : Fin n → ℚ) (new : Frame n) (e : Nat) : List (Nat × ℚ) :=
  ((List.finRange n).filter fun i => new i == e).map fun i => (i.val % nx, cellArea i)

/-- The variable `centroid` of event `e` at one step on a structured grid (track.py 3150–3159, 3209–3266): NaN unless the event is marked as present
(`present_mask`) and has a cell. -/
def gridEventCentroid (regional : Bool) (ny nx : Nat) (lat lon : Nat → ℚ) (cellArea : Fin n → ℚ) (present : Bool) (new : Frame n) (e : Nat) : Option (ℚ × ℚ) :=
  if present && (List.finRange n).any (fun i => new i == e) then
    some (eventCentroid (!regional) ny nx lat lon (eventRows nx cellArea new e) (eventCols nx cellArea new e))
  else none

/-- `lat_rad[mask]`, `lon_rad[mask]`, `areas_masked` (track.py 3170–3184): the cells of event `e` of a mesh. -/
def eventMeshCells (lat lon area : Fin n → ℝ) (new : Frame n) (e : Nat) : List MCell :=
  ((List.finRange n).filter fun i => new i == e).map fun i => ⟨lat i, lon i, area i⟩

/-- The variable `centroid` of event `e` at one step on a mesh (track.py 3150–3208). -/
noncomputable def meshEventCentroid (lat lon area : Fin n → ℝ) (present : Bool) (new : Frame n) (e : Nat) : Option (ℝ × ℝ) :=
  if present && (List.finRange n).any (fun i => new i == e) then
    some (meshLat (eventMeshCells lat lon area new e), meshLon (eventMeshCells lat lon area new e))
  else none

end MarEx
