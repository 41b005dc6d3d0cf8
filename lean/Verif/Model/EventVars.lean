import Verif.Model.Centroid
/-!
# Model of the variables of the events dataset

`/repo/marEx/track.py` 2109–2390 (`calculate_object_properties`), 2933–2935, 2990–3024, 3114–3130, 3266–3332 (`cluster_rename_objects_and_props`),
1388–1408 (`run_tracking`), 978–1021 (`_remap_coordinates`).

Only the names of the data variables and of their dimensions are followed.
-/
namespace MarEx

/-- A data variable: its name and the names of its dimensions in order. -/
structure DsVar where
  name : String
  dims : List String
  deriving DecidableEq, Repr

/-- The names of the dimensions of a tracker. -/
structure DimNames where
  time : String
  y : String
  x : String

/-- `ds[name] = array`: replaces the variable of that name or appends it. -/
def setVar (vs : List DsVar) (v : DsVar) : List DsVar :=
  if vs.any (fun u => u.name == v.name) then vs.map fun u => if u.name == v.name then v else u else vs ++ [v]

/-- Columns of `regionprops_table(ids, properties=["label", "area", "centroid"])` (track.py 2337) without the label, which becomes the index
(2379): one `centroid-k` for each dimension of `ids`. -/
def regionCols (ndim : Nat) : List String := "area" :: (List.range ndim).map fun k => "centroid-" ++ toString k

/-- Number of dimensions of what `regionprops_table` is given (track.py 2356–2364): with several time steps the function is applied to the
maps (two dimensions); a record of one step is passed with its time dimension (`object_id_field.values`, three dimensions). -/
def regionNdim (steps : Nat) : Nat := if steps = 1 then 3 else 2

/-- Names of the variables of `calculate_object_properties(..., ["area", "centroid"])` (track.py 2109–2390): `centroid-0` and `centroid-1` are combined
into `centroid` and dropped (2382–2387). On meshes the table is built from `area`, `centroid-0`, `centroid-1` (2289–2318). -/
def objectVarNames (unstructured : Bool) (steps : Nat) : List String :=
  let cols := if unstructured then ["area", "centroid-0", "centroid-1"] else regionCols (regionNdim steps)
  if cols.contains "centroid-0" && cols.contains "centroid-1" then
    (cols ++ ["centroid"]).filter fun c => !(c == "centroid-0" || c == "centroid-1")
  else cols

/-- `object_props_extended` (track.py 2933–3024, 3109–3117, 3119–3319): `global_ID`, the variables of the object table looked up by (time, event), the presence and
the two times, then area and centroid once more. -/
def extendedVars (d : DimNames) (unstructured : Bool) (steps : Nat) : List DsVar :=
  let vs := [(⟨"global_ID", [d.time, "ID"]⟩ : DsVar)]
  let vs := (objectVarNames unstructured steps).foldl
    (fun vs nm => setVar vs ⟨nm, if nm = "centroid" then ["component", d.time, "ID"] else [d.time, "ID"]⟩) vs
  let vs := setVar vs ⟨"presence", [d.time, "ID"]⟩
  let vs := setVar vs ⟨"time_start", ["ID"]⟩
  let vs := setVar vs ⟨"time_end", ["ID"]⟩
  if vs.any (fun v => v.name == "area" || v.name == "centroid") then
    setVar (setVar vs ⟨"area", [d.time, "ID"]⟩) ⟨"centroid", ["component", d.time, "ID"]⟩
  else vs

/-- Data variables of the events that `run()` returns (track.py 1388–1408, 3322–3331). The attributes and coordinates added afterwards
(`run_stats_attributes`) and `_remap_coordinates` change no variable names or dimensions. -/
def eventVars (d : DimNames) (unstructured allowMerging : Bool) (steps : Nat) : List DsVar :=
  let field : DsVar := ⟨"ID_field", if unstructured then [d.time, d.x] else [d.time, d.y, d.x]⟩
  if allowMerging || unstructured then
    field :: extendedVars d unstructured steps ++ [⟨"merge_ledger", [d.time, "ID", "sibling_ID"]⟩]
  else [field]

/-- `centroid.isel(component=0)` and `component=1` of an event of a structured grid in degrees (track.py 3262–3266, 3313–3315): the value interpolated from the
latitudes at the row, then the one from the longitudes at the column. `rows`, `cols`: the cells of the event as (index, weight). -/
def eventCentroid (periodic : Bool) (ny nx : Nat) (lat lon : Nat → ℚ) (rows cols : List (Nat × ℚ)) : ℚ × ℚ :=
  (npInterp ny lat (yCentroid rows), npInterp nx lon (xCentroid periodic nx cols))

end MarEx
