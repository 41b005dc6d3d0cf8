import Verif.Spec.Tracker
import Verif.Model.Filter
/-!
# Model of the tracker constructor

`/repo/marEx/track.py` 323–491 (`__init__`), 493–710 (`_validate_inputs`), 712–748, 750–857 (`_validate_spatial_chunking`),
919–976 (`_unify_coordinates`), 978–1021 (`_remap_coordinates`), 1023–1080 (`_setup_unstructured_grid`), 5471–5558 (`regional_tracker`).

The constructor works on the caller's `DataArray` object itself (`self.data_bin = data_bin`, 374), so the model returns the caller's array
after the call next to the outcome. Warnings and log output are left out; `set_index` on the time coordinate (565–573) is taken to succeed.
-/
namespace MarEx
open Spec

/-- `np.pi`: the double nearest to π. -/
def npPi : ℚ := 884279719003555 / 281474976710656

/-- Exception classes raised by the constructor. -/
inductive CErr
  | key | value | dataValidation | configuration | coordinate | notImplemented | attribute
  deriving DecidableEq

/-- `if not c: raise e`. -/
def require (c : Prop) [Decidable c] (e : CErr) : Except CErr Unit := if c then .ok () else .error e

/-- `data_bin[name]`: the coordinate variable, or xarray's virtual index of a dimension without one; `KeyError` otherwise. -/
def readCoord (a : Arr) (k : String) : Except CErr (List ℚ) :=
  match a.coord k with
  | some v => .ok v
  | none => if k ∈ a.dims then .ok ((List.range (a.size k)).map fun (i : Nat) => (i : ℚ)) else .error .key

/-- `data_bin[name] = values`: xarray sets the coordinate on the object itself. -/
def setCoord (a : Arr) (k : String) (v : List ℚ) : Arr := { a with coord := Function.update a.coord k (some v) }

/-- `max - min` of a coordinate (track.py 946); numpy raises `ValueError` on an empty array. -/
def lonRange : List ℚ → Except CErr ℚ
  | [] => .error .value
  | x :: xs => .ok (xs.foldl max x - xs.foldl min x)

/-- Units in force (`true`: radians), track.py 921–971. -/
def resolveUnits (regional : Bool) (units : Option String) (lon : List ℚ) : Except CErr Bool :=
  if regional then
    match units with
    | none => .error .coordinate
    | some u => if u ∉ ["degrees", "radians"] then .error .coordinate else .ok (u == "radians")
  else
    match units with
    | some u => if u ∉ ["degrees", "radians"] then .error .coordinate else .ok (u == "radians")
    | none => match lonRange lon with
      | .error e => .error e
      | .ok r => if |r - 360| ≤ 1 then .ok false else if |r - 2 * npPi| ≤ 2 / 100 then .ok true else .error .coordinate

/-- Degrees of a coordinate in radians (track.py 974–976). -/
def toDegrees (v : List ℚ) : List ℚ := v.map fun x => x * 180 / npPi

/-- `_unify_coordinates` (track.py 919–976) with the reads before it (394–395): units in force and the array after. -/
def unifyCoordinates (a : Args) : Except CErr (Bool × List ℚ × List ℚ) × Arr :=
  match readCoord a.data a.ycoord with
  | .error e => (.error e, a.data)
  | .ok lat => match readCoord a.data a.xcoord with
    | .error e => (.error e, a.data)
    | .ok lon => match resolveUnits a.regional a.units lon with
      | .error e => (.error e, a.data)
      | .ok false => (.ok (false, lat, lon), a.data)
      | .ok true =>
        let d := setCoord a.data a.xcoord (toDegrees lon)
        -- the latitude is read again after the longitude was set
        match readCoord d a.ycoord with
        | .error e => (.error e, d)
        | .ok l => (.ok (true, lat, lon), setCoord d a.ycoord (toDegrees l))

/-- The constructed tracker. -/
structure Tracker where
  radians : Bool
  latInit : List ℚ
  lonInit : List ℚ
  rFill : Int
  tFill : Int
  criterion : AreaCriterion
  timechunks : Nat
  dims : List String
  chunks : List (List Nat)
  nbCols : Nat
  nbChunks : List (List Nat)
  areaChunks : List (List Nat)

/-- `int(R_fill)`: rounds towards zero. -/
def pyInt (r : ℚ) : Int := if 0 ≤ r then ⌊r⌋ else ⌈r⌉

/-- The area criterion before its range is checked (track.py 712–748). -/
def resolveCriterion (quartile absolute : Option ℚ) : Except CErr AreaCriterion :=
  match quartile, absolute with
  | none, none => .ok (.quartile (1 / 2))
  | some q, none => .ok (.quartile q)
  | none, some x => .ok (.absolute x)
  | some _, some _ => .error .configuration

/-- Chunks of the dimension `k`. -/
def chunksOfDim (dims : List String) (chunks : List (List Nat)) (k : String) : List Nat := (chunks[dims.idxOf k]?).getD []

/-- `_validate_spatial_chunking` (track.py 750–780): one chunk along each spatial dimension (`chunk(-1)`). -/
def rechunkSpatial (spatial dims : List String) (chunks : List (List Nat)) : List (List Nat) :=
  dims.map fun d => if d ∈ spatial ∧ 1 < (chunksOfDim dims chunks d).length then [(chunksOfDim dims chunks d).sum] else chunksOfDim dims chunks d

/-- Expected dimension order (track.py 505–543). -/
def expectedDims (a : Args) : List String := if a.unstructured then [a.timedim, a.xdim] else [a.timedim, a.ydim, a.xdim]

/-- Required and optional arrays of each grid type (track.py 591–623). -/
def checkArrays (a : Args) : Except CErr Unit :=
  if a.unstructured then do
    require (a.tempDir.isSome = true) .dataValidation
    require (a.neighbours.isSome = true) .dataValidation
    require (a.cellAreas.isSome = true) .dataValidation
  else match a.cellAreas with
    | none => .ok ()
    | some ds => require ((∀ x ∈ ds, x ∈ [a.ydim, a.xdim]) ∧ ∀ x ∈ [a.ydim, a.xdim], x ∈ ds) .dataValidation

/-- `grid_resolution` (track.py 626–638). -/
def checkResolution (a : Args) : Except CErr Unit :=
  match a.gridResolution with
  | none => .ok ()
  | some r => do
    require (a.unstructured = false) .dataValidation
    match r with
    | none => .error .dataValidation
    | some v => require (0 < v) .dataValidation

/-- Range of the area criterion (track.py 672–702). -/
def checkCriterion : AreaCriterion → Except CErr Unit
  | .quartile q => require (¬ (q < 0 ∨ q > 1)) .configuration
  | .absolute x => require (¬ x ≤ 0) .configuration

/-- `_validate_inputs` (track.py 493–710) on the array `d`. The dask check (640–649) cannot fail after `__init__` 409–416. -/
def validateInputs (a : Args) (d : Arr) (c : AreaCriterion) : Except CErr Unit := do
  require (¬ (a.regional = true ∧ a.unstructured = true)) .notImplemented
  require (d.dims.Perm (expectedDims a)) .dataValidation
  require ((d.coord a.timecoord).isSome ∧ (d.coord a.xcoord).isSome ∧ (d.coord a.ycoord).isSome) .dataValidation
  require (d.boolean = true) .dataValidation
  checkArrays a
  checkResolution a
  require (a.mask.boolean = true) .dataValidation
  require (a.mask.anyTrue = true) .dataValidation
  checkCriterion c
  require (a.tFill % 2 = 0) .configuration

/-- `_setup_unstructured_grid` and `_build_sparse_dilation_matrix` (track.py 1023–1118): the checks that can fail. A table held in memory
has no `.data.compute()` (1098: `AttributeError`); `coo_matrix` raises `ValueError` for a column index out of range (1107). -/
def setupUnstructured (a : Args) (d : Arr) : Except CErr Unit := do
  require (a.tempDir ≠ some "") .configuration
  require ((d.coord a.xcoord).isSome ∧ (d.coord a.ycoord).isSome) .value
  require (a.xcoord ∈ a.mask.coords ∧ a.ycoord ∈ a.mask.coords) .value
  match a.neighbours with
  | none => .error .dataValidation
  | some nb => do
    require (nb.rows = 3) .dataValidation
    require (nb.dims = ["nv", a.xdim]) .dataValidation
    require (nb.chunks.isSome = true) .attribute
    require (nb.maxEntry ≤ nb.cols) .value

/-- `data_bin.chunks` must not be `None` (track.py 407–416). -/
def requireChunks : Option (List (List Nat)) → Except CErr (List (List Nat))
  | none => .error .dataValidation
  | some ch => .ok ch

/-- Track.py 486–489. -/
def setupGrid (a : Args) (d : Arr) : Except CErr Unit := if a.unstructured then setupUnstructured a d else .ok ()

/-- `tracker(...)` (track.py 323–491): outcome, and the caller's array afterwards. -/
def construct (a : Args) : Except CErr Tracker × Arr :=
  match unifyCoordinates a with
  | (.error e, d) => (.error e, d)
  | (.ok (rad, lat, lon), d) =>
    let r : Except CErr Tracker := do
      let c ← resolveCriterion a.quartile a.absolute
      let ch ← requireChunks d.chunks
      require (a.timedim ∈ d.dims) .value
      validateInputs a d c
      setupGrid a d
      let dims := expectedDims a
      let ch' := dims.map (chunksOfDim d.dims ch)
      .ok { radians := rad, latInit := lat, lonInit := lon, rFill := pyInt a.rFill, tFill := a.tFill, criterion := c
            timechunks := (chunksOfDim d.dims ch a.timedim).headD 0, dims := dims
            chunks := rechunkSpatial (if a.unstructured then [a.xdim] else [a.xdim, a.ydim]) dims ch'
            nbCols := (a.neighbours.map NbArr.cols).getD 0, nbChunks := (a.neighbours.bind NbArr.chunks).getD [], areaChunks := a.areaChunks }
    (r, d)

/-- The warnings of `_validate_unstructured_chunking` (track.py 859–917), each of which says "Rechunking to single chunk": one for every
dimension of the neighbour table and of the cell areas that has several chunks. The arrays stay as they are (909–917). -/
def rechunkWarnings (a : Args) : Nat :=
  ((((a.neighbours.bind NbArr.chunks).getD []) ++ a.areaChunks).filter fun c => decide (1 < c.length)).length

/-- What `run()` on a mesh demands of the neighbour table and the cell areas: `apply_ufunc` with `dask="parallelized"` raises `ValueError`
for a core dimension with several chunks or of another length than in the data. The table is first used in `identify_objects`
(track.py 1990, both its dimensions), the areas in `calculate_object_properties` (2260), which for a record of one step takes the values
instead (2252). The dimensions of the areas other than that of the cells are not distinguished. `cells`: number of cells of the data. -/
def runLayout (t : Tracker) (cells steps : Nat) : Except CErr Unit := do
  require (t.nbCols = cells) .value
  require (∀ c ∈ t.nbChunks, c.length ≤ 1) .value
  require (steps = 1 ∨ ∀ c ∈ t.areaChunks, c.length ≤ 1) .value

/-- `regional_tracker(...)` (track.py 5471–5558). -/
def constructRegional (a : Args) (units : String) : Except CErr Tracker × Arr := construct { a with regional := true, units := some units }

/-- `_remap_coordinates` (track.py 978–1021): centroid (latitude, longitude) in the units and range of the input. `full`: the full circle. -/
def remapCentroid (radians : Bool) (lonInit : List ℚ) (c : ℚ × ℚ) : ℚ × ℚ :=
  let lo := lonInit.foldl min (lonInit.headD 0)
  let hi := lonInit.foldl max (lonInit.headD 0)
  if radians then
    let lat := c.1 * npPi / 180
    let lon := c.2 * npPi / 180
    (lat, if lo ≥ 0 ∧ hi > npPi then (if lon < 0 then lon + 2 * npPi else lon) else lon)
  else (c.1, if lo ≥ 0 ∧ hi > 180 then (if c.2 < 0 then c.2 + 360 else c.2) else c.2)

end MarEx
