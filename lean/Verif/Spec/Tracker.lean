import Mathlib.Data.Rat.Defs
import Mathlib.Algebra.Order.Ring.Rat
import Mathlib.Logic.Function.Basic
/-! Inputs of the tracker constructor as a caller sees them, and the configurations it documents. -/
namespace MarEx.Spec

/-- A labelled array as far as the constructor looks at it: dimension names in order, dimension sizes, chunk lengths per dimension
(`none`: not dask-backed), whether the values are boolean, and the coordinate variables by name. -/
structure Arr where
  dims : List String
  size : String → Nat
  chunks : Option (List (List Nat))
  boolean : Bool
  coord : String → Option (List ℚ)

/-- The mask: boolean or not, at least one True or not, names of its coordinate variables. -/
structure MaskArr where
  boolean : Bool
  anyTrue : Bool
  coords : List String

/-- The neighbour table: dimension names, number of rows and columns, its largest entry (cells are numbered from 1; 0 and below: no
neighbour), and its chunk lengths per dimension (`none`: held in memory). -/
structure NbArr where
  dims : List String
  rows : Nat
  cols : Nat
  maxEntry : Int
  chunks : Option (List (List Nat))

/-- The three optional entries of the `dimensions` / `coordinates` mappings. -/
structure Names where
  time : Option String
  x : Option String
  y : Option String

/-- Arguments of the tracker constructor (those that it inspects). `cellAreas`: its dimension names; `areaChunks`: its chunk
lengths per dimension (empty: held in memory). `gridResolution`: `some none` is a
value that is not a number. -/
structure Args where
  data : Arr
  mask : MaskArr
  rFill : ℚ
  tFill : Int
  quartile : Option ℚ
  absolute : Option ℚ
  unstructured : Bool
  dimensions : Names
  coordinates : Names
  tempDir : Option String
  neighbours : Option NbArr
  cellAreas : Option (List String)
  areaChunks : List (List Nat)
  gridResolution : Option (Option ℚ)
  regional : Bool
  units : Option String

/-- Name of the time dimension. -/
def Args.timedim (a : Args) : String := a.dimensions.time.getD "time"
/-- Name of the x dimension. -/
def Args.xdim (a : Args) : String := a.dimensions.x.getD "lon"
/-- Name of the y dimension (structured grids). -/
def Args.ydim (a : Args) : String := a.dimensions.y.getD "lat"
/-- Name of the time coordinate: the dimension unless given. -/
def Args.timecoord (a : Args) : String := a.coordinates.time.getD a.timedim
/-- Name of the x coordinate: the dimension on structured grids, `lon` on meshes, unless given. -/
def Args.xcoord (a : Args) : String := a.coordinates.x.getD (if a.unstructured then "lon" else a.xdim)
/-- Name of the y coordinate: the dimension on structured grids, `lat` on meshes, unless given. -/
def Args.ycoord (a : Args) : String := a.coordinates.y.getD (if a.unstructured then "lat" else a.ydim)

/-- The values read under a name: the coordinate variable, or the positions along a dimension of that name. -/
def Arr.Reads (a : Arr) (k : String) (v : List ℚ) : Prop :=
  a.coord k = some v ∨ (a.coord k = none ∧ k ∈ a.dims ∧ v = (List.range (a.size k)).map fun (i : Nat) => (i : ℚ))

/-- `r` is the distance between the largest and the smallest of the values. -/
def IsSpan (v : List ℚ) (r : ℚ) : Prop := ∃ lo ∈ v, ∃ hi ∈ v, (∀ x ∈ v, lo ≤ x ∧ x ≤ hi) ∧ r = hi - lo

/-- The coordinate units in force (`true`: radians), given the full circle `2π` in radians: what the caller says, or for global data
without a statement, what the longitude span shows. -/
def UnitsAre (twoPi : ℚ) (regional : Bool) (units : Option String) (lon : List ℚ) (radians : Bool) : Prop :=
  (units = some "degrees" ∧ radians = false) ∨ (units = some "radians" ∧ radians = true) ∨
  (regional = false ∧ units = none ∧ ∃ r, IsSpan lon r ∧
    ((|r - 360| ≤ 1 ∧ radians = false) ∨ (|r - twoPi| ≤ 2 / 100 ∧ radians = true)))

/-- The configurations the constructor supports. -/
structure Supported (twoPi : ℚ) (a : Args) : Prop where
  /-- longitudes and latitudes can be read and their units are known -/
  units : ∃ lon lat rad, a.data.Reads a.xcoord lon ∧ a.data.Reads a.ycoord lat ∧ UnitsAre twoPi a.regional a.units lon rad ∧
    (rad = false → (a.data.coord a.xcoord).isSome ∧ (a.data.coord a.ycoord).isSome)
  /-- at most one area criterion, in its range -/
  area : ¬ (a.quartile.isSome ∧ a.absolute.isSome) ∧ (∀ q, a.quartile = some q → 0 ≤ q ∧ q ≤ 1) ∧ ∀ x, a.absolute = some x → 0 < x
  /-- dask-backed -/
  chunked : a.data.chunks.isSome
  /-- regional mode is for structured grids -/
  regional : ¬ (a.regional = true ∧ a.unstructured = true)
  /-- exactly the named dimensions, in any order -/
  dims : a.data.dims.Perm (if a.unstructured then [a.timedim, a.xdim] else [a.timedim, a.ydim, a.xdim])
  /-- a time coordinate -/
  timecoord : (a.data.coord a.timecoord).isSome ∨ a.timecoord = a.xcoord ∨ a.timecoord = a.ycoord
  boolean : a.data.boolean = true
  mask : a.mask.boolean = true ∧ a.mask.anyTrue = true
  /-- an even number of steps -/
  tFill : ∃ k, a.tFill = 2 * k
  mesh : a.unstructured = true → (∃ d, a.tempDir = some d ∧ d ≠ "") ∧ (∃ nb, a.neighbours = some nb ∧ nb.rows = 3 ∧ nb.dims = ["nv", a.xdim] ∧
      nb.chunks.isSome ∧ nb.maxEntry ≤ nb.cols) ∧
    a.cellAreas.isSome ∧ a.gridResolution = none ∧ a.xcoord ∈ a.mask.coords ∧ a.ycoord ∈ a.mask.coords
  grid : a.unstructured = false → (∀ ds, a.cellAreas = some ds → ∀ d, d ∈ ds ↔ d = a.ydim ∨ d = a.xdim) ∧
    ∀ r, a.gridResolution = some r → ∃ d, r = some d ∧ 0 < d

end MarEx.Spec
