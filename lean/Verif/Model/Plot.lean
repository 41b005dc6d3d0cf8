import Verif.Model.Util
import Mathlib.Algebra.Order.Group.Unbundled.Abs
/-! Model of the parts of `plotX` that compute something: colour limits, grid selection, longitude wrapping, panels,
ID colours, and the caches of grid files.  Drawing itself (matplotlib, cartopy, ffmpeg) is not modelled. -/
namespace MarEx

/-! ### Colour limits -/

/-- plotX/base.py 559–571 `clim_robust` on the non-missing values, for two percentiles `p0 p1` (0…100). -/
def climRobust (xs : List ℚ) (issym : Bool) (p0 p1 : ℚ) : ℚ × ℚ :=
  let lo := percentile xs (p0 / 100)
  let hi := percentile xs (p1 / 100)
  if issym then
    let c := max |lo| |hi|
    (-c, c)
  else if p0 = 0 then (0, hi)
  else (lo, hi)

/-- `isel(time=slice(None, None, 10))` (plotX/base.py 258): the steps 0, 10, 20, … -/
def everyTenth {α} (steps : List α) : List α :=
  (List.range ((steps.length + 9) / 10)).filterMap fun i => steps[10 * i]?

/-- plotX/base.py 252–263: the limits of a plot of `steps` (the non-missing values of each time step), unless limits or
a norm are given. -/
def autoClim (steps : List (List ℚ)) (issym : Bool) (p0 p1 : ℚ) : ℚ × ℚ :=
  climRobust (everyTenth steps).flatten issym p0 p1

/-! ### Grid selection -/

/-- The module globals `_grid_type`, `_fpath_tgrid`, `_fpath_ckdtree` (plotX/__init__.py 39–41). -/
structure GridSpec where
  type : Option String := none
  tgrid : Option String := none
  ckdtree : Option String := none
deriving DecidableEq

/-- `x if x else None` for strings: the empty string counts as not given. -/
def orNone (s : Option String) : Option String :=
  match s with
  | some s => if s = "" then none else some s
  | none => none

/-- plotX/__init__.py 157–194 `specify_grid`: `none` if ConfigurationError is raised (nothing has been changed then).
Simplification: `lower()` is that of ASCII letters. -/
def specifyGrid (type tgrid ckdtree : Option String) : Option GridSpec :=
  match type with
  | some t =>
    if t.toLower = "gridded" ∨ t.toLower = "unstructured" then
      some ⟨some t.toLower, orNone tgrid, orNone ckdtree⟩
    else none
  | none => some ⟨none, orNone tgrid, orNone ckdtree⟩

/-- A history of `specify_grid` calls; a rejected call leaves the globals alone. -/
def specifyRun (g : GridSpec) (calls : List (Option String × Option String × Option String)) : GridSpec :=
  calls.foldl (fun g c => (specifyGrid c.1 c.2.1 c.2.2).getD g) g

/-- plotX/__init__.py 44–79 `_detect_grid_type`: by the presence of the dimension mapped to "y" (default "lat").
`y`: the dimension the user mapped to "y", `none` if the mapping was given without "y". -/
def detectGrid (y : Option String) (dims : List String) : String :=
  match y with
  | some y => if y ∈ dims then "gridded" else "unstructured"
  | none => "unstructured"

/-- plotX/__init__.py 107–128: the type of plotter made for a DataArray: true = unstructured. -/
def usesUnstructured (g : GridSpec) (y : Option String) (dims : List String) : Bool :=
  (g.type.getD (detectGrid y dims)).toLower == "unstructured"

/-! ### Longitude wrapping -/

/-- plotX/gridded.py 48–60 `wrap_lon`: longitudes and data columns; `none`: `np.diff(lon)[0]` raises IndexError. -/
def wrapLon {α} (lon : List ℚ) (cols : List α) : Option (List ℚ × List α) :=
  match lon, cols with
  | l0 :: l1 :: ls, c0 :: cs =>
    let mx := (l0 :: l1 :: ls).foldl max l0
    let mn := (l0 :: l1 :: ls).foldl min l0
    if |360 - (mx - mn)| < 2 * (l1 - l0) then
      some ((l0 :: l1 :: ls) ++ [l0 + 360], (c0 :: cs) ++ [c0])
    else some (l0 :: l1 :: ls, c0 :: cs)
  | _, _ => none

/-! ### Panels -/

/-- plotX/base.py 352–392 `multi_plot`: for each of the axes of the figure the index of the step drawn there, `none` for
a deleted one.  The result is `none` if the call raises: `subplots(1, 1)` gives a single Axes object, which has no
`flatten` (359); zero rows or columns are rejected by matplotlib; `col_wrap = 0` divides by zero. -/
def multiPanels (n w : Nat) : Option (List (Option Nat)) :=
  if w = 0 then none else
  let nrows := (n + w - 1) / w
  let ncols := min n w
  if nrows * ncols ≤ 1 then none
  else some ((List.range (nrows * ncols)).map fun i => if i < n then some i else none)

/-! ### ID colours -/

/-- plotX/base.py 582 `np.arange(1, max_id + 2) - 0.5`. -/
def idBounds (maxId : Nat) : List ℚ := (List.range (maxId + 1)).map fun j : Nat => (j : ℚ) + 1 - 1 / 2

/-- plotX/base.py 578–590 with matplotlib's `BoundaryNorm(bounds, N)` (trusted contract): the index into the colour
table of a value; `none` if BoundaryNorm refuses (fewer than one bin, or fewer colours than bins). -/
def idColour (maxId N : Nat) (x : ℚ) : Option Nat :=
  if maxId = 0 ∨ N < maxId then none else
  let i := (idBounds maxId).countP (fun b => decide (b ≤ x)) - 1
  some (if N = maxId then i else if maxId = 1 then (N - 1) / 2 else (N - 1) * i / (maxId - 1))

/-! ### Grid file caches -/

/-- What happens to grid files: they are (re)written, loaded for a plot, or the cache is cleared. -/
inductive CacheOp (β : Type) where
  | write (path : String) (content : β)
  | load (path : String)
  | clear

/-- The files and the cache `_GRID_CACHE["triangulation"]` (plotX/unstructured.py 37–40). -/
structure CacheState (β : Type) where
  files : String → β
  cache : String → Option β

/-- plotX/unstructured.py 44–47 `clear_cache`, 50–81 `_load_triangulation` (and 84–112 `_load_ckdtree`, always called
with the same resolution): a cached grid is used without looking at the file. -/
def cacheStep {β} (s : CacheState β) : CacheOp β → CacheState β
  | .write p c => { s with files := fun q => if q = p then c else s.files q }
  | .load p => { s with cache := fun q => if q = p then some ((s.cache p).getD (s.files p)) else s.cache q }
  | .clear => { s with cache := fun _ => none }

/-- What a plot that loads `p` gets. -/
def loaded {β} (s : CacheState β) (p : String) : β := (s.cache p).getD (s.files p)

end MarEx
