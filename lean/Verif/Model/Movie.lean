import Verif.Model.Plot
import Mathlib.Data.List.Dedup
import Mathlib.Data.List.Sort
/-! Model of the plotting front end of `plotX`: which data a plotter accepts, the colour scale of a plot, single plots,
panels, and animations (frames, their files, the movie, markers).  Drawing is modelled as a record of what is handed to
`pcolormesh`/`tripcolor`; matplotlib, cartopy, PIL and ffmpeg themselves are contracts stated in the comments. -/
namespace MarEx

/-! ### Making a plotter -/

/-- A mapping from the concepts "time", "y", "x" to names in the data. -/
abbrev Names := List (String × String)

/-- The default mapping (plotX/base.py 124, 126, 218, 220; plotX/__init__.py 62, 64). -/
def stdNames : Names := [("time", "time"), ("y", "lat"), ("x", "lon")]

/-- The exceptions of the plotting front end. -/
inductive PlotErr where
  /-- VisualisationError naming the missing dimensions / coordinates -/
  | missingDims (l : Names) | missingCoords (l : Names)
  /-- VisualisationError: no grid file for a mesh -/
  | noGrid
  /-- BoundaryNorm refuses the colour table; a colour map given by name has no size; the data have no maximum -/
  | badTable | namedMap | noMaximum
  | key (name : String) | attribute (name : String) | index | shape
  /-- `subplots` gave a single Axes or none -/
  | axes
  /-- `im` was never assigned -/
  | unbound
  /-- matplotlib's `tripcolor` knows the shadings "flat" and "gouraud" only -/
  | shading
  | noDirectory | ffmpeg
deriving DecidableEq

/-- What the checks look at: the names of the dimensions and of the coordinates of a DataArray. -/
structure PlotData where
  dims : List String
  coords : List String

/-- plotX/base.py 139–145 and 167–173: the mapped names that are missing; a missing time name is not counted. -/
def missingNames (have_ : List String) (m : Names) : Names :=
  m.filter fun p => !(p.1 == "time") && !have_.contains p.2

/-- A plotter: its mappings, whether it is for a mesh, and the grid files it will use. -/
structure Plotter where
  dims : Names
  coords : Names
  unstructured : Bool
  tgrid : Option String
  ckdtree : Option String
deriving DecidableEq

/-- plotX/base.py 200–227 `PlotterBase.__init__` with 137–190 (the two checks), and plotX/unstructured.py 119–131: the
grid files are those set at that moment. -/
def newPlotter (unstructured : Bool) (g : GridSpec) (da : PlotData) (d c : Option Names) : Except PlotErr Plotter :=
  let d := d.getD stdNames
  let c := c.getD stdNames
  if missingNames da.dims d ≠ [] then .error (.missingDims (missingNames da.dims d))
  else if missingNames da.coords c ≠ [] then .error (.missingCoords (missingNames da.coords c))
  else .ok ⟨d, c, unstructured, if unstructured then g.tgrid else none, if unstructured then g.ckdtree else none⟩

/-- plotX/__init__.py 89–138 `PlotXAccessor.__call__` (lines 132–136 set the paths that 119–131 of unstructured.py have
set already).  `single_plot`, `multi_plot` and `animate` of the accessor (141–154) call it without mappings. -/
def plotterFor (g : GridSpec) (da : PlotData) (d c : Option Names) : Except PlotErr Plotter :=
  newPlotter (usesUnstructured g ((d.getD stdNames).lookup "y") da.dims) g da d c

/-! ### The colour scale -/

inductive ColourMap where
  | named (s : String)
  /-- a `ListedColormap` of the user with `n` colours -/
  | table (n : Nat)
  /-- the `ListedColormap` of `n` random colours made by the code -/
  | random (n : Nat)
deriving DecidableEq

inductive ColourNorm where
  /-- `BoundaryNorm(np.arange(1, maxId + 2) - 0.5, n)` -/
  | idBins (maxId n : Nat)
  /-- a norm of the user -/
  | custom (s : String)
deriving DecidableEq

/-- What `pcolormesh` is told about colours: a norm, two limits, or nothing. -/
inductive ColourRange where
  | norm (n : ColourNorm)
  | limits (lo hi : ℚ)
  | auto
deriving DecidableEq

/-- `PlotConfig` (plotX/base.py 75–117), without logging and grid lines. -/
structure PlotCfg where
  title : Option String := none
  units : String := ""
  issym : Bool := false
  cmap : Option ColourMap := none
  cperc : ℚ × ℚ := (4, 96)
  clim : Option (ℚ × ℚ) := none
  colourbar : Bool := true
  dims : Names := stdNames
  coords : Names := stdNames
  norm : Option ColourNorm := none
  plotIDs : Bool := false
  extend : String := "both"
  projection : String := "Robinson"

/-- plotX/base.py 119–130 `__post_init__`: a plot of IDs has no colour bar. -/
def postInit (c : PlotCfg) : PlotCfg := { c with colourbar := c.colourbar && !c.plotIDs }

/-- The result of `_setup_common_params`. -/
structure Scale where
  cmap : ColourMap
  norm : Option ColourNorm
  clim : Option (ℚ × ℚ)
  units : String
  extend : String
deriving DecidableEq

/-- gridded.py 85–89, unstructured.py 160–164 and 187–191, base.py 636–640: a norm takes precedence over limits. -/
def Scale.range (s : Scale) : ColourRange :=
  match s.norm, s.clim with
  | some n, _ => .norm n
  | none, some (lo, hi) => .limits lo hi
  | none, none => .auto

/-- One column of values (one longitude), `none` = NaN. -/
abbrev Column := List (Option ℚ)

/-- What a plotter can change: its data (`self.da`), and the state of numpy's global random generator (a seed and the
number of values drawn since). -/
structure PlotState where
  steps : List (List Column)
  rng : Nat × Nat
deriving DecidableEq

/-- The non-missing values of a step. -/
def stepValues (s : List Column) : List ℚ := (s.flatten).filterMap id

/-- `da.where(da > 0)` (plotX/base.py 247). -/
def keepPositive (steps : List (List Column)) : List (List Column) :=
  steps.map fun s => s.map fun col => col.map fun x => x.filter fun v => decide (0 < v)

/-- `int(da.max())` (plotX/base.py 581) for data whose maximum is not negative; `none`: no value at all (`int(nan)` raises). -/
def maxOf (steps : List (List Column)) : Option Nat :=
  match (steps.map stepValues).flatten with
  | [] => none
  | v :: vs => some ⌊vs.foldl max v⌋.toNat

/-- Is `BoundaryNorm` satisfied with `n` colours for `maxId` bins (trusted contract, as in `idColour`). -/
def coloursFit (maxId n : Nat) : Bool := !(maxId == 0) && decide (maxId ≤ n)

/-- plotX/base.py 578–590 `setup_id_plot_params`: colour map, norm and the state of the random generator. -/
def idScale (st : PlotState) (cmap : Option ColourMap) : Except PlotErr (ColourMap × ColourNorm × (Nat × Nat)) :=
  match maxOf st.steps with
  | none => .error .noMaximum
  | some m =>
    match cmap with
    | none => if coloursFit m m then .ok (.random m, .idBins m m, (42, 3 * m)) else .error .badTable
    | some (.named _) => .error .namedMap
    | some (.table n) => if coloursFit m n then .ok (.table n, .idBins m n, st.rng) else .error .badTable
    | some (.random n) => if coloursFit m n then .ok (.random n, .idBins m n, st.rng) else .error .badTable

/-- plotX/base.py 233–267 `_setup_common_params`; `hasTime`: the data have the dimension the plotter takes for time.
Simplification: the sampled data have a non-missing value (else the limits are NaN). -/
def setupParams (hasTime : Bool) (cfg : PlotCfg) (st : PlotState) : Except PlotErr (Scale × PlotState) :=
  if cfg.plotIDs then
    match idScale st cfg.cmap with
    | .error e => .error e
    | .ok (cm, n, rng) => .ok (⟨cm, some n, none, "ID", "neither"⟩, ⟨keepPositive st.steps, rng⟩)
  else
    let cm := cfg.cmap.getD (.named (if cfg.issym then "RdBu_r" else "viridis"))
    let clim :=
      match cfg.clim, cfg.norm with
      | none, none =>
        some (if hasTime then autoClim (st.steps.map stepValues) cfg.issym cfg.cperc.1 cfg.cperc.2
          else climRobust (st.steps.map stepValues).flatten cfg.issym cfg.cperc.1 cfg.cperc.2)
      | c, _ => c
    .ok (⟨cm, cfg.norm, clim, cfg.units, cfg.extend⟩, st)

/-! ### Plots of data on a regular grid -/

/-- Data on a regular grid: the leading dimension, if there is one, the names of the two others, the names of the
coordinates, the two coordinates, the values. -/
structure GridData where
  lead : Option String
  y : String
  x : String
  coords : List String
  lat : List ℚ
  lon : List ℚ
  steps : List (List Column)

def GridData.dims (da : GridData) : List String := da.lead.toList ++ [da.y, da.x]

inductive Heading where
  | none | text (s : String)
  /-- the date of a step -/
  | date (i : Nat)
  /-- `col=value` of a step -/
  | value (i : Nat)
deriving DecidableEq

/-- What a plot shows. -/
structure Drawn where
  lon : List ℚ
  lat : List ℚ
  cols : List Column
  cmap : ColourMap
  range : ColourRange
  projection : String
  heading : Heading
deriving DecidableEq

/-- plotX/gridded.py 62–99 `plot`: wrap, drop a time dimension of length 1, and draw; the remaining data must be
two-dimensional.  Simplification: "y" and "x", if mapped, are mapped to the matching dimensions, or it raises. -/
def drawGrid (names : Names) (lead : Option String) (da : GridData) (steps : List (List Column)) (s : Scale)
    (projection : String) (heading : Heading) : Except PlotErr Drawn :=
  match names.lookup "x", names.lookup "time", names.lookup "y" with
  | none, _, _ => .error (.key "x")
  | some _, none, _ => .error (.key "time")
  | some _, some _, none => .error (.key "y")
  | some x, some t, some y =>
    if x ≠ da.x ∨ y ≠ da.y then .error .shape else
    match steps with
    | [step] =>
      if lead.isSome && !(lead == some t) then .error .shape else
      match wrapLon da.lon step with
      | none => .error .index
      | some (lon, cols) => .ok ⟨lon, da.lat, cols, s.cmap, s.range, projection, heading⟩
    | _ => .error .shape

/-- Is the dimension the plotter takes for time (default "time", plotX/base.py 256–257) one of the data? -/
def hasTimeDim (names : Names) (lead : Option String) : Bool := lead == some ((names.lookup "time").getD "time")

/-- plotX/base.py 331–346 `single_plot` of a GriddedPlotter: what is shown, whether there is a colour bar, the new state. -/
def singlePlot (p : Plotter) (da : GridData) (cfg : PlotCfg) (st : PlotState) :
    Except PlotErr ((Drawn × Bool) × PlotState) :=
  match setupParams (hasTimeDim p.dims da.lead) cfg st with
  | .error e => .error e
  | .ok (s, st) =>
    let heading := match cfg.title with
      | some t => if t = "" then Heading.none else .text t
      | none => Heading.none
    match drawGrid p.dims da.lead da st.steps s cfg.projection heading with
    | .error e => .error e
    | .ok d => .ok ((d, cfg.colourbar), st)

/-- plotX/base.py 367–392: one panel, drawn by the plotter with the default names (362) on one step (387).  `tc`: the time coordinate of the plotter; a title
with the date (326–328) needs it to be there (else `.dt` raises). Simplification: it holds dates. -/
def drawPanel (tc : String) (da : GridData) (cfg : PlotCfg) (col : String) (s : Scale) (st : PlotState) (i : Nat) :
    Except PlotErr Drawn :=
  match cfg.dims.lookup "time", st.steps[i]? with
  | none, _ => .error (.key "time")
  | some _, none => .error .index
  | some t, some step =>
    let panel : PlotCfg := { cmap := some s.cmap, clim := s.clim, norm := s.norm, plotIDs := false, colourbar := false, extend := s.extend, dims := cfg.dims, coords := cfg.coords, projection := cfg.projection }
    match setupParams false panel ⟨[step], st.rng⟩ with
    | .error e => .error e
    | .ok (s', st') =>
      if col = t ∧ tc ∉ da.coords then .error (.attribute "dt")
      else drawGrid stdNames none da st'.steps s' cfg.projection (if col = t then .date i else .value i)

/-- plotX/base.py 348–406 `multi_plot` along the leading dimension: the panels in order, and the colour bar. -/
def multiPlot (p : Plotter) (g : GridSpec) (da : GridData) (cfg : PlotCfg) (col : String) (w : Nat) (st : PlotState) :
    Except PlotErr (List Drawn × Option (ColourMap × ColourRange)) :=
  if da.lead ≠ some col then .error (.key col) else
  match setupParams (hasTimeDim p.dims da.lead) cfg st with
  | .error e => .error e
  | .ok (s, st) =>
    match multiPanels st.steps.length w with
    | none => .error .axes
    | some axes =>
      match newPlotter p.unstructured g ⟨da.dims, da.coords⟩ none none with
      | .error e => .error e
      | .ok _ =>
        match (axes.filterMap id).mapM (drawPanel ((p.coords.lookup "time").getD "time") da cfg col s st) with
        | .error e => .error e
        | .ok panels => .ok (panels, if cfg.colourbar then some (s.cmap, s.range) else none)

/-- plotX/base.py 624–676 `make_frame` on a regular grid: the coordinates are read as the attributes `lat` and `lon` of the
data, there is no wrapping, and the projection is always Robinson. -/
def drawFrame (da : GridData) (s : Scale) (step : List Column) (i : Nat) : Except PlotErr Drawn :=
  if !da.coords.contains "lat" then .error (.attribute "lat")
  else if !da.coords.contains "lon" then .error (.attribute "lon")
  else .ok ⟨da.lon, da.lat, step, s.cmap, s.range, "Robinson", .date i⟩

/-! ### Plots of data on a mesh -/

/-- The content of a `res0.30.nc` file: for each point of a regular grid the index of a cell (plotX/unstructured.py 105–110). -/
structure Tree where
  idx : List Int
  nlat : Nat
  nlon : Nat

/-- `a[k]` for numpy: negative indices count from the end; `none`: IndexError. -/
def npGet {α} (a : List α) (k : Int) : Option α :=
  if 0 ≤ k then a[k.toNat]? else if (a.length : Int) + k < 0 then none else a[((a.length : Int) + k).toNat]?

/-- plotX/unstructured.py 201–225 `_interpolate_with_ckdtree` and plotX/base.py 661: the rows of the regular grid. -/
def onGrid (t : Tree) (cells : List (Option ℚ)) : Except PlotErr (List (List (Option ℚ))) :=
  match t.idx.mapM (npGet cells) with
  | none => .error .index
  | some v =>
    if v.length = t.nlat * t.nlon then .ok ((List.range t.nlat).map fun i => (v.drop (i * t.nlon)).take t.nlon)
    else .error .shape

inductive MeshDrawn where
  /-- rows of a regular grid -/
  | rows (r : List (List (Option ℚ)))
  /-- one value per cell, on the triangulation of the file -/
  | cells (path : String) (c : List (Option ℚ))
  /-- a map without any data -/
  | nothing
deriving DecidableEq

/-- plotX/unstructured.py 142–199 `plot`, for data with one value per cell; `lead`: the data have a further leading
dimension (then `data[indices]` picks steps instead of cells, and `tripcolor` refuses). -/
def drawMesh (p : Plotter) (tree : String → Tree) (lead : Bool) (cells : List (Option ℚ)) : Except PlotErr MeshDrawn :=
  match p.ckdtree with
  | some path =>
    if lead then .error .index else
    match onGrid (tree path) cells with
    | .error e => .error e
    | .ok r => .ok (.rows r)
  | none =>
    match p.tgrid with
    | none => .error .noGrid
    | some path => if lead then .error .shape else .ok (.cells path cells)

/-- plotX/base.py 630–668 and 761–762: a frame of data on a mesh.  The keyword `shading="auto"` (633) is passed to
`tripcolor` as well, which accepts "flat" and "gouraud" only (trusted contract of matplotlib). -/
def meshFrame (p : Plotter) (tree : String → Tree) (colourbar : Bool) (cells : List (Option ℚ)) :
    Except PlotErr MeshDrawn :=
  match p.ckdtree with
  | some path =>
    match onGrid (tree path) cells with
    | .error e => .error e
    | .ok r => .ok (.rows r)
  | none =>
    match p.tgrid with
    | some _ => .error .shading
    | none => if colourbar then .error .unbound else .ok .nothing

/-! ### Animations -/

/-- `f"time_{i:04d}.jpg"` (plotX/base.py 782). -/
def frameFile (i : Nat) : List Char :=
  "time_".toList ++ (List.replicate (4 - (Nat.toDigits 10 i).length) '0' ++ Nat.toDigits 10 i) ++ ".jpg".toList

/-- ffmpeg's reading of the pattern `time_%04d.jpg` (538; trusted contract): the number is printed with at least four
digits as C does. -/
def patternFile (i : Nat) : List Char :=
  if i < 10000 then
    "time_".toList ++ [i / 1000 % 10, i / 100 % 10, i / 10 % 10, i % 10].map Nat.digitChar ++ ".jpg".toList
  else "time_".toList ++ Nat.toDigits 10 i ++ ".jpg".toList

/-- A directory: file names and contents, the last one written first. -/
abbrev Dir (α : Type) := List (List Char × α)

/-- ffmpeg reads the images from number `i` on until one is missing (`fuel`: no more files than that). -/
def readFrom {α} (d : Dir α) : Nat → Nat → List α
  | 0, _ => []
  | fuel + 1, i =>
    match d.lookup (patternFile i) with
    | none => []
    | some a => a :: readFrom d fuel (i + 1)

/-- ffmpeg's image sequence reader (trusted contract): it starts at the first number in 0…4 that exists; `none`: no
such image, ffmpeg fails. -/
def ffmpegReads {α} (d : Dir α) : Option (List α) :=
  match [0, 1, 2, 3, 4].find? (fun i => (d.lookup (patternFile i)).isSome) with
  | none => none
  | some i => some (readFrom d d.length i)

/-- The surroundings of a call of `animate`. -/
structure AnimEnv where
  /-- is there an ffmpeg (431), and does it succeed on readable input -/
  ffmpegFound : Bool := true
  ffmpegWorks : Bool := true
  /-- `plot_dir` exists, or its parent directory does (443: `mkdir(exist_ok=True)` makes one level only) -/
  dirPossible : Bool := true

/-- The outcome of `animate`: what it returns or raises, the movie written (path and frames), and what is left of the
temporary directory. -/
structure AnimOut (α : Type) where
  result : Except PlotErr (Option String)
  movie : Option (String × List α)
  temp : Option (Dir α)
deriving DecidableEq

/-- plotX/base.py 451–454: the path of the movie. -/
def movieFile (dir : String) (fileName : Option String) (daName : String) : String :=
  let n := match fileName with
    | none => "movie_" ++ daName ++ ".mp4"
    | some n => if n = "" then "movie_" ++ daName ++ ".mp4" else n
  dir ++ "/" ++ n ++ ".mp4"

/-- plotX/base.py 516–524: the frames are made in batches, within a batch in any order (`order`: the order in which the
frames are made); each is written to its file.  The first failing frame ends the call. -/
def writeFrames {α} (frame : Nat → Except PlotErr α) : List Nat → Dir α → Dir α × Option PlotErr
  | [], d => (d, none)
  | i :: l, d =>
    match frame i with
    | .error e => (d, some e)
    | .ok a => writeFrames frame l ((frameFile i, a) :: d)

/-- plotX/base.py 408–557 `animate`.  `prepare`: everything between 457 and 514 (the number of frames and how each is
made); `order`: the order in which the frames are made.  The temporary directory is removed at the very end only (555).
Simplification: pillow and the plotting libraries are there (428); frames that fail leave no file. -/
def animate {α} (env : AnimEnv) (dir : String) (fileName : Option String) (daName : String)
    (prepare : Except PlotErr (Nat × (Nat → Except PlotErr α))) (order : Nat → List Nat) : AnimOut α :=
  if !env.ffmpegFound then ⟨.ok none, none, none⟩
  else if !env.dirPossible then ⟨.error .noDirectory, none, none⟩
  else
    match prepare with
    | .error e => ⟨.error e, none, some []⟩
    | .ok (n, frame) =>
      match writeFrames frame (order n) [] with
      | (d, some e) => ⟨.error e, none, some d⟩
      | (d, none) =>
        match ffmpegReads d with
        | none => ⟨.error .ffmpeg, none, some d⟩
        | some fs =>
          if env.ffmpegWorks then ⟨.ok (some (movieFile dir fileName daName)), some (movieFile dir fileName daName, fs), none⟩
          else ⟨.error .ffmpeg, none, some d⟩

/-- plotX/base.py 456–514 on a regular grid: the scale, the number of steps, and the frames.  481: the time name of the
configuration; 482, 492: its time coordinate must exist. -/
def gridFrames (p : Plotter) (da : GridData) (cfg : PlotCfg) (st : PlotState) :
    Except PlotErr (Nat × (Nat → Except PlotErr Drawn)) :=
  match setupParams (hasTimeDim p.dims da.lead) cfg st with
  | .error e => .error e
  | .ok (s, st) =>
    match cfg.dims.lookup "time" with
    | none => .error (.key "time")
    | some t =>
      if da.lead ≠ some t then .error (.key t)
      else if !da.coords.contains ((cfg.coords.lookup "time").getD t) && !(st.steps.length == 0) then .error (.key ((cfg.coords.lookup "time").getD t))
      else .ok (st.steps.length, fun i =>
        match st.steps[i]? with
        | none => .error .index
        | some step => drawFrame da s step i)

/-- plotX/base.py 787–792: the size of a frame. -/
def evenSize (w h : Nat) : Nat × Nat := (w - w % 2, h - h % 2)

/-! ### Markers -/

/-- plotX/base.py 712–756: the markers of a frame, as (longitude, latitude): for each distinct positive value of the plotted
data, in increasing order, the position of the first ID equal to it, unless that is missing.  `ids`, `lat`, `lon`: the
centroids of the step. -/
def markers (data : List (Option ℚ)) (ids : List ℚ) (lat lon : List (Option ℚ)) : List (ℚ × ℚ) :=
  let present := (((data.filterMap id).filter (fun v => decide (0 < v))).dedup).insertionSort (· ≤ ·)
  present.filterMap fun v =>
    match ids.findIdx? (fun x => x == v) with
    | none => none
    | some k =>
      match (lat[k]?).join, (lon[k]?).join with
      | some la, some lo => some (lo, la)
      | _, _ => none

end MarEx
