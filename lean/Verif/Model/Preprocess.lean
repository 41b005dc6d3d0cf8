import Verif.Model.Threshold
import Verif.Spec.Preprocess
import Verif.Model.Detrend
/-! Model of the argument handling of marEx/detect.py and of the composition of `preprocess_data`.
Dictionaries are lists of pairs. -/
namespace MarEx
open Spec

/-- Exceptions of the preprocessing entry points. -/
inductive PrepErr
  | dataValidation | keyError | configuration | typeError | valueError | zeroDivision
deriving DecidableEq, Repr

/-- `k in dict`. -/
def hasKey (dict : List (String × String)) (k : String) : Bool := dict.any fun e => e.1 = k

/-- `dict[k]`. -/
def getKey (dict : List (String × String)) (k : String) : Option String := (dict.find? fun e => e.1 = k).map Prod.snd

/-- The dimensions part of `_infer_dims_coords` (detect.py 160–164). -/
def inferDims (dimensions : Option (List (String × String))) : List (String × String) :=
  let d := dimensions.getD [("time", "time"), ("x", "lon"), ("y", "lat")]
  if hasKey d "time" then d else ("time", "time") :: d

/-- The coordinates part of `_infer_dims_coords` (detect.py 167–195).  Building the error message for unstructured data without coordinates evaluates
`dimensions['x']` (line 178), which raises `KeyError` when there is no `x`. -/
def inferCoords (d : List (String × String)) (coordinates : Option (List (String × String))) : Except PrepErr (List (String × String)) :=
  match coordinates with
  | none =>
    if hasKey d "y" then .ok d
    else if hasKey d "x" then .error .dataValidation else .error .keyError
  | some c => .ok (if hasKey c "time" then c else ("time", (getKey d "time").getD "time") :: c)

/-- `_validate_dimensions_exist` and `_validate_coordinates_exist` (detect.py 51–128): every name must be present. -/
def allPresent (available : List String) (dict : List (String × String)) : Bool := dict.all fun e => available.contains e.2

/-- `_infer_dims_coords` (detect.py 131–202). -/
def inferDimsCoords (da : DataInfo) (dimensions coordinates : Option (List (String × String))) :
    Except PrepErr (List (String × String) × List (String × String)) :=
  let d := inferDims dimensions
  match inferCoords d coordinates with
  | .error e => .error e
  | .ok c =>
    if allPresent da.dims d = false then .error .dataValidation
    else if allPresent da.coords c = false then .error .dataValidation
    else .ok (d, c)

/-- `_validate_data_values` (detect.py 205–279) on the series of all locations (missing = NaN or infinite; all series have the same length).
An empty time axis makes `isel(time=0)` fail; the model treats it as no valid data. -/
def validateData (cells : List (List (Option ℚ))) : Except PrepErr Unit :=
  let oceanCells := cells.filter fun c => (c.headD none).isSome
  if oceanCells.isEmpty then .error .dataValidation
  else if 0 < (oceanCells.map fun c => (c.filter fun v => v.isNone).length).foldl max 0 then .error .dataValidation
  else .ok ()

/-- The spatial-window checks of `identify_extremes` (detect.py 1299–1370). -/
def checkSpatial (gridded : Bool) (P : ExtParams) : Except PrepErr Unit :=
  match P.windowSpatial with
  | none => .ok ()
  | some _ =>
    if gridded = false then .error .configuration
    else if P.methodExtreme ≠ "hobday_extreme" then .error .configuration
    else if P.methodPercentile = "exact" then .error .configuration
    else .ok ()

/-- The percentile-method checks of `identify_extremes` (detect.py 1216–1297). -/
def checkPercentile (P : ExtParams) : Except PrepErr Unit :=
  if P.methodPercentile ≠ "exact" ∧ P.methodPercentile ≠ "approximate" then .error .configuration
  else if P.methodPercentile = "exact" ∧ P.precision ≠ 1 / 100 then .error .configuration
  else if P.methodPercentile = "exact" ∧ P.maxAnomaly ≠ 5 then .error .configuration
  else if P.percentile < 60 ∧ P.methodPercentile = "approximate" then .error .configuration
  else .ok ()

/-- Odd temporal window (detect.py 1372–1388). -/
def checkDays (P : ExtParams) : Except PrepErr Unit :=
  match P.windowDays with
  | none => .ok ()
  | some w => if P.methodExtreme = "hobday_extreme" ∧ w % 2 = 0 then .error .configuration else .ok ()

/-- The spatial window after the default (detect.py 1391–1392). -/
def effectiveSpatial (gridded : Bool) (P : ExtParams) : Option Int :=
  match P.windowSpatial with
  | some s => some s
  | none => if P.methodExtreme = "hobday_extreme" ∧ gridded = true then some 5 else none

/-- Odd spatial window (detect.py 1394–1410); building the message computes `window_days_hobday + 1` (1403), a `TypeError` if that is None. -/
def checkSpatialOdd (gridded : Bool) (P : ExtParams) : Except PrepErr Unit :=
  match effectiveSpatial gridded P with
  | none => .ok ()
  | some s =>
    if P.methodExtreme = "hobday_extreme" ∧ s % 2 = 0 then
      match P.windowDays with
      | none => .error .typeError
      | some _ => .error .configuration
    else .ok ()

/-- The method that is run once the checks have passed (detect.py 1412–1443), with its windows; `_identify_extremes_hobday` begins by multiplying
with `window_days_hobday` (1847), a `TypeError` if that is None. -/
inductive Chosen
  | global
  | hobday (days : Int) (spatial : Option Int)
deriving DecidableEq, Repr

def dispatch (gridded : Bool) (P : ExtParams) : Except PrepErr Chosen :=
  if P.methodExtreme = "global_extreme" then .ok .global
  else if P.methodExtreme = "hobday_extreme" then
    match P.windowDays with
    | none => .error .typeError
    | some w => .ok (.hobday w (effectiveSpatial gridded P))
  else .error .configuration

/-- All checks of `identify_extremes` (detect.py 1212–1443), in order. -/
def checkExtremes (gridded : Bool) (P : ExtParams) : Except PrepErr Chosen :=
  match checkPercentile P with
  | .error e => .error e
  | .ok _ =>
    match checkSpatial gridded P with
    | .error e => .error e
    | .ok _ =>
      match checkDays P with
      | .error e => .error e
      | .ok _ =>
        match checkSpatialOdd gridded P with
        | .error e => .error e
        | .ok _ => dispatch gridded P

/-- Extreme masks and thresholds of all cells; the constant method has one threshold per cell, stored as a list of one. -/
structure ExtOut where
  extremes : Nat → Nat → List Bool
  thresholds : Nat → Nat → List (Option ℚ)

/-- `_identify_extremes_constant` (detect.py 2747–2790) at all cells. -/
def runGlobal (P : ExtParams) (recs : Nat → Nat → List Sample) : ExtOut :=
  let th := fun y x => if P.methodPercentile = "exact" then quantileExact (P.percentile / 100) ((recs y x).map Sample.val)
    else threshold1d P.precision P.maxAnomaly (P.percentile / 100) ((recs y x).map Sample.val)
  ⟨fun y x => extremesConstant ((recs y x).map Sample.val) (th y x), fun y x => [th y x]⟩

/-- `_identify_extremes_hobday` with the exact method (detect.py 1863–1871) at all cells; the spatial window plays no role. -/
def runExactDays (P : ExtParams) (w : Nat) (recs : Nat → Nat → List Sample) : ExtOut :=
  let th := fun y x => (List.range 366).map fun d => thresholdExact (P.percentile / 100) w (recs y x) (d + 1)
  ⟨fun y x => extremesHobday (recs y x) (th y x), th⟩

/-- The thresholds of one cell, when their computation succeeds. -/
def okThresholds (r : Except ThErr (List (Option ℚ))) : List (Option ℚ) := match r with | .ok t => t | .error _ => []

/-- `_identify_extremes_hobday` with the approximate method (detect.py 1873–1938) at all cells. -/
def runApproxDays (P : ExtParams) (w s ny nx : Nat) (recs : Nat → Nat → List Sample) : Except PrepErr ExtOut :=
  match gridThresholds P.precision P.maxAnomaly (P.percentile / 100) w s ny nx recs 0 0 with
  | .error _ => .error .valueError
  | .ok _ =>
    let th := fun y x => okThresholds (gridThresholds P.precision P.maxAnomaly (P.percentile / 100) w s ny nx recs y x)
    .ok ⟨fun y x => extremesHobday (recs y x) (th y x), th⟩

/-- No spatial window, and windows of at most one cell, mean no pooling (detect.py 2524). -/
def poolSize : Option Int → Nat
  | none => 1
  | some k => k.toNat

/-- The computation of `identify_extremes` after the checks (detect.py 1412–1434), on an `ny` by `nx` grid (unstructured data: one row).
Windows that are not positive make numpy / xarray raise `ValueError`, as do exact percentiles outside 0–100 (`np.nanpercentile`,
`DataArray.quantile`).  A record without any time step makes `isel(time=0)` raise `IndexError` in the code; the model gives it no thresholds.  The
histogram shapes do not depend on the cell, so the shape error does not either: cell (0, 0) decides. -/
def runExtremes (P : ExtParams) (c : Chosen) (ny nx : Nat) (recs : Nat → Nat → List Sample) : Except PrepErr ExtOut :=
  if P.methodPercentile = "exact" ∧ (P.percentile / 100 < 0 ∨ 1 < P.percentile / 100) then .error .valueError else
  match c with
  | .global => .ok (runGlobal P recs)
  | .hobday w s =>
    if w < 1 then .error .valueError
    else if P.methodPercentile = "exact" then .ok (runExactDays P w.toNat recs)
    else runApproxDays P w.toNat (poolSize s) ny nx recs

/-- The chunk length `100 * int(np.sqrt(n) * 1.5 / 100)` along the cells of a mesh (detect.py 2764), in exact arithmetic: `√n · 1.5 / 100 = √(9n) / 200`. -/
def meshChunk (n : Nat) : Nat := 100 * (Nat.sqrt (9 * n) / 200)

/-- `_identify_extremes_constant` with exact percentiles lays out a mesh in chunks of that length (detect.py 2761–2768); dask divides the number of
cells by it: ZeroDivisionError if it is 0 (trusted contract of dask: `blockdims_from_blockshape`). -/
def layoutFails (gridded : Bool) (P : ExtParams) (c : Chosen) (n : Nat) : Bool :=
  !gridded && decide (c = .global) && decide (P.methodPercentile = "exact") && decide (0 < n) && decide (meshChunk n = 0)

/-- `identify_extremes` (detect.py 1059–1443), dimensions already known. -/
def identifyExtremes (gridded : Bool) (P : ExtParams) (ny nx : Nat) (recs : Nat → Nat → List Sample) : Except PrepErr ExtOut :=
  match checkExtremes gridded P with
  | .error e => .error e
  | .ok c => if layoutFails gridded P c nx then .error .zeroDivision else runExtremes P c ny nx recs

/-- The anomaly methods.  `fit` is the numerical detrending of a complete series (detect.py 2043–2139): the value left at step `i`.  It is external here
(arbitrary); `Model/Detrend.lean` says what it computes.  It depends on the dates, which all cells share. -/
inductive AnomalyMethod
  | shifting (years smooth : Nat)
  | fixed
  | detrend (fit : List ℚ → Nat → ℚ)
  | detrendFixed (fit : List ℚ → Nat → ℚ)

/-- Detrending of one cell (detect.py 2121–2139): `dot` propagates NaN, so one missing value makes the fit, and all that is left, missing. -/
def detrendCell (fit : List ℚ → Nat → ℚ) (record : List Sample) : List Sample :=
  withVals record ((List.range record.length).map fun i =>
    if record.all (fun s => s.val.isSome) then some (fit (record.filterMap Sample.val) i) else none)

/-- The anomalies of one cell as `preprocess_data` uses them (detect.py 577–622). -/
def anomalyCell (m : AnomalyMethod) (record : List Sample) : Except PrepErr (List Sample) :=
  match m with
  | .fixed => .ok (fixedAnomaly record)
  | .shifting W w => match shiftingBaseline W w record with
    | .error _ => .error .dataValidation
    | .ok r => .ok r
  | .detrend fit => .ok (detrendCell fit record)
  | .detrendFixed fit => .ok (fixedAnomaly (detrendCell fit record))

/-- Cells finite at the first time step of a field. -/
def oceanMask (raw : Nat → Nat → List Sample) (y x : Nat) : Bool := (((raw y x).map Sample.val).headD none).isSome

/-- The ocean mask (detect.py 1787, 2147, 2269): cells finite at the first time step of the input; `detrend_fixed_baseline` returns the mask of its second
stage, whose input is the detrended field (2328–2332). -/
def methodMask (m : AnomalyMethod) (raw : Nat → Nat → List Sample) : Nat → Nat → Bool :=
  match m with
  | .detrendFixed fit => oceanMask fun y x => detrendCell fit (raw y x)
  | _ => oceanMask raw

/-- The anomalies of a cell whose dates passed the length check. -/
def okAnomalies (r : Except PrepErr (List Sample)) : List Sample := match r with | .ok a => a | .error _ => []

/-- What `preprocess_data` returns. -/
structure PrepOut where
  mask : Nat → Nat → Bool
  anomalies : Nat → Nat → List Sample
  ext : ExtOut

/-- `preprocess_data` (detect.py 287–817) from the value check to the extremes, without standardisation, rechunking and metadata.
All cells share their dates, so cell (0, 0) decides whether the record is too short. -/
def preprocess (gridded : Bool) (m : AnomalyMethod) (P : ExtParams) (ny nx : Nat) (raw : Nat → Nat → List Sample) : Except PrepErr PrepOut :=
  match validateData ((List.range ny).flatMap fun y => (List.range nx).map fun x => (raw y x).map Sample.val) with
  | .error e => .error e
  | .ok _ =>
    match anomalyCell m (raw 0 0) with
    | .error e => .error e
    | .ok _ =>
      let an := fun y x => okAnomalies (anomalyCell m (raw y x))
      match identifyExtremes gridded P ny nx an with
      | .error e => .error e
      | .ok ext => .ok ⟨methodMask m raw, an, ext⟩

/-- The anomaly arguments of `preprocess_data` and `compute_normalised_anomaly`. -/
structure AnomParams where
  method : String
  years : Nat
  smooth : Nat
  orders : Option (List Int)

/-- The choice of the method in `compute_normalised_anomaly` (detect.py 1012–1056) with the check of the orders in `_compute_anomaly_detrended`
(2014–2041).  `fit orders harmonics`: the numerical detrending. -/
def chooseAnomaly (fit : List Nat → Bool → List ℚ → Nat → ℚ) (A : AnomParams) : Except PrepErr AnomalyMethod :=
  if A.method = "detrend_harmonic" then
    match checkOrders A.orders with
    | .error _ => .error .configuration
    | .ok os => .ok (.detrend (fit os true))
  else if A.method = "shifting_baseline" then .ok (.shifting A.years A.smooth)
  else if A.method = "fixed_baseline" then .ok .fixed
  else if A.method = "detrend_fixed_baseline" then
    match checkOrders A.orders with
    | .error _ => .error .configuration
    | .ok os => .ok (.detrendFixed (fit os false))
  else .error .configuration

/-- `preprocess_data` from the names of the methods (detect.py 524–622).  The data are checked before the method is chosen; `preprocess` repeats
that check, with the same result. -/
def preprocessData (gridded : Bool) (fit : List Nat → Bool → List ℚ → Nat → ℚ) (A : AnomParams) (P : ExtParams) (ny nx : Nat)
    (raw : Nat → Nat → List Sample) : Except PrepErr PrepOut :=
  match validateData ((List.range ny).flatMap fun y => (List.range nx).map fun x => (raw y x).map Sample.val) with
  | .error e => .error e
  | .ok _ =>
    match chooseAnomaly fit A with
    | .error e => .error e
    | .ok m => preprocess gridded m P ny nx raw

/-- The threshold part of `_get_preprocessing_steps` (detect.py 845–855): the spatial window named in the metadata is the argument of
`preprocess_data`, not the one in use. -/
def recordedSpatial (P : ExtParams) : Option Int := if P.methodExtreme = "hobday_extreme" then P.windowSpatial else none

end MarEx
