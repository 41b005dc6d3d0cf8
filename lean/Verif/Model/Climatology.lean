import Verif.Model.Util
import Verif.Spec.Climatology
/-! Model of the baseline and anomaly computations of marEx/detect.py, for the time series of one location
(every operation modelled here acts on each location separately).  Arithmetic is exact, where the code rounds to float32. -/
namespace MarEx

/-- numpy / flox `nanmean`: the mean of the non-missing values, NaN when there are none. -/
def nanMean (l : List (Option ℚ)) : Option ℚ :=
  let v := l.filterMap id
  if v.isEmpty then none else some (v.sum / (v.length : ℚ))

/-- `unique_years.min()` (detect.py 1554; 597 for the trimming). -/
def minYear (record : List Sample) : Nat := (npUnique (record.map Sample.year)).headD 0

/-- `max_year` (detect.py 598). -/
def maxYear (record : List Sample) : Nat := (record.map Sample.year).foldl max 0

/-- The long-form entries of `rolling_climatology` (detect.py 1562–1588): each sample is listed once for every target year
`Y < t ≤ Y + W` occurring in the record with `t ≥ min_year + W`. -/
def contributions (W : Nat) (record : List Sample) : List (Nat × Nat × Option ℚ) :=
  let uniqueYears := npUnique (record.map Sample.year)
  record.flatMap fun s =>
    let candidates := uniqueYears.filter fun t => s.year < t ∧ t ≤ s.year + W
    let valid := candidates.filter fun t => minYear record + W ≤ t
    valid.map fun t => (t, s.doy, s.val)

/-- `rolling_climatology` (detect.py 1451–1628): `nanmean` of the entries grouped by (target year, day of year),
then each time step looks up the entry of its own year and day.  Day-of-year labels are those of the calendar, 1–366, which are
exactly the groups the code asks for, so no label falls outside them. -/
def rollingClim (W : Nat) (record : List Sample) : List (Option ℚ) :=
  let entries := contributions W record
  record.map fun s => nanMean ((entries.filter fun e => e.1 = s.year ∧ e.2.1 = s.doy).map fun e => e.2.2)

/-- `xs.rolling(time=w, center=True).mean()` (detect.py 1750–1752): the mean of the `w` positions from `i - w/2`, missing if one of
them is missing or outside the record (`min_periods` defaults to `w`).  xarray rejects `w = 0`; the model is used for `w ≥ 1`. -/
def rollMean (w : Nat) (xs : List (Option ℚ)) : List (Option ℚ) :=
  (List.range xs.length).map fun i =>
    let window := (List.range w).map fun k => if i + k < w / 2 then none else xs.getD (i + k - w / 2) none
    if window.all Option.isSome then some ((window.filterMap id).sum / (w : ℚ)) else none

/-- Replace the values of a record, keeping its dates. -/
def withVals (record : List Sample) (vs : List (Option ℚ)) : List Sample :=
  List.zipWith (fun s v => { s with val := v }) record vs

/-- `smoothed_rolling_climatology` (detect.py 1631–1756): smooth the raw data, then take the rolling climatology. -/
def smoothedClim (W w : Nat) (record : List Sample) : List (Option ℚ) :=
  rollingClim W (withVals record (rollMean w (record.map Sample.val)))

/-- NaN-propagating subtraction. -/
def nanSub (a b : Option ℚ) : Option ℚ := match a, b with
  | some x, some y => some (x - y)
  | _, _ => none

/-- `_compute_anomaly_shifting_baseline` (detect.py 1759–1790), the anomalies. -/
def shiftingAnomaly (W w : Nat) (record : List Sample) : List Sample :=
  withVals record (List.zipWith nanSub (record.map Sample.val) (smoothedClim W w record))

/-- Errors of preprocess_data that this model distinguishes. -/
inductive PreErr | insufficientYears
deriving DecidableEq, Repr

/-- The trimming step of `preprocess_data` for the shifting baseline (detect.py 596–622). -/
def trimShifting (W : Nat) (record : List Sample) : Except PreErr (List Sample) :=
  let totalYears := maxYear record - minYear record + 1
  if totalYears < W then .error .insufficientYears
  else .ok (record.filter fun s => minYear record + W ≤ s.year)

/-- The anomalies returned by `preprocess_data(method_anomaly="shifting_baseline")` (detect.py 577–622). -/
def shiftingBaseline (W w : Nat) (record : List Sample) : Except PreErr (List Sample) :=
  trimShifting W (shiftingAnomaly W w record)

/-- The climatology of `_compute_anomaly_fixed_baseline` (detect.py 2243–2251): `nanmean` over all samples of a day of year. -/
def dailyClim (record : List Sample) (d : Nat) : Option ℚ :=
  nanMean ((record.filter fun s => s.doy = d).map Sample.val)

/-- The anomalies of `_compute_anomaly_fixed_baseline` (detect.py 2253–2257). -/
def fixedAnomaly (record : List Sample) : List Sample :=
  record.map fun s => { s with val := nanSub s.val (dailyClim record s.doy) }

end MarEx
