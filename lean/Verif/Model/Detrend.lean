import Verif.Spec.Detrend
/-! Model of `add_decimal_year` and `_compute_anomaly_detrended` (marEx/detect.py 1946–2210), for the series of one location.
Arithmetic is exact (the code uses float32/float64) and π is the real number. -/
namespace MarEx
open Spec

/-- A calendar time: year, day within the year from 0, and nanoseconds within the day. -/
structure CalTime where
  year : Int
  day : Nat
  ns : Nat

/-- Gregorian leap years, the calendar of `pd.to_datetime` (detect.py 1966–1968). -/
def isLeap (y : Int) : Bool := y % 4 = 0 ∧ (y % 100 ≠ 0 ∨ y % 400 = 0)

/-- `(start_of_next_year - start_of_year).days` (detect.py 1967–1970). -/
def yearDays (y : Int) : Nat := if isLeap y then 366 else 365

/-- `time.year + year_elapsed / year_duration` (detect.py 1966–1972); `.days` of a timedelta drops the time of day. -/
def decimalYear (t : CalTime) : ℚ := (t.year : ℚ) + (t.day : ℚ) / (yearDays t.year : ℚ)

/-- Errors raised by the order checks. -/
inductive DetrendErr | emptyOrders | invalidOrders
deriving DecidableEq, Repr

/-- Default and validation of `detrend_orders` (detect.py 2014–2041). -/
def checkOrders (orders : Option (List Int)) : Except DetrendErr (List Nat) :=
  let os := orders.getD [1]
  if os.isEmpty then .error .emptyOrders
  else if os.any (fun o => decide (o < 1)) then .error .invalidOrders
  else .ok (os.map Int.toNat)

/-- `model_components` (detect.py 2058–2075). -/
noncomputable def modelComponents {n : Nat} (orders : List Nat) (harmonics : Bool) (dy : Fin n → ℝ) : List (Fin n → ℝ) :=
  let ones : Fin n → ℝ := fun _ => 1
  let centred : Fin n → ℝ := fun t => dy t - timeMean dy
  let trends := orders.map fun o => (fun t => centred t ^ o : Fin n → ℝ)
  let cycles : List (Fin n → ℝ) := if harmonics then
    [fun t => Real.sin (2 * Real.pi * dy t), fun t => Real.cos (2 * Real.pi * dy t),
     fun t => Real.sin (4 * Real.pi * dy t), fun t => Real.cos (4 * Real.pi * dy t)] else []
  ones :: (trends ++ cycles)

/-- The in-place loop `model[i] = model[i] - mean(model[i]) * model[0]` for `i ≥ 1` (detect.py 2080–2081). -/
noncomputable def centreRows {n : Nat} : List (Fin n → ℝ) → List (Fin n → ℝ)
  | [] => []
  | c0 :: rest => c0 :: rest.map fun c => (fun t => c t - timeMean c * c0 t)

/-- The rows of the model matrix (detect.py 2077–2081). -/
noncomputable def modelRows {n : Nat} (orders : List Nat) (harmonics : Bool) (dy : Fin n → ℝ) : List (Fin n → ℝ) :=
  centreRows (modelComponents orders harmonics dy)

/-- `model`, a coefficient × time matrix (detect.py 2077). -/
noncomputable def modelMatrix {n : Nat} (orders : List Nat) (harmonics : Bool) (dy : Fin n → ℝ) :
    Matrix (Fin (modelRows orders harmonics dy).length) (Fin n) ℝ :=
  fun i t => (modelRows orders harmonics dy)[i] t

/-- `pmodel_da.dot(da)` (detect.py 2121): the fitted coefficients, `pmodel` being time × coefficient. -/
noncomputable def fitCoeffs {k n : Nat} (P : Matrix (Fin n) (Fin k) ℝ) (d : Fin n → ℝ) (c : Fin k) : ℝ := ∑ t, P t c * d t

/-- `da - model_da.dot(model_fit_da)` (detect.py 2135). -/
noncomputable def removeFit {k n : Nat} (M : Matrix (Fin k) (Fin n) ℝ) (P : Matrix (Fin n) (Fin k) ℝ) (d : Fin n → ℝ) : Fin n → ℝ :=
  fun t => d t - ∑ c, M c t * fitCoeffs P d c

/-- `_compute_anomaly_detrended`, the anomalies (detect.py 2043–2139).  `P` is the array returned by `np.linalg.pinv(model)`
(detect.py 2084), an external routine. -/
noncomputable def detrended {n : Nat} (orders : List Nat) (harmonics forceZeroMean : Bool) (dy : Fin n → ℝ)
    (P : Matrix (Fin n) (Fin (modelRows orders harmonics dy).length) ℝ) (d : Fin n → ℝ) : Fin n → ℝ :=
  let r := removeFit (modelMatrix orders harmonics dy) P d
  if forceZeroMean then (fun t => r t - timeMean r) else r

/-- The mean over the steps of the record that fall on the same day of year (`nanmean` grouped by `dayofyear`, detect.py 2243–2251), for a
series without missing values. -/
noncomputable def dayMean {n : Nat} (doy : Fin n → Nat) (v : Fin n → ℝ) (t : Fin n) : ℝ :=
  (∑ s with doy s = doy t, v s) / ((Finset.univ.filter fun s => doy s = doy t).card : ℝ)

/-- `_compute_anomaly_detrend_fixed_baseline` (detect.py 2278–2335): remove the polynomial trend without harmonics, then the daily climatology of
what is left (2253–2257), for a series without missing values. -/
noncomputable def detrendFixed {n : Nat} (orders : List Nat) (forceZeroMean : Bool) (dy : Fin n → ℝ) (doy : Fin n → Nat)
    (P : Matrix (Fin n) (Fin (modelRows orders false dy).length) ℝ) (d : Fin n → ℝ) : Fin n → ℝ :=
  let r := detrended orders false forceZeroMean dy P d
  fun t => r t - dayMean doy r t

/-- `np.pad(…, mode="wrap")` by `p` on both sides (detect.py 2185), for a list of at least `p` entries. -/
def wrapPad {α : Type} (p : Nat) (l : List α) : List α := l.drop (l.length - p) ++ l ++ l.take p

/-- One entry of `sqrt((x**2).rolling(dayofyear=30, center=True).mean())` (detect.py 2186): NaN where the window leaves the array. -/
noncomputable def rollingRms (xs : List ℝ) (i : Nat) : Option ℝ :=
  if 15 ≤ i ∧ i + 14 < xs.length then
    some (Real.sqrt (((List.range 30).map fun k => (xs.getD (i - 15 + k) 0) ^ 2).sum / 30))
  else none

/-- `std_rolling` with its day-of-year labels (detect.py 2185–2186): wrap-pad by 16, 30-day rolling RMS, `isel(slice(16, 366+16))`.
xarray pads the labels of the padded dimension with the same wrap. -/
noncomputable def stdRolling (stdDay : List (Nat × ℝ)) : List (Nat × Option ℝ) :=
  let wrapped := wrapPad 16 stdDay
  let rolled := (List.range wrapped.length).map fun i => ((wrapped.map Prod.fst).getD i 0, rollingRms (wrapped.map Prod.snd) i)
  (rolled.drop 16).take 366

end MarEx
