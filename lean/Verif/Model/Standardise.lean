import Verif.Model.Detrend
import Verif.Model.Util
/-! Model of the standardised anomalies of `_compute_anomaly_detrended` (marEx/detect.py 2171–2207), for the complete series of one location.
Arithmetic is exact. -/
namespace MarEx
open Spec

/-- `flox.xarray.xarray_reduce(…, func="std")` on one day of year (detect.py 2175–2182; trusted contract: population standard deviation over the steps of
that day). -/
noncomputable def dayStd {n : Nat} (doy : Fin n → Nat) (a : Fin n → ℝ) (d : Nat) : ℝ :=
  let steps := Finset.univ.filter fun t => doy t = d
  let mean := (∑ t ∈ steps, a t) / (steps.card : ℝ)
  Real.sqrt ((∑ t ∈ steps, (a t - mean) ^ 2) / (steps.card : ℝ))

/-- `std_day`: one value per day of year that occurs, in increasing order (detect.py 2175–2182). -/
noncomputable def stdDay {n : Nat} (doy : Fin n → Nat) (a : Fin n → ℝ) : List (Nat × ℝ) :=
  (npUnique ((List.finRange n).map doy)).map fun d => (d, dayStd doy a d)

/-- Errors of the division. -/
inductive StnErr | duplicateDays
deriving DecidableEq, Repr

/-- `dat_stn` (detect.py 2185–2192): division, by day of year, by the rolling standard deviation where it exceeds 1e-10.  Trusted contract of xarray: the
division aligns the standard deviations with the days of year and raises ValueError if a day occurs twice among them; a day that does not occur gives NaN. -/
noncomputable def standardised {n : Nat} (doy : Fin n → Nat) (a : Fin n → ℝ) : Except StnErr (Fin n → Option ℝ) :=
  open Classical in
  let rolling := stdRolling (stdDay doy a)
  if (rolling.map Prod.fst).Nodup then
    .ok fun t =>
      match rolling.lookup (doy t) with
      | some (some s) => if 1 / 10 ^ 10 < s then some (a t / s) else none
      | _ => none
  else .error .duplicateDays

end MarEx
