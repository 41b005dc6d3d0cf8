import Verif.Model.Preprocess
/-! Model of the warning about thin samples, `/repo/marEx/detect.py` 1843–1855. -/
namespace MarEx
open Spec

/-- `N_above_threshold < 50` (detect.py 1845–1848).  Simplification: the products are exact. -/
def warnsFew (years : Nat) (w : Int) (s : Option Int) (percentile : ℚ) : Bool :=
  decide ((years : ℚ) * w * ((s.getD 1 : Int) : ℚ) ^ 2 * (1 - percentile / 100) < 50)

/-- Whether `identify_extremes` logs that warning (detect.py 1391–1434, 1843–1855): day-of-year thresholds only, once the arguments are accepted.  The years are
those of the record; all cells share their dates. -/
def identifyWarns (gridded : Bool) (P : ExtParams) (recs : Nat → Nat → List Sample) : Bool :=
  match checkExtremes gridded P with
  | .ok (.hobday w s) => warnsFew (npUnique ((recs 0 0).map Sample.year)).length w s P.percentile
  | _ => false

end MarEx
