import Verif.Model.Preprocess
/-! Model of the extremes of standardised anomalies in `preprocess_data` (marEx/detect.py 570–705). -/
namespace MarEx
open Spec

/-- The two extra outputs `dat_stn` and (`extreme_events_stn`, `thresholds_stn`) (detect.py 676–705). -/
structure StnOut where
  stn : Nat → Nat → List Sample
  ext : ExtOut

/-- The values of a standardisation that succeeded. -/
def okStn (r : Option (List Sample)) : List Sample := r.getD []

/-- `preprocess_data` with its argument `std_normalise` (detect.py 570–705, 2171–2207).  `std`: the standardised anomalies of one cell, `none` when the division
fails; it is external here (`Model/Standardise.lean` says what it computes) and fails depending on the dates only, which all cells share, so cell (0, 0) decides.
Anomalies are standardised before any extremes are identified; the extremes of the anomalies are identified before those of the standardised ones. -/
def preprocessStn (gridded : Bool) (fit : List Nat → Bool → List ℚ → Nat → ℚ) (std : List Sample → Option (List Sample)) (stdNormalise : Bool)
    (A : AnomParams) (P : ExtParams) (ny nx : Nat) (raw : Nat → Nat → List Sample) : Except PrepErr (PrepOut × Option StnOut) :=
  if stdNormalise = true ∧ A.method = "detrend_harmonic" then
    match validateData ((List.range ny).flatMap fun y => (List.range nx).map fun x => (raw y x).map Sample.val) with
    | .error e => .error e
    | .ok _ =>
      match chooseAnomaly fit A with
      | .error e => .error e
      | .ok m =>
        let an := fun y x => okAnomalies (anomalyCell m (raw y x))
        let stn := fun y x => okStn (std (an y x))
        if std (an 0 0) = none then .error .valueError
        else
          match preprocess gridded m P ny nx raw with
          | .error e => .error e
          | .ok out =>
            match identifyExtremes gridded P ny nx stn with
            | .error e => .error e
            | .ok ext => .ok (out, some ⟨stn, ext⟩)
  else
    match preprocessData gridded fit A P ny nx raw with
    | .error e => .error e
    | .ok out => .ok (out, none)

end MarEx
