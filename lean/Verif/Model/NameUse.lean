import Verif.Model.Preprocess
/-!
# Model of the names `preprocess_data` looks up after it has checked them, and of the chunks of its output

`/repo/marEx/detect.py` 131–202 (check), 2111–2117, 2490, 2764, 799–800 (uses), 527–528 and 762–768 (chunks).  Dictionaries are lists of pairs.
-/
namespace MarEx
open Spec

/-- Where `preprocess_data` stops. -/
inductive NameStage
  | check | anomalies | extremes | writing
deriving DecidableEq, Repr

/-- `dict[k]` for each of these keys: KeyError unless all are there. -/
def needKeys (stage : NameStage) (dict : List (String × String)) (ks : List String) : Except (NameStage × PrepErr) Unit :=
  if ks.all (hasKey dict) then .ok () else .error (stage, .keyError)

/-- The keys read by the anomaly methods (detect.py 2111–2117: both detrending methods; the baseline methods read "time" only). -/
def anomalyNames (method : String) (d c : List (String × String)) : Except (NameStage × PrepErr) Unit :=
  if method = "detrend_harmonic" ∨ method = "detrend_fixed_baseline" then
    if hasKey d "y" then
      match needKeys .anomalies d ["x"] with
      | .error e => .error e
      | .ok _ => needKeys .anomalies c ["y", "x"]
    else if hasKey d "x" then needKeys .anomalies c ["x"]
    else .ok ()
  else .ok ()

/-- The keys read by `identify_extremes` (detect.py 2490: day-of-year histograms; 2761–2764: exact constant percentiles). -/
def extremeNames (P : ExtParams) (d : List (String × String)) : Except (NameStage × PrepErr) Unit :=
  if P.methodExtreme = "hobday_extreme" ∧ P.methodPercentile ≠ "exact" then needKeys .extremes d ["x"]
  else if P.methodExtreme ≠ "hobday_extreme" ∧ P.methodPercentile = "exact" ∧ hasKey d "y" = false then needKeys .extremes d ["x"]
  else .ok ()

/-- The keys read after everything has been computed (detect.py 799–800). -/
def finalNames (c : List (String × String)) : Except (NameStage × PrepErr) Unit := needKeys .writing c ["x", "y"]

/-- The names of a call of `preprocess_data` from the check to the end (detect.py 548, 577–622, 631–656, 799–800); everything else is taken to
succeed. -/
def preprocessNames (da : DataInfo) (dimensions coordinates : Option (List (String × String))) (method : String) (P : ExtParams) :
    Except (NameStage × PrepErr) (List (String × String) × List (String × String)) :=
  match inferDimsCoords da dimensions coordinates with
  | .error e => .error (.check, e)
  | .ok (d, c) =>
    match anomalyNames method d c with
    | .error e => .error e
    | .ok _ =>
      match extremeNames P d with
      | .error e => .error e
      | .ok _ =>
        match finalNames c with
        | .error e => .error e
        | .ok _ => .ok (d, c)

/-- `dask_chunks.get(dimensions["time"], dask_chunks.get("time", 10))` with the default `{"time": 25}` (detect.py 527–528, 762). -/
def timeChunk (daskChunks : Option (List (String × Int))) (time : String) : Int :=
  let dc := daskChunks.getD [("time", 25)]
  (dc.lookup time).getD ((dc.lookup "time").getD 10)

/-- The chunk length asked for along each dimension of the output (detect.py 764–768); -1: one chunk.  Later entries of the dictionary replace
earlier ones, so the list is searched from its end: it is written here last entry first. -/
def finalChunks (daskChunks : Option (List (String × Int))) (d : List (String × String)) (hobday : Bool) : List (String × Int) :=
  let time := (getKey d "time").getD "time"
  let tc := timeChunk daskChunks time
  (if hobday then [("dayofyear", tc)] else []) ++ [(time, tc)] ++ (["y", "x"].filterMap fun k => (getKey d k).map fun v => (v, (-1 : Int)))

end MarEx
