import Verif.Model.Preprocess
/-! Model of the recorded processing steps, `/repo/marEx/detect.py` 820–857, and of the advice on installing packages, `/repo/marEx/_dependencies.py` 90–151. -/
namespace MarEx
open Spec

/-- `_get_preprocessing_steps` (detect.py 820–857).  Lean renders numbers and lists as Python does. -/
def preprocessingSteps (methodAnomaly methodExtreme : String) (std : Bool) (orders : List Int) (years smooth : Nat) (days : Option Int)
    (spatial : Option Int) : List String :=
  let daysText := match days with | some d => toString d | none => "None"
  (if methodAnomaly = "detrend_harmonic" then
      ["Removed polynomial trend orders=" ++ toString orders ++ " & seasonal cycle"] ++ (if std then ["Normalised by 30-day rolling STD"] else [])
    else if methodAnomaly = "shifting_baseline" then
      ["Rolling climatology using " ++ toString years ++ " years", "Smoothed with " ++ toString smooth ++ "-day window"]
    else if methodAnomaly = "fixed_baseline" then ["Daily climatology computed from full time series"]
    else if methodAnomaly = "detrend_fixed_baseline" then
      ["Removed polynomial trend orders=" ++ toString orders, "Daily climatology computed from detrended data"]
    else []) ++
  (if methodExtreme = "global_extreme" then ["Global percentile threshold applied to all days"]
    else if methodExtreme = "hobday_extreme" then
      match spatial with
      | some s => ["Day-of-year thresholds with " ++ daysText ++ " day window & " ++ toString s ++ " spatial neighbours"]
      | none => ["Day-of-year thresholds with " ++ daysText ++ " day window"]
    else [])

/-- `pip install` of a package by name, or of marEx with one of its extras. -/
inductive Install
  | package (n : String)
  | extra (e : String)
deriving DecidableEq

/-- `_get_install_command` (_dependencies.py 138–151). -/
def installCommand (dep : String) : Install :=
  if dep = "jax" ∨ dep = "jaxlib" then .extra "performance"
  else if dep = "dask_jobqueue" then .extra "hpc"
  else if dep = "pillow" then .package "pillow"
  else if dep = "matplotlib" ∨ dep = "cartopy" ∨ dep = "seaborn" ∨ dep = "cmocean" then .extra "plotting"
  else .package dep

/-- The advice of `require_dependencies` for the missing packages (_dependencies.py 108–116); `none`: nothing is missing. -/
def installAdvice (missing : List String) : Option Install :=
  match missing with
  | [] => none
  | [d] => some (installCommand d)
  | _ => some (.extra "full")

/-- What a command installs besides what marEx itself requires (pyproject.toml 50–78; version bounds left out). -/
def extras : List (String × List String) :=
  [("performance", ["jax", "jaxlib"]), ("hpc", ["dask_jobqueue", "psutil"]), ("plotting", ["seaborn", "cmocean", "cartopy", "matplotlib", "ffmpeg"]),
   ("full", ["jax", "jaxlib", "dask_jobqueue", "seaborn", "cmocean", "ffmpeg"])]

/-- What marEx itself requires (pyproject.toml 28–43). -/
def required : List String := ["numpy", "xarray", "dask", "netcdf4", "scipy", "scikit-image", "dask_image", "pandas", "numba", "pillow", "xhistogram",
  "flox", "matplotlib", "cartopy"]

/-- What is there after the command. -/
def installs : Install → List String
  | .package n => [n]
  | .extra e => (extras.lookup e).getD [] ++ required

end MarEx
