import Verif.Spec.Support
import Mathlib.Data.String.Basic
/-! Model of the support modules: `helper.py` (checkpointing, cluster sizing), `_dependencies.py`,
`logging_config.py`, `exceptions.py`. -/
namespace MarEx
open Spec

/-! ### helper.checkpoint_to_zarr -/

/-- helper.py 704 `len(time_chunks) > 1 and len(set(time_chunks)) > 1`. -/
def irregular (c : List Nat) : Bool := decide (1 < c.length) && decide (1 < c.dedup.length)

/-- helper.py 706–722: the repaired chunks, from the first chunk and the size of the dimension.
(`first_chunk = 0` raises ZeroDivisionError, see `storeAttempt`.) -/
def repairChunks (c : List Nat) : List Nat :=
  let first := c.headD 0
  let total := c.sum
  let nFull := total / first
  let r := total % first
  if 0 < r then List.replicate nFull first ++ [r] else List.replicate nFull first

/-- helper.py 702–724: the chunks with which the data is written.  `isDataset`: for a DataArray `data.chunks` is a
tuple of tuples, in which the name of the time dimension does not occur, so the test of line 702 is false.
`c = none`: the object has no (chunked) time dimension. -/
def writtenChunks (isDataset : Bool) (c : Option (List Nat)) : Option (List Nat) :=
  match c with
  | none => none
  | some c => if isDataset && irregular c then some (repairChunks c) else some c

/-- Contract of `to_zarr` (trusted): the chunks of a dimension are accepted iff all but the last are equal to the
first and the last is not larger. -/
def zarrAccepts (c : List Nat) : Bool :=
  c.dropLast.all (fun k => k == c.headD 0) && decide (c.getLastD 0 ≤ c.headD 0)

/-- How a disk operation fails: a ValueError/OSError whose message contains "chunk" or "incompatible", another
ValueError/OSError, or an exception of another class. -/
inductive DiskErr | mentionsChunk | other | unrelated
deriving DecidableEq, Repr

/-- What the disk and the scheduler do during one call. -/
structure StoreDisk where
  write : Option DiskErr := none
  read : Option DiskErr := none
  /-- the removal of the failed store (746) succeeds -/
  removeOk : Bool := true
  persistOk : Bool := true
  /-- the removal of the store after reloading (772) succeeds -/
  cleanupOk : Bool := true

/-- What the caller gets. -/
inductive Handed (α : Type) where
  /-- an object held in memory (persisted data or the input itself) -/
  | inMemory (a : α)
  /-- a lazily loaded object whose values are in a store on disk; `present`: the store still exists -/
  | onDisk (a : α) (present : Bool)
  /-- the function ends without a return statement: Python returns None -/
  | nothing

/-- The data the caller can read from what they got. -/
def Handed.readable {α} : Handed α → Option α
  | .inMemory a => some a
  | .onDisk a true => some a
  | .onDisk _ false => none
  | .nothing => none

/-- helper.py 713: `total_size // first_chunk` raises ZeroDivisionError when a repair is due and the first chunk is empty. -/
def zeroDivision (isDataset : Bool) : Option (List Nat) → Bool
  | some c => isDataset && irregular c && c.headD 0 == 0
  | none => false

/-- Whether the chunks along time with which the data is written can be stored. -/
def timeChunksOk (isDataset : Bool) (c : Option (List Nat)) : Bool :=
  match writtenChunks isDataset c with
  | some c => zarrAccepts c
  | none => true

/-- helper.py 694–739: write and reload.  `otherOk`: the chunks along the other dimensions can be stored. -/
def storeAttempt (isDataset : Bool) (c : Option (List Nat)) (otherOk : Bool) (d : StoreDisk) : Option DiskErr :=
  if zeroDivision isDataset c then some .unrelated
  else if !(otherOk && timeChunksOk isDataset c) then some .mentionsChunk
  else match d.write with
    | some e => some e
    | none => d.read

/-- helper.py 750–765: the fallback of the outer handler: `persist()`, or else the input itself. -/
def fallback {α} (_d : StoreDisk) (data : α) : Handed α := .inMemory data

/-- helper.py 642–777, `checkpoint_to_zarr`.  Simplifications: the choice of the directory and the log lines are left
out; that `open_zarr` gives back the values `to_zarr` wrote is a contract of zarr; `persist` keeps values. -/
def checkpointToZarr {α} (isDataset : Bool) (c : Option (List Nat)) (otherOk : Bool) (cleanup : Bool) (d : StoreDisk)
    (data : α) : Handed α :=
  match storeAttempt isDataset c otherOk d with
  | none => .onDisk data (!(cleanup && d.cleanupOk))
  | some .mentionsChunk => if d.removeOk then .nothing else fallback d data
  | some .other => fallback d data
  | some .unrelated => fallback d data

/-! ### helper.start_local_cluster -/

/-- helper.py 364–377: the number of workers with which the cluster is started (`memory.total / n_workers` (379)
raises ZeroDivisionError for 0 workers: `none`). -/
def startWorkers (n t physical logical : Nat) : Option Nat :=
  let n' := if physical < n * t then n else if logical < n * t then logical / t else n
  if n' = 0 then none else some n'

/-! ### _dependencies.DependencyTracker -/

/-- _dependencies.py 15–84: the names registered by `_check_all_dependencies`. -/
def trackedDeps : List String :=
  ["jax", "jaxlib", "dask_jobqueue", "psutil", "matplotlib", "cartopy", "seaborn", "cmocean", "pillow"]

/-- _dependencies.py 18–23 (and the eight like it): the body of the `try` is `pass`, so the import error never
occurs: every name is registered as available in every environment `_installed`. -/
def depTable (_installed : String → Bool) : List (String × Bool) := trackedDeps.map fun n => (n, true)

/-- _dependencies.py 86–88. -/
def hasDependency (installed : String → Bool) (n : String) : Bool :=
  ((depTable installed).lookup n).getD false

/-- _dependencies.py 106–116: the missing names; ImportError iff there is one. -/
def requireDependencies (installed : String → Bool) (deps : List String) : Except (List String) Unit :=
  let missing := deps.filter fun d => !hasDependency installed d
  if missing = [] then .ok () else .error missing

/-- _dependencies.py 153–155. -/
def missingDependencies (installed : String → Bool) : List String :=
  ((depTable installed).filter fun p => !p.2).map Prod.fst

/-- _dependencies.py 159–165. -/
def profiles : List (String × List String) :=
  [("full", ["jax", "jaxlib", "dask_jobqueue", "seaborn", "cmocean"]), ("plotting", ["seaborn", "cmocean"]),
   ("hpc", ["dask_jobqueue", "psutil"]), ("performance", ["jax", "jaxlib"]), ("minimal", [])]

/-- _dependencies.py 167–179: the first profile in the hierarchy (174) all of whose packages are reported available by `has_dependency`. -/
def profileOf (has : String → Bool) : String :=
  match profiles.find? (fun p => p.2.all has) with
  | some p => p.1
  | none => "minimal"

/-- _dependencies.py 157–179. -/
def installationProfile (installed : String → Bool) : String := profileOf (hasDependency installed)

/-! ### logging_config -/

/-- The module state: `_logger_configured`, `_current_verbosity_level`, and the level of the marEx logger and of its
handlers.  (Formats, handlers and the log file are left out.) -/
structure LogState where
  configured : Bool
  mode : Mode
  level : Nat

/-- logging_config.py 95–120 with `setLevel` (144): `configure_logging`. -/
def configureLogging (env : LogEnv) (level : Option Nat) (verbose quiet : Option Bool) (s : LogState) : LogState :=
  let v := verbose.getD env.verbose
  let q := quiet.getD env.quiet
  let v := if q && v then false else v
  if q then { s with mode := .quiet, level := level.getD 30 }
  else if v then { s with mode := .verbose, level := level.getD 10 }
  else { s with mode := .normal, level := level.getD env.level }

/-- logging_config.py 49–68 `get_logger`, 183–205 `set_*`. -/
def logStep (env : LogEnv) (s : LogState) : LogCall → LogState
  | .configure l v q => configureLogging env l v q s
  | .setVerbose v => configureLogging env none (some v) (some false) s
  | .setQuiet q => configureLogging env none (some false) (some q) s
  | .setNormal => configureLogging env none (some false) (some false) s
  | .getLogger name =>
    if !s.configured && name == "marEx" then { configureLogging env none none none s with configured := true } else s

/-- The state after a history of calls, from the state after import (`_current_verbosity_level = "normal"`,
logger level unset). -/
def logRun (env : LogEnv) (cs : List LogCall) : LogState :=
  cs.foldl (logStep env) ⟨false, .normal, 0⟩

/-! ### exceptions -/

/-- exceptions.py 36–53: a marEx exception; `text` is what `str(e)` shows, built once at construction. -/
structure MarExErr where
  cls : ErrClass
  message : String
  details : Option String
  suggestions : List String
  code : Option String
  context : List (String × String)
  cause : Option (String × String)
  text : String

/-- exceptions.py 55–73 `_format_error_message`. -/
def formatError (message : String) (details : Option String) (suggestions : List String) (code : Option String)
    (context : List (String × String)) : String :=
  String.intercalate "\n" <|
    [message]
    ++ (match details with | some d => if d = "" then [] else ["Details: " ++ d] | none => [])
    ++ (if context = [] then [] else ["Context: " ++ String.intercalate ", " (context.map fun p => p.1 ++ "=" ++ p.2)])
    ++ (if suggestions = [] then [] else
        ["Suggestions:\n" ++ String.intercalate "\n" (suggestions.map fun s => "  - " ++ s)])
    ++ (match code with | some c => if c = "" then [] else ["Error Code: " ++ c] | none => [])

/-- The default error codes of the constructors (exceptions.py 115, 144, 173, 210, 248, 288, 328). -/
def defaultCode : ErrClass → Option String
  | .base => none
  | .dataValidation => some "DATA_VALIDATION"
  | .coordinate => some "COORDINATE_ERROR"
  | .processing => some "PROCESSING_ERROR"
  | .configuration => some "CONFIGURATION_ERROR"
  | .dependency => some "DEPENDENCY_ERROR"
  | .tracking => some "TRACKING_ERROR"
  | .visualisation => some "VISUALISATION_ERROR"

/-- exceptions.py 36–53 with the default code of the class. -/
def mkError (cls : ErrClass) (message : String) (details : Option String) (suggestions : List String)
    (context : List (String × String)) : MarExErr :=
  { cls, message, details, suggestions, code := defaultCode cls, context, cause := none,
    text := formatError message details suggestions (defaultCode cls) context }

/-- exceptions.py 75–77. -/
def MarExErr.addSuggestion (e : MarExErr) (s : String) : MarExErr := { e with suggestions := e.suggestions ++ [s] }

/-- exceptions.py 79–81 (a new key goes to the end of the dict, an old key keeps its place). -/
def MarExErr.addContext (e : MarExErr) (k v : String) : MarExErr :=
  { e with context := if e.context.any (·.1 == k) then e.context.map (fun p => if p.1 == k then (k, v) else p)
                      else e.context ++ [(k, v)] }

/-- exceptions.py 423–431 `EXCEPTION_MAP`. -/
def exceptionMap : List (String × ErrClass) :=
  [("ValueError", .dataValidation), ("RuntimeError", .processing), ("TypeError", .dataValidation),
   ("KeyError", .configuration), ("AttributeError", .configuration), ("ImportError", .dependency),
   ("ModuleNotFoundError", .dependency)]

/-- exceptions.py 434–476 `wrap_exception`; the original exception is given by the name of its type and its text. -/
def wrapException (original : String × String) (message : Option String) (cls : Option ErrClass) : MarExErr :=
  let cls := cls.getD ((exceptionMap.lookup original.1).getD .base)
  let message := message.getD original.2
  { mkError cls message (some ("Original " ++ original.1 ++ ": " ++ original.2)) []
      [("original_exception_type", original.1)] with cause := some original }

end MarEx

namespace MarEx
open Spec

/-- helper.py 340–341, detect.py 531–532, 1016–1017, 1209–1210, track.py 351–352, plotX/base.py 132–133: the
`verbose`/`quiet` arguments of a package function. -/
def packageLogging (env : LogEnv) (verbose quiet : Option Bool) (s : LogState) : LogState :=
  if verbose.isSome || quiet.isSome then configureLogging env none verbose quiet s else s

/-- Python dict update: later entries replace values in place, new keys go to the end. -/
def dictSet (ctx : List (String × String)) (k v : String) : List (String × String) :=
  if ctx.any (·.1 == k) then ctx.map (fun p => if p.1 == k then (k, v) else p) else ctx ++ [(k, v)]

/-- exceptions.py 338–360 `create_data_validation_error(message, data_info, context=ctx)` (and, with another class,
415–419 `create_processing_error`): the new exception and the caller's dict afterwards – `kwargs.get("context")` is the
caller's dict itself, updated in place. -/
def createError (cls : ErrClass) (message : String) (info ctx : List (String × String)) :
    MarExErr × List (String × String) :=
  let ctx' := info.foldl (fun c p => dictSet c p.1 p.2) ctx
  (mkError cls message none [] ctx', ctx')

end MarEx
