import Verif.Model.LogUse
import Verif.Model.Support
import Mathlib.Data.List.Infix
/-! Model of what marEx does to the loggers of other libraries (`_configure_external_loggers`, logging_config.py 228–243), of the level of its own logger
(logging_config.py 39, 96–121, 142), of `log_dask_info` (506–543), `progress_bar` (378–410), `log_memory_usage` (246–284) and of what
`_dependencies.py` prints and warns about (118–137, 181–210, 242–250). -/
namespace MarEx

/-! ### Loggers of other libraries -/

/-- The dotted name of a logger, as the list of its parts; `[]` is the root logger. -/
abbrev LoggerName := List String

/-- The levels of the loggers of a process; 0 is `NOTSET`. -/
abbrev Levels := LoggerName → Nat

/-- logging_config.py 230–240. -/
def externalLoggers : List LoggerName :=
  [["distributed", "scheduler"], ["distributed", "worker"], ["distributed", "shuffle", "_scheduler_plugin"], ["distributed", "comm"],
   ["distributed", "core"], ["tornado", "access"], ["asyncio"], ["matplotlib", "font_manager"], ["PIL", "PngImagePlugin"]]

/-- What can happen to the levels. -/
inductive LevelCall
  /-- `configure_logging(disable_external_loggers=…)`; the first `get_logger("marEx")` of a process calls it with the default `True` (logging_config.py 64–66) -/
  | configure (disable : Bool)
  /-- a package function with its `verbose`/`quiet` arguments, or (with one of them) `set_verbose_mode` and the like -/
  | package (verbose quiet : Option Bool)
  /-- a tracker is constructed with this debug level -/
  | tracker (debug : Int)
  /-- the application sets the level of a logger -/
  | app (name : LoggerName) (level : Nat)

/-- logging_config.py 242–243: `setLevel(logging.ERROR)` for each of them. -/
def quietenExternal (lv : Levels) : Levels := fun n => if n ∈ externalLoggers then 40 else lv n

/-- One call: logging_config.py 174–175, 182–204 and the callers (helper.py 340, detect.py 531, 1016, 1209, track.py 351, plotX/base.py 133), which leave
`disable_external_loggers` at its default `True`; track.py 1121–1124; the application. -/
def levelStep (lv : Levels) : LevelCall → Levels
  | .configure disable => if disable then quietenExternal lv else lv
  | .package v q => if v.isSome || q.isSome then quietenExternal lv else lv
  | .tracker debug => if debug < 2 then Function.update lv ["distributed", "scheduler"] 40 else lv
  | .app n l => Function.update lv n l

/-- The levels after a history. -/
def levelsAfter (lv : Levels) (cs : List LevelCall) : Levels := cs.foldl levelStep lv

/-- The standard `Logger.getEffectiveLevel` (trusted): the first level that is set on the way from the logger to the root. -/
def effectiveLevel (lv : Levels) (n : LoggerName) : Nat := ((n.inits.reverse.map lv).find? (· != 0)).getD 0

/-- The standard `Logger.isEnabledFor` (trusted). -/
def passes (lv : Levels) (n : LoggerName) (m : Nat) : Bool := decide (effectiveLevel lv n ≤ m)

/-! ### The level of the marEx logger -/

/-- What an attribute of the module `logging` can be. -/
inductive LogAttr
  | level (n : Nat)
  | text (s : String)
  | other

/-- The attributes of the standard module `logging` whose names are their own upper case (Python 3.10–3.13). -/
def loggingAttr (name : String) : Option LogAttr :=
  if name = "CRITICAL" ∨ name = "FATAL" then some (.level 50)
  else if name = "ERROR" then some (.level 40)
  else if name = "WARNING" ∨ name = "WARN" then some (.level 30)
  else if name = "INFO" then some (.level 20)
  else if name = "DEBUG" then some (.level 10)
  else if name = "NOTSET" then some (.level 0)
  else if name = "BASIC_FORMAT" then some (.text "%(levelname)s:%(name)s:%(message)s")
  else if name = "_STYLES" then some .other
  else none

/-- The `level` argument. -/
inductive LevelArg
  | none
  | int (n : Nat)
  | str (s : String)

/-- `if isinstance(level, str): level = getattr(logging, level.upper(), DEFAULT_LOG_LEVEL)` (logging_config.py 120–121). `up` is `str.upper`. -/
def resolveText (up : String → String) : LogAttr → LogAttr
  | .text s => (loggingAttr (up s)).getD (.level 20)
  | a => a

/-- The standard `setLevel` (trusted): a number is taken, a text that names no level raises `ValueError`, anything else `TypeError`. -/
def setLevel : LogAttr → Except String Nat
  | .level n => .ok n
  | .text s => match loggingAttr s with
    | some (.level n) => .ok n
    | _ => .error "ValueError"
  | .other => .error "TypeError"

/-- The level of the marEx logger after `configure_logging(level, …)` (logging_config.py 39, 96–121, 142), `verbose` and `quiet` being the switches in force;
`env`: the environment variable `MAREX_LOG_LEVEL`, if set. -/
def levelInForce (up : String → String) (env : Option String) (verbose quiet : Bool) (level : LevelArg) : Except String Nat :=
  setLevel <| resolveText up <| match level with
    | .int n => .level n
    | .str s => .text s
    | .none =>
      if quiet then .level 30
      else if verbose then .level 10
      else (loggingAttr (up (env.getD "INFO"))).getD (.level 20)

/-! ### log_dask_info -/

/-- What `log_dask_info` asks of its argument: `chunks` as text if there is such an attribute, `shape` as text, the size, and the number of tasks if it is a
dask collection. -/
structure DaskView where
  chunks : Option (Except Raised String)
  size : Except Raised String
  shape : Except Raised String
  tasks : Option (Except Raised Nat)

/-- logging_config.py 523–525. -/
def cutChunks (s : String) : String := if 100 < s.length then String.ofList (s.toList.take 100) ++ "..." else s

/-- The `try` block (logging_config.py 519–540): the lines, and the exception that ends it. -/
def daskInfoBody (o : DaskView) (message : String) : List String × Except Raised Unit :=
  match o.chunks with
  | none => ([], .ok ())
  | some (.error e) => ([], .error e)
  | some (.ok c) => match o.size with
    | .error e => ([], .error e)
    | .ok b => match o.shape with
      | .error e => ([], .error e)
      | .ok s =>
        let text := "Dask object - Shape: " ++ s ++ ", Chunks: " ++ cutChunks c ++ ", Size: " ++ b
        let line := if message = "" then text else message ++ " - " ++ text
        match o.tasks with
        | none => ([line], .ok ())
        | some (.error e) => ([line], .error e)
        | some (.ok k) => ([line, "Dask graph size: " ++ toString k ++ " tasks"], .ok ())

/-- `log_dask_info` (logging_config.py 506–543). -/
def logDaskInfo (o : DaskView) (message : String) : List String × Except Raised Unit :=
  match daskInfoBody o message with
  | (ls, .error (.exc e)) => (ls ++ ["Could not log Dask info: " ++ e], .ok ())
  | r => r

/-! ### progress_bar -/

/-- `with progress_bar(total, desc, unit, logger): body` (logging_config.py 401–410). `bar`: there is a bar (`create_progress_bar`); `closing`: what its `close`
does; `logger`: a logger was given. Result: was the bar closed, the lines logged, and what the block gives. -/
def progressBar {α : Type} (bar : Bool) (closing : Except Raised Unit) (logger : Bool) (mode : Spec.Mode) (desc : String) (body : Except Raised α) :
    Bool × List String × Except Raised α :=
  if bar then
    match closing with
    | .ok _ => (true, [], body)
    | .error e => (true, [], .error e)
  else if logger && decide (mode ≠ .quiet) then (false, ["Completed " ++ desc], body)
  else (false, [], body)

/-! ### Memory in the log -/

/-- `with log_timing(..., log_memory=True): body` (logging_config.py 308–340) with `log_memory_usage` (264–284): `before` and `after` are what reading the
memory of the process gives; `level` is the level of the messages. Result: was the body entered, and what the block gives. -/
def logTimingMemory {α : Type} (verbose : Bool) (level : Nat) (dur : ℚ) (before after : Except Raised Unit) (body : Except Raised α) :
    Bool × Except Raised α :=
  let reads := verbose || decide (level ≤ 20)
  match (if reads then before else .ok ()) with
  | .error e => (false, .error e)
  | .ok _ => match body with
    | .error e => (true, .error e)
    | .ok a => match (if reads then after else .ok ()) with
      | .error e => (true, .error e)
      | .ok _ => (true, (logTiming verbose dur (.ok a)).2)

/-! ### What is said about packages -/

/-- A line of `print_dependency_status`. -/
inductive StatusLine
  | profile (name : String)
  | category (name : String)
  | package (name : String) (available : Bool)
  | suggestions
  deriving DecidableEq

/-- _dependencies.py 189–194. -/
def statusCategories : List (String × List String) :=
  [("Performance", ["jax", "jaxlib"]), ("HPC", ["dask_jobqueue", "psutil"]), ("Visualisation", ["matplotlib", "cartopy", "seaborn", "cmocean"]),
   ("Core", ["pillow"])]

/-- `print_dependency_status` (_dependencies.py 181–210) for a table of packages. The heading is left out; the five lines of suggestions are one entry. -/
def statusLines (table : List (String × Bool)) : List StatusLine :=
  [.profile (profileOf fun n => (table.lookup n).getD false)] ++
  statusCategories.flatMap (fun c => .category c.1 :: c.2.filterMap fun d => (table.lookup d).map fun b => .package d b) ++
  (if (table.filter fun p => !p.2).isEmpty then [] else [.suggestions])

/-- `warn_missing_dependency` (_dependencies.py 118–137): the package named in the warning, if there is one. -/
def warnMissing (has : String → Bool) (dep : String) : Option String := if has dep then none else some dep

/-- `_check_optional_dependencies_on_import` (_dependencies.py 243–247): the warning when the package is imported. -/
def importWarning (has : String → Bool) : Option String := if has "jax" then none else warnMissing has "jax"

end MarEx
