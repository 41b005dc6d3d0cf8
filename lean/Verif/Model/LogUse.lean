import Verif.Model.Support
import Mathlib.Data.Rat.Floor
/-! Model of how `logging_config.py` is used around computations: `log_timing` (287–340), `log_function_call` (448–503),
`log_progress` (413–445), `create_progress_bar` (343–375) and the handlers installed by `configure_logging` (71–180). -/
namespace MarEx
open Spec

/-- An exception that ends a computation: of class `Exception` (caught by `except Exception`), or a `KeyboardInterrupt`
or `SystemExit`, which is not. -/
inductive Raised
  | exc (name : String)
  | base (name : String)
deriving DecidableEq, Repr

/-- A line of the log: what happened to the operation. -/
inductive LogLine | starting | completed | failed | calling
deriving DecidableEq, Repr

/-- logging_config.py 308–340, `with log_timing(...): body`.  `body` is what the body gives, `dur` the time measured.
In verbose mode the closing line contains `1/duration` (332): ZeroDivisionError, inside the `try`, when the clock did not
advance.  Simplification: the lines about memory are left out. -/
def logTiming {α : Type} (verbose : Bool) (dur : ℚ) (body : Except Raised α) : List LogLine × Except Raised α :=
  match body with
  | .ok a =>
    if verbose && dur == 0 then ([.starting, .failed], .error (.exc "ZeroDivisionError"))
    else ([.starting, .completed], .ok a)
  | .error (.exc e) => ([.starting, .failed], .error (.exc e))
  | .error (.base e) => ([.starting], .error (.base e))

/-- An argument as the decorator sees it: its `repr`, or the exception that `repr` raises. -/
abbrev ArgRepr := Except Raised String

/-- The first exception among the texts, or all of them. -/
def reprs : List ArgRepr → Except Raised (List String)
  | [] => .ok []
  | .error e :: _ => .error e
  | .ok s :: l => match reprs l with | .ok t => .ok (s :: t) | .error e => .error e

/-- logging_config.py 482–483. -/
def cutText (params : String) : String :=
  if 200 < params.length then String.ofList (params.toList.take 200) ++ "..." else params

/-- logging_config.py 472–483: the parameters as logged: the first three positional and the first three keyword
arguments, cut after 200 characters. -/
def paramText (args : List ArgRepr) (kwargs : List (String × ArgRepr)) : Except Raised String :=
  match reprs (args.take 3) with
  | .error e => .error e
  | .ok a =>
    match reprs ((kwargs.take 3).map Prod.snd) with
    | .error e => .error e
    | .ok k =>
      let a := if 3 < args.length then a ++ ["... +" ++ toString (args.length - 3) ++ " more"] else a
      let kw := List.zipWith (fun p v => p.1 ++ "=" ++ v) (kwargs.take 3) k
      let kw := if 3 < kwargs.length then kw ++ ["... +" ++ toString (kwargs.length - 3) ++ " more"] else kw
      let params := String.intercalate ", " (a ++ kw)
      .ok (cutText params)

/-- logging_config.py 466–501, a call of a function decorated with `log_function_call`: the lines logged, whether the
function was entered, and what the caller gets.  `func` is what the undecorated call gives. -/
def logFunctionCall {α : Type} (args : List ArgRepr) (kwargs : List (String × ArgRepr)) (func : Except Raised α) :
    List LogLine × Bool × Except Raised α :=
  match paramText args kwargs with
  | .error e => ([], false, .error e)
  | .ok _ =>
    match func with
    | .ok a => ([.calling, .completed], true, .ok a)
    | .error (.exc e) => ([.calling, .failed], true, .error (.exc e))
    | .error (.base e) => ([.calling], true, .error (.base e))

/-- logging_config.py 430–445 `log_progress`: whether a line is logged.  Simplification: the percentage is an exact
number; `frequency` is a positive whole number (0 would raise). -/
def logsProgress (mode : Mode) (current total freq : Nat) : Bool :=
  if mode = .quiet then false
  else if total = 0 then false
  else
    let percentage : ℚ := (current : ℚ) / total * 100
    decide (percentage - freq * ⌊percentage / freq⌋ = 0) || current == total

/-- logging_config.py 360–365 `create_progress_bar`: whether there is a bar. -/
def hasProgressBar (mode : Mode) (hasTqdm : Bool) (disable : Option Bool) : Bool :=
  let disable := disable.getD (decide (mode = .quiet) || !hasTqdm)
  !(disable || !hasTqdm)

/-- A place to which the marEx logger writes, with its own level. -/
inductive Handler
  | console (level : Nat)
  | file (path : String) (level : Nat)
deriving DecidableEq, Repr

/-- The arguments of `configure_logging` that matter for the handlers, after the level has been chosen. -/
structure HandlerCall where
  level : Nat
  console : Bool := true
  logFile : Option String := none

/-- logging_config.py 122–124, 146–172: the handlers after `configure_logging`; those of before are removed.  `envFile`
is MAREX_LOG_FILE. -/
def configureHandlers (envFile : Option String) (c : HandlerCall) (_before : List Handler) : List Handler :=
  let file := match c.logFile with | some f => some f | none => envFile
  (if c.console then [Handler.console c.level] else []) ++
  (match file with | some f => [Handler.file f c.level] | none => [])

/-- The handlers and the level of the logger after a history of configuring calls. -/
def handlersAfter (envFile : Option String) (cs : List HandlerCall) : Option Nat × List Handler :=
  cs.foldl (fun s c => (some c.level, configureHandlers envFile c s.2)) (none, [])

/-- The standard `logging` package (trusted): a message reaches each handler whose level it has, if it has the level of the
logger. -/
def emitted (s : Option Nat × List Handler) (msgLevel : Nat) : List Handler :=
  match s.1 with
  | none => []
  | some l => if l ≤ msgLevel then s.2.filter (fun h => match h with | .console k => decide (k ≤ msgLevel) | .file _ k => decide (k ≤ msgLevel)) else []

/-- The configuring call made by a package function given `verbose` or `quiet` (detect.py 531–532, track.py 351–352,
…), and by `set_verbose_mode`, `set_quiet_mode` and `set_normal_logging` (183–205): a level, and nothing else. -/
def switchCall (level : Nat) : HandlerCall := { level }

end MarEx
