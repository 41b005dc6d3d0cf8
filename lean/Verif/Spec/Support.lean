import Mathlib.Data.List.Basic
/-! Specification vocabulary for the support modules (`helper.py`, `_dependencies.py`, `logging_config.py`,
`exceptions.py`).  Nothing here refers to the model of the code. -/
namespace MarEx.Spec

/-- The chunk layouts that Zarr can store: every chunk but the last has the size of the first, the last is not larger. -/
def ZarrLayout (c : List Nat) : Prop :=
  ∃ s k r, c = List.replicate k s ++ [r] ∧ r ≤ s

/-- The value of a key in a dictionary. -/
def lookup (d : List (String × String)) (k : String) : Option String := (d.find? fun p => p.1 = k).map Prod.snd

/-- The three verbosity modes. -/
inductive Mode | quiet | normal | verbose
deriving DecidableEq, Repr

/-- The settings taken from the environment when the package is imported. -/
structure LogEnv where
  verbose : Bool
  quiet : Bool
  /-- numeric level named by MAREX_LOG_LEVEL -/
  level : Nat

/-- The mode selected by the two switches: quiet takes precedence over verbose. -/
def modeOf (verbose quiet : Bool) : Mode :=
  match verbose, quiet with
  | _, true => .quiet
  | true, false => .verbose
  | false, false => .normal

/-- The level that belongs to a mode (30 = WARNING, 10 = DEBUG). -/
def levelOf (env : LogEnv) : Mode → Nat
  | .quiet => 30
  | .verbose => 10
  | .normal => env.level

/-- What a user can do to the logging system. -/
inductive LogCall
  /-- `configure_logging(level=…, verbose=…, quiet=…)` -/
  | configure (level : Option Nat) (verbose quiet : Option Bool)
  | setVerbose (v : Bool)
  | setQuiet (q : Bool)
  | setNormal
  /-- `get_logger(name)` -/
  | getLogger (name : String)
deriving DecidableEq

/-- The switches and level a call asks for; `none` if the call does not ask for a mode. -/
def LogCall.asks (env : LogEnv) : LogCall → Option (Bool × Bool × Option Nat)
  | .configure l v q => some (v.getD env.verbose, q.getD env.quiet, l)
  | .setVerbose v => some (v, false, none)
  | .setQuiet q => some (false, q, none)
  | .setNormal => some (false, false, none)
  | .getLogger _ => none

/-- The marEx exception classes. -/
inductive ErrClass | base | dataValidation | coordinate | processing | configuration | dependency | tracking | visualisation
deriving DecidableEq, Repr

/-- The documented class for a standard exception, by the name of its type. -/
def mappedClass (name : String) : ErrClass :=
  if name = "ValueError" ∨ name = "TypeError" then .dataValidation
  else if name = "RuntimeError" then .processing
  else if name = "KeyError" ∨ name = "AttributeError" then .configuration
  else if name = "ImportError" ∨ name = "ModuleNotFoundError" then .dependency
  else .base

end MarEx.Spec
