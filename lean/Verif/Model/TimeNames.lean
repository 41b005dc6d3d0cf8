import Verif.Model.Tracker
/-!
# Model of the names of the time coordinate, of the form of the result, and of the warnings that a tracker hides

`/repo/marEx/track.py` 568–576, 1120–1154, 1227–1232, 1398–1408, 2933–2935, 4404, 4749.
-/
namespace MarEx
open Spec

/-- The coordinates of an array by name. -/
abbrev Coords := String → Option (List ℚ)

/-- Track.py 568–576: if the time coordinate is not named after the time dimension, `set_index` makes it the coordinate of that name and removes
it under its own. -/
def timeIndexed (a : Args) (cs : Coords) : Coords :=
  if a.timecoord ≠ a.timedim then fun k => if k = a.timedim then cs a.timecoord else if k = a.timecoord then none else cs k else cs

/-- Track.py 2933–2935: the events of `cluster_rename_objects_and_props` get the values of the time dimension under the name of the time
coordinate, beside those under the name of the dimension. -/
def addTimecoord (a : Args) (cs : Coords) : Coords := fun k => if k = a.timecoord then cs a.timedim else cs k

/-- Track.py 1400–1408: rename the coordinate back, if the events have only the one named after the dimension. -/
def restoreTime (a : Args) (cs : Coords) : Coords :=
  if a.timecoord ≠ a.timedim ∧ (cs a.timedim).isSome ∧ (cs a.timecoord).isNone then
    fun k => if k = a.timecoord then cs a.timedim else if k = a.timedim then none else cs k
  else cs

/-- The coordinates of the events that `run()` returns, from those of the array in the constructor (track.py 1388–1408).  On meshes
`object_id_field_unique[self.timecoord]` is read (track.py 4404 in every iteration, 4749 in any case).  Only the names and values of the coordinates
along time are followed; other errors of the run are not part of this model. -/
def eventCoords (a : Args) (allowMerging : Bool) (cs : Coords) : Except CErr Coords :=
  let cs := timeIndexed a cs
  if a.unstructured then
    match cs a.timecoord with
    | none => .error .key
    | some _ => .ok (restoreTime a (addTimecoord a cs))
  else .ok (restoreTime a (if allowMerging then addTimecoord a cs else cs))

/-- What `run` returns (track.py 1227–1232). -/
inductive RunReturn (ε μ : Type)
  | events (e : ε)
  | pair (e : ε) (m : μ)

/-- Track.py 1227–1232. -/
def runReturn {ε μ : Type} (allowMerging returnMerges : Bool) (e : ε) (m : μ) : RunReturn ε μ :=
  if allowMerging && returnMerges then .pair e m else .events e

/-- A message of the scheduler's logger: its level, and which of the three known texts it contains (track.py 1131–1139). -/
structure SchedMsg where
  level : Int
  runSpec : Bool
  largeGraph : Bool
  slowdown : Bool

/-- The logger `distributed.scheduler` of the process: its level, and the filters attached so far, each with the debug level of the tracker that
added it. -/
structure SchedLogger where
  level : Int
  filters : List Int

/-- `filter_dask_warnings` (track.py 1127–1147): is the message kept? -/
def keepsMsg (debug : Int) (m : SchedMsg) : Bool :=
  if debug = 0 then !(m.runSpec || m.largeGraph || m.slowdown) else !m.runSpec

/-- `_configure_warnings` (track.py 1119–1149): below debug level 2 the level is set to `ERROR` (40) and a filter is added. -/
def configureWarnings (s : SchedLogger) (debug : Int) : SchedLogger :=
  if debug < 2 then ⟨40, s.filters ++ [debug]⟩ else s

/-- The logger after trackers with these debug levels were constructed. -/
def loggerAfter (s : SchedLogger) (debugs : List Int) : SchedLogger := debugs.foldl configureWarnings s

/-- Python's logging: a message is emitted if its level suffices and every filter keeps it. -/
def SchedLogger.shows (s : SchedLogger) (m : SchedMsg) : Bool := decide (s.level ≤ m.level) && s.filters.all fun d => keepsMsg d m

end MarEx
