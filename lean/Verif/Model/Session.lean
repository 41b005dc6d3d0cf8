import Verif.Model.Cluster
/-! Model of a Python session that uses the cluster helpers, `preprocess_data`, checkpoints and animations: what they do to
the configuration of dask and where their temporary files go.

`helper.py` 88–138 (`configure_dask`), 232–411, 414–640 (the clusters, modelled in `Cluster.lean`), 684–690
(`checkpoint_to_zarr`: the directory), 541–568 of `detect.py` (`preprocess_data`) and `plotX/base.py` 445–449 (`animate`:
the directory of the frames).

Contract of `tempfile.TemporaryDirectory` (trusted): the directory is removed when the last reference to the object is
gone; the client keeps one (`client._temp_dir`, helper.py 395, 633).  Contract of dask (trusted): `temporary-directory` and
`temporary_directory` are one setting.  Simplification: directories are compared by name, a checkpoint is a name in a
directory, and a traceback that keeps the variables of a failed call alive is not considered. -/
namespace MarEx
open Spec

/-- The session: configuration, clusters and verbosity; the directories that exist (other than the system's own temporary
directory, which always does); the checkpoints on disk, each with the directory it is in. -/
structure Session where
  world : World
  dirs : List String
  files : List (String × String)

/-- What happens in a session. -/
inductive Op
  | startLocal (env : LogEnv) (site : Site) (workers threads : Nat) (verbose quiet : Option Bool)
  | startDistributed (env : LogEnv) (site : Site) (installed : String → Bool) (a : SlurmArgs) (verbose quiet : Option Bool)
  /-- `configure_dask(scratch_dir, config)` that makes the directory `tmp`; `kept`: the caller keeps the returned object -/
  | configure (tmp : String) (config : List (String × String)) (kept : Bool)
  /-- the user's own `dask.config.set` -/
  | userSet (kv : List (String × String))
  /-- a directory goes: the client is closed and forgotten, or somebody deletes it -/
  | removed (dir : String)
  /-- `preprocess_data`; `accepted`: the checks of detect.py 541–564 pass -/
  | preprocess (accepted : Bool)
  /-- `checkpoint_to_zarr` that writes the store with the (unique) name `id` -/
  | checkpoint (id : String)

/-- helper.py 684–690: the directory of a checkpoint; `sys` is `gettempdir()`. -/
def checkpointDir (sys : String) (s : Session) : String :=
  match s.world.cfg "temporary_directory" with
  | none => sys
  | some d => if s.dirs.contains d then d else sys

/-- plotX/base.py 446–449: the directory in which `animate` makes its own (`mkdtemp(dir=…)` raises FileNotFoundError, here
`none`, when it does not exist). -/
def framesDir (sys : String) (s : Session) : Option String :=
  match s.world.cfg "temporary_directory" with
  | none => some sys
  | some d => if d = sys || s.dirs.contains d then some d else none

/-- detect.py 567–568. -/
def splitLarge : List (String × String) := [("array.slicing.split_large_chunks", "True")]

/-- The effect of one operation. -/
def sessionStep (sys : String) (s : Session) : Op → Session
  | .startLocal env site n t v q =>
    let r := startLocal env site n t v q s.world
    { s with world := r.1, dirs := match r.2 with | .ok _ => site.tmp :: s.dirs | .error _ => s.dirs }
  | .startDistributed env site installed a v q =>
    let r := startDistributed env site installed a v q s.world
    { s with world := r.1, dirs := match r.2 with | .ok _ => site.tmp :: s.dirs | .error _ => s.dirs }
  | .configure tmp config kept =>
    { s with world := { s.world with cfg := configureDask tmp config s.world.cfg }, dirs := if kept then tmp :: s.dirs else s.dirs }
  | .userSet kv => { s with world := { s.world with cfg := daskSet s.world.cfg kv } }
  | .removed d => { s with dirs := s.dirs.filter (· != d), files := s.files.filter (·.2 != d) }
  | .preprocess accepted =>
    if accepted then { s with world := { s.world with cfg := daskSet s.world.cfg splitLarge } } else s
  | .checkpoint id => { s with files := (id, checkpointDir sys s) :: s.files }

/-- A history. -/
def session (sys : String) (s : Session) (ops : List Op) : Session := ops.foldl (sessionStep sys) s

/-- The data of a checkpoint can be computed: its store is on disk (the reloaded data are lazy, helper.py 727–731). -/
def readable (s : Session) (id : String) : Bool := s.files.any (·.1 == id)

end MarEx
