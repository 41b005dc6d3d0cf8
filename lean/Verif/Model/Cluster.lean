import Verif.Model.Support
import Verif.Spec.Cluster
/-! Model of `helper.py` 42–640: `configure_dask`, `get_cluster_info`, `start_local_cluster`,
`start_distributed_cluster`.

The world is the configuration of dask, the verbosity of marEx and the clusters that run.  Simplifications: log lines
and printing are left out; the settings are named by their canonical dotted names, none of which is a prefix of
another (so that `dask.config.set` changes exactly the named settings); temporary directories get a name from the
operating system, given as an argument; that the scratch directory can be made is given as an argument. -/
namespace MarEx
open Spec

/-- helper.py 44–68 `DEFAULT_DASK_CONFIG`, in order. -/
def daskDefaults : List (String × String) :=
  [("array.slicing.split_large_chunks", "False"), ("array.chunk-size", "24MiB"),
   ("distributed.worker.memory.target", "0.4"), ("distributed.worker.memory.spill", "0.5"),
   ("distributed.worker.memory.pause", "0.6"), ("distributed.worker.memory.terminate", "0.8"),
   ("distributed.worker.memory.recent-to-old-time", "10s"), ("distributed.worker.daemon", "False"),
   ("distributed.scheduler.allowed-failures", "50"), ("distributed.scheduler.work-stealing", "False"),
   ("distributed.scheduler.worker-ttl", "600s"), ("distributed.comm.timeouts.connect", "300s"),
   ("distributed.comm.timeouts.tcp", "300s"), ("distributed.comm.retry.count", "15"),
   ("distributed.comm.retry.delay.min", "3s"), ("distributed.comm.retry.delay.max", "30s"),
   ("distributed.admin.log-format", "%(name)s - %(levelname)s - %(message)s")]

/-- Contract of `dask.config.set` with one or several settings (trusted): each named setting gets its value, in turn. -/
def daskSet (c : DaskCfg) (kv : List (String × String)) : DaskCfg :=
  kv.foldl (fun c p k => if k = p.1 then some p.2 else c k) c

/-- helper.py 90–139 `configure_dask`: the configuration afterwards; `tmp` is the name of the new temporary directory. -/
def configureDask (tmp : String) (config : List (String × String)) (c : DaskCfg) : DaskCfg :=
  let c := daskSet c [("temporary_directory", tmp)]
  let c := daskSet c daskDefaults
  if config = [] then c else daskSet c config

/-- The match of `:(\d+)/` at the start of the text (helper.py 215): the digits.  (`\d+` is greedy; taking fewer digits
would have to be followed by a digit instead of `/`.) -/
def portHere (isDigit : Char → Bool) : List Char → Option (List Char)
  | ':' :: rest =>
    let p := rest.takeWhile isDigit
    if p ≠ [] ∧ (rest.dropWhile isDigit).head? = some '/' then some p else none
  | _ => none

/-- helper.py 215 `re.search`: the leftmost match. -/
def findPort (isDigit : Char → Bool) : List Char → Option (List Char)
  | [] => none
  | c :: rest =>
    match portHere isDigit (c :: rest) with
    | some p => some p
    | none => findPort isDigit rest

/-- What `get_cluster_info` returns. -/
structure ClusterInfo where
  hostname : List Char
  port : List Char
  link : List Char

/-- Why a call of the cluster helpers fails. -/
inductive ClusterErr | zeroDivision | scratch | memory | notCallable | noPort | importError
deriving DecidableEq, Repr

/-- helper.py 141–229 `get_cluster_info`: `host` is the output of `hostname` (stripped), `link` the dashboard link. -/
def clusterInfo (isDigit : Char → Bool) (host link : List Char) : Except ClusterErr ClusterInfo :=
  match findPort isDigit link with
  | none => .error .noPort
  | some p => .ok ⟨host.takeWhile (· ≠ '.'), p, "localhost:".toList ++ p ++ "/status".toList⟩

/-- helper.py 588–589, 615: the text of the time limit, `f"{runtime_hrs:02d}:{runtime_mins:02d}:00"`. -/
def pad2 (n : Nat) : List Char := if n < 10 then '0' :: Nat.toDigits 10 n else Nat.toDigits 10 n

/-- helper.py 588–589, 615. -/
def walltime (runtime : Nat) : List Char := pad2 (runtime / 60) ++ ':' :: pad2 (runtime % 60) ++ [':', '0', '0']

/-- helper.py 75–87 `MEMORY_CONFIGS`: memory given to a job (GB) and the extra directive. -/
def memoryConfigs : List (Nat × Nat × String) :=
  [(256, 250, "--mem=0"), (512, 500, "--constraint=512G --mem=0"), (1024, 1000, "--constraint=1024G --mem=0")]

/-- The job that SLURM is asked for, and the number of workers asked of the cluster (helper.py 607–629). -/
structure SlurmRequest where
  cores : Nat
  processes : Nat
  memoryGB : Nat
  directive : String
  queue : String
  account : String
  walltime : List Char
  localDir : String
  schedulerOptions : List (String × String)
  scale : Nat
deriving DecidableEq

/-- A cluster that was started. -/
inductive Cluster
  | local (workers threads : Nat)
  | slurm (r : SlurmRequest)
deriving DecidableEq

/-- What the helpers change. -/
structure World where
  cfg : DaskCfg
  log : LogState
  running : List Cluster

/-- The setting written before either cluster is created (helper.py 387, 597). -/
def bokehSetting : List (String × String) :=
  [("distributed.scheduler.dashboard.bokeh-application.session_token_expiration", "86400000")]

/-- What the machine and the operating system answer during a call. -/
structure Site where
  physical : Nat
  logical : Nat
  tmp : String
  scratchOk : Bool := true
  /-- `dask_jobqueue` can be imported -/
  jobqueue : Bool := true
  host : List Char := "node".toList
  /-- the dashboard link of the new cluster -/
  link : List Char
  isDigit : Char → Bool

/-- helper.py 232–411 `start_local_cluster`: the world afterwards, and the new client (its cluster) or an exception. -/
def startLocal (env : LogEnv) (site : Site) (n t : Nat) (verbose quiet : Option Bool) (w : World) :
    World × Except ClusterErr (Cluster × ClusterInfo) :=
  let w := { w with log := packageLogging env verbose quiet w.log }
  if !site.scratchOk then (w, .error .scratch)
  else
    let w := { w with cfg := configureDask site.tmp [] w.cfg }
    match startWorkers n t site.physical site.logical with
    | none => (w, .error .zeroDivision)
    | some n' =>
      let w := { w with cfg := daskSet w.cfg bokehSetting, running := w.running ++ [.local n' t] }
      match clusterInfo site.isDigit site.host site.link with
      | .error e => (w, .error e)
      | .ok i => (w, .ok (.local n' t, i))

/-- Python's `{"dashboard_address": …, **user}` (helper.py 601–602). -/
def schedulerOptions (port : String) (user : List (String × String)) : List (String × String) :=
  user.foldl (fun o p => dictSet o p.1 p.2) [("dashboard_address", ":" ++ port)]

/-- The arguments of `start_distributed_cluster` (helper.py 414–426), runtime in minutes. -/
structure SlurmArgs where
  workers : Nat
  perNode : Nat
  runtime : Nat := 9
  memory : Nat := 256
  dashboard : String := "8889"
  queue : String := "compute"
  account : Option String := none
  options : List (String × String) := []

/-- helper.py 552: the number of nodes that the call reports. -/
def nodesReported (a : SlurmArgs) : Nat := a.workers / a.perNode

/-- helper.py 414–640 `start_distributed_cluster`.  The arguments `verbose` and `quiet` are accepted and not used.
`SLURMCluster is None` (no `dask_jobqueue`): `require_dependencies` (559) decides, and if it does not raise, the call
of `SLURMCluster` (607) raises TypeError.  Further keyword arguments for `SLURMCluster` are left out. -/
def startDistributed (_env : LogEnv) (site : Site) (installed : String → Bool) (a : SlurmArgs)
    (_verbose _quiet : Option Bool) (w : World) : World × Except ClusterErr (Cluster × ClusterInfo) :=
  if a.perNode = 0 then (w, .error .zeroDivision)
  else if !site.jobqueue && !(requireDependencies installed ["dask_jobqueue"]).isOk then (w, .error .importError)
  else if !site.scratchOk then (w, .error .scratch)
  else
    let w := { w with cfg := configureDask site.tmp [] w.cfg }
    match memoryConfigs.lookup a.memory with
    | none => (w, .error .memory)
    | some (gb, directive) =>
      let w := { w with cfg := daskSet w.cfg bokehSetting }
      if !site.jobqueue then (w, .error .notCallable)
      else
        let r : SlurmRequest :=
          { cores := a.perNode, processes := a.perNode, memoryGB := gb, directive, queue := a.queue,
            account := a.account.getD "bk1377", walltime := walltime a.runtime, localDir := site.tmp,
            schedulerOptions := schedulerOptions a.dashboard a.options, scale := a.workers }
        let w := { w with running := w.running ++ [.slurm r] }
        match clusterInfo site.isDigit site.host site.link with
        | .error e => (w, .error e)
        | .ok i => (w, .ok (.slurm r, i))

end MarEx
