import Verif.Model.Cluster
import Verif.Props.Support
import Mathlib.Tactic
/-! # C94–C96: dask configuration, SLURM requests and the reported connection -/
namespace MarEx.Props
open Spec

theorem daskSet_apply (c : DaskCfg) (kv : List (String × String)) (k : String) :
    daskSet c kv k = (lastSetting kv k).or (c k) := by
  induction kv using List.reverseRecOn with
  | nil => simp [daskSet, lastSetting]
  | append_singleton l p ih =>
    rw [daskSet, List.foldl_append]
    simp only [List.foldl_cons, List.foldl_nil]
    by_cases h : k = p.1
    · subst h; simp [lastSetting]
    · have h' : (p.1 == k) = false := by simpa using fun hh => h hh.symm
      rw [if_neg h]
      have := ih
      rw [daskSet] at this
      rw [this]
      simp [lastSetting, List.find?_cons, h']

theorem lastSetting_of_mem {kv : List (String × String)} {k v : String} (hnd : (kv.map Prod.fst).Nodup)
    (h : (k, v) ∈ kv) : lastSetting kv k = some v := by
  unfold lastSetting
  have : ∃ p, kv.reverse.find? (fun p => p.1 == k) = some p := by
    rw [← Option.isSome_iff_exists, List.find?_isSome]
    exact ⟨(k, v), by simpa using h, by simp⟩
  obtain ⟨p, hp⟩ := this
  have hm : p ∈ kv := by simpa using List.mem_of_find?_eq_some hp
  have hk : p.1 = k := by simpa using List.find?_some hp
  have : p = (k, v) := by
    have := List.inj_on_of_nodup_map hnd hm h (by simpa using hk)
    exact this
  rw [hp, this]; rfl

theorem lastSetting_none {kv : List (String × String)} {k : String} :
    lastSetting kv k = none ↔ ∀ v, (k, v) ∉ kv := by
  unfold lastSetting
  rw [Option.map_eq_none_iff, List.find?_eq_none]
  constructor
  · intro h v hv
    exact h (k, v) (by simpa using hv) (by simp)
  · rintro h ⟨a, b⟩ hp he
    have : a = k := by simpa using he
    subst this
    exact h b (by simpa using hp)

theorem daskDefaults_nodup : (daskDefaults.map Prod.fst).Nodup := by decide +kernel

theorem configureDask_apply (tmp : String) (config : List (String × String)) (c : DaskCfg) (k : String) :
    configureDask tmp config c k =
      (lastSetting config k).or ((lastSetting daskDefaults k).or
        ((lastSetting [("temporary_directory", tmp)] k).or (c k))) := by
  unfold configureDask
  split
  · next h => subst h; rw [daskSet_apply, daskSet_apply]; simp [lastSetting]
  · rw [daskSet_apply, daskSet_apply, daskSet_apply]

/-- **C94** `configure_dask(scratch_dir, config)`: for every setting, what the caller passes in `config` decides (the
last entry, if a setting is named twice); a setting they do not pass has the default of the package; `temporary_directory`
is the directory made for the session; every other setting keeps the value it had. -/
theorem C94_precedence (tmp : String) (config : List (String × String)) (c : DaskCfg) :
    (∀ k v, lastSetting config k = some v → configureDask tmp config c k = some v) ∧
    (∀ k v, (∀ u, (k, u) ∉ config) → (k, v) ∈ daskDefaults → configureDask tmp config c k = some v) ∧
    ((∀ u, ("temporary_directory", u) ∉ config) → configureDask tmp config c "temporary_directory" = some tmp) ∧
    (∀ k, (∀ u, (k, u) ∉ config) → (∀ u, (k, u) ∉ daskDefaults) → k ≠ "temporary_directory" →
      configureDask tmp config c k = c k) := by
  refine ⟨fun k v h => ?_, fun k v h hd => ?_, fun h => ?_, fun k h hd ht => ?_⟩
  · rw [configureDask_apply, h]; rfl
  · rw [configureDask_apply, lastSetting_none.2 h, lastSetting_of_mem daskDefaults_nodup hd]; rfl
  · rw [configureDask_apply, lastSetting_none.2 h, show lastSetting daskDefaults "temporary_directory" = none from by
      decide +kernel]
    simp [lastSetting]
  · rw [configureDask_apply, lastSetting_none.2 h, lastSetting_none.2 hd]
    have : lastSetting [("temporary_directory", tmp)] k = none := by
      rw [lastSetting_none]; intro v hv; simp at hv; exact ht hv.1
    rw [this]; rfl

/-- The caller's spill threshold wins over the default; the pause threshold is the default; an unrelated setting stays. -/
example : let c := configureDask "/tmp/x" [("distributed.worker.memory.spill", "0.7")] (fun k => if k = "a" then some "1" else none)
    c "distributed.worker.memory.spill" = some "0.7" ∧ c "distributed.worker.memory.pause" = some "0.6" ∧
    c "a" = some "1" ∧ c "temporary_directory" = some "/tmp/x" := by decide +kernel

/-- **C94** The defaults of the package, for every earlier configuration: memory limits of the workers, patience with
slow or failing workers, and the form of the log lines. -/
theorem C94_default_values (tmp : String) (c : DaskCfg) :
    [("array.slicing.split_large_chunks", "False"), ("array.chunk-size", "24MiB"), ("distributed.worker.memory.target", "0.4"),
     ("distributed.worker.memory.spill", "0.5"), ("distributed.worker.memory.pause", "0.6"),
     ("distributed.worker.memory.terminate", "0.8"), ("distributed.worker.memory.recent-to-old-time", "10s"),
     ("distributed.worker.daemon", "False"), ("distributed.scheduler.allowed-failures", "50"),
     ("distributed.scheduler.work-stealing", "False"), ("distributed.scheduler.worker-ttl", "600s"),
     ("distributed.comm.timeouts.connect", "300s"), ("distributed.comm.timeouts.tcp", "300s"),
     ("distributed.comm.retry.count", "15"), ("distributed.comm.retry.delay.min", "3s"),
     ("distributed.comm.retry.delay.max", "30s"),
     ("distributed.admin.log-format", "%(name)s - %(levelname)s - %(message)s"), ("temporary_directory", tmp)].Forall
      fun p => configureDask tmp [] c p.1 = some p.2 := by
  have key : ∀ p ∈ daskDefaults, configureDask tmp [] c p.1 = some p.2 := fun p hp =>
    (C94_precedence tmp [] c).2.1 p.1 p.2 (by simp) hp
  have ht := (C94_precedence tmp [] c).2.2.1 (by simp)
  simp only [daskDefaults, List.mem_cons, List.not_mem_nil, or_false, forall_eq_or_imp, forall_eq] at key
  simp only [List.forall_cons, List.Forall]
  tauto

/-- **C106** negative: the two functions that start a cluster configure dask with the defaults of the package and no
settings of the caller.  Whatever the user had set before (`dask.config.set`, a configuration file), starting a local
cluster replaces it for every setting in the table of defaults – also when the call then fails. -/
theorem C106_user_settings_replaced_fails (env : LogEnv) (site : Site) (hs : site.scratchOk = true) (n t : Nat)
    (verbose quiet : Option Bool) (w : World) (k v : String) (hk : (k, v) ∈ daskDefaults) :
    (startLocal env site n t verbose quiet w).1.cfg k = some v := by
  have key : ∀ c, configureDask site.tmp [] c k = some v := fun c =>
    (C94_precedence site.tmp [] c).2.1 k v (by simp) hk
  have hb : lastSetting bokehSetting k = none := by
    rw [lastSetting_none]
    intro u hu
    simp only [bokehSetting, List.mem_singleton, Prod.mk.injEq] at hu
    have : ∀ p ∈ daskDefaults, p.1 ≠ "distributed.scheduler.dashboard.bokeh-application.session_token_expiration" := by
      decide +kernel
    exact this _ hk hu.1
  unfold startLocal
  simp only [hs, Bool.not_true, Bool.false_eq_true, if_false]
  split
  · exact key _
  · split <;> simp only [daskSet_apply, hb, key] <;> rfl

/-- A user who had disabled spilling gets it back. -/
example (env : LogEnv) (log : LogState) :
    let w : World := ⟨fun k => if k = "distributed.worker.memory.spill" then some "False" else none, log, []⟩
    w.cfg "distributed.worker.memory.spill" = some "False" ∧
    (startLocal env { physical := 8, logical := 16, tmp := "/t", isDigit := Char.isDigit, link := [] } 4 1 none none w).1.cfg "distributed.worker.memory.spill" = some "0.5" :=
  ⟨rfl, C106_user_settings_replaced_fails env _ rfl 4 1 none none _ _ _ (by decide +kernel)⟩

/-- **C106** negative: `start_distributed_cluster` checks the memory of the nodes after it has configured dask: a call
that is rejected starts nothing, and yet leaves every default of the package in the configuration. -/
theorem C106_rejected_call_configures_fails (env : LogEnv) (site : Site) (hs : site.scratchOk = true)
    (hj : site.jobqueue = true) (installed : String → Bool) (a : SlurmArgs) (hp : a.perNode ≠ 0)
    (hm : a.memory ∉ [256, 512, 1024]) (verbose quiet : Option Bool) (w : World) :
    (startDistributed env site installed a verbose quiet w).2 = .error .memory ∧
    (startDistributed env site installed a verbose quiet w).1.running = w.running ∧
    ∀ k v, (k, v) ∈ daskDefaults → (startDistributed env site installed a verbose quiet w).1.cfg k = some v := by
  have hl : memoryConfigs.lookup a.memory = none := by
    simp only [List.mem_cons, List.not_mem_nil, or_false, not_or] at hm
    have h1 : (a.memory == 256) = false := by simpa using hm.1
    have h2 : (a.memory == 512) = false := by simpa using hm.2.1
    have h3 : (a.memory == 1024) = false := by simpa using hm.2.2
    simp only [memoryConfigs, List.lookup, h1, h2, h3]
  unfold startDistributed
  simp only [hp, if_false, hs, hj, hl, Bool.not_true, Bool.false_eq_true, Bool.false_and]
  exact ⟨trivial, trivial, fun k v hk => (C94_precedence site.tmp [] w.cfg).2.1 k v (by simp) hk⟩

/-- The value 128 of the example in the documentation of the function is such a memory. -/
example : (128 : Nat) ∉ [256, 512, 1024] := by decide

/-! ### C95 -/

theorem splitOn_colon (a b : List Char) (ha : ':' ∉ a) : (a ++ ':' :: b).splitOn ':' = a :: b.splitOn ':' := by
  exact List.splitOnP_append_cons_of_forall_mem (fun x hx => by simp; rintro rfl; exact ha hx) _ (by simp) _

theorem splitOn_no_colon (a : List Char) (ha : ':' ∉ a) : a.splitOn ':' = [a] := by
  rw [List.splitOn, List.splitOnP_eq_singleton]
  intro x hx; simp; rintro rfl; exact ha hx

theorem pad2_digits (n : Nat) : ∀ c ∈ pad2 n, c.isDigit = true := by
  intro c hc
  unfold pad2 at hc
  have : ∀ c ∈ Nat.toDigits 10 n, c.isDigit = true := fun c h => Nat.isDigit_of_mem_toDigits (by omega) (by omega) h
  split at hc
  · rcases List.mem_cons.1 hc with rfl | h
    · decide
    · exact this _ h
  · exact this _ hc

theorem pad2_no_colon (n : Nat) : ':' ∉ pad2 n := fun h => by
  have := pad2_digits n _ h
  revert this; decide

theorem pad2_value (n : Nat) : Nat.ofDigitChars 10 (pad2 n) 0 = n := by
  unfold pad2
  split
  · rw [Nat.ofDigitChars_cons]
    simpa using Nat.ofDigitChars_ten_toDigits (n := n)
  · exact Nat.ofDigitChars_ten_toDigits

theorem pad2_length (n : Nat) : 2 ≤ (pad2 n).length := by
  unfold pad2
  split
  · next h => rw [Nat.toDigits_of_lt_base h]; simp
  · next h =>
    by_contra hc
    have : (Nat.toDigits 10 n).length ≤ 1 := by omega
    rw [Nat.length_toDigits_le_iff (by omega) (by omega)] at this
    omega

theorem pad2_length_eq {n : Nat} (h : n < 100) : (pad2 n).length = 2 := by
  have h2 := pad2_length n
  unfold pad2 at h2 ⊢
  split
  · next h => rw [Nat.toDigits_of_lt_base h]; simp
  · next h' =>
    simp only [h', if_false] at h2
    have : (Nat.toDigits 10 n).length ≤ 2 := by rw [Nat.length_toDigits_le_iff (by omega) (by omega)]; omega
    omega

/-- The time limit handed to SLURM, read by SLURM, is the runtime. -/
theorem walltime_minutes (r : Nat) : slurmMinutes (walltime r) = some r := by
  have e : walltime r = pad2 (r / 60) ++ ':' :: (pad2 (r % 60) ++ ':' :: ['0', '0']) := by simp [walltime]
  have h60 : r % 60 < 60 := Nat.mod_lt _ (by omega)
  unfold slurmMinutes
  rw [e, splitOn_colon _ _ (pad2_no_colon _), splitOn_colon _ _ (pad2_no_colon _), splitOn_no_colon _ (by decide)]
  have h1 : (pad2 (r / 60)).all Char.isDigit = true := List.all_eq_true.2 (pad2_digits _)
  have h2 : (pad2 (r % 60)).all Char.isDigit = true := List.all_eq_true.2 (pad2_digits _)
  simp only [h1, h2, pad2_value, pad2_length, pad2_length_eq (show r % 60 < 100 by omega), h60, decide_true,
    Bool.and_self, beq_self_eq_true, if_true]
  congr 1; omega

/-- **C95** A call of `start_distributed_cluster` that starts a cluster asks SLURM, for every number of workers and
every runtime, for what the arguments say: the time limit reads as `runtime` minutes, a job has `workers_per_node`
cores and processes and 250, 500 or 1000 GB for nodes of 256, 512 or 1024 GB, charged to the given account or the
default one; the cluster is scaled to `n_workers`; the dashboard is on the given port unless the caller's scheduler
options say otherwise; and this is the one cluster started. -/
theorem C95_request (env : LogEnv) (site : Site) (installed : String → Bool) (a : SlurmArgs)
    (verbose quiet : Option Bool) (w w' : World) (c : Cluster) (i : ClusterInfo)
    (h : startDistributed env site installed a verbose quiet w = (w', .ok (c, i))) :
    ∃ r, c = .slurm r ∧ w'.running = w.running ++ [.slurm r] ∧
      slurmMinutes r.walltime = some a.runtime ∧ r.cores = a.perNode ∧ r.processes = a.perNode ∧ 0 < a.perNode ∧
      (a.memory, r.memoryGB, r.directive) ∈
        [(256, 250, "--mem=0"), (512, 500, "--constraint=512G --mem=0"), (1024, 1000, "--constraint=1024G --mem=0")] ∧ r.queue = a.queue ∧
      r.account = a.account.getD "bk1377" ∧ r.scale = a.workers ∧ r.localDir = site.tmp ∧
      ∀ k, lookup r.schedulerOptions k = match lookup a.options.reverse k with
        | some v => some v
        | none => if k = "dashboard_address" then some (":" ++ a.dashboard) else none := by
  unfold startDistributed at h
  split at h
  · simp at h
  next hp =>
  split at h
  · simp at h
  split at h
  · simp at h
  simp only at h
  split at h
  · simp at h
  next gb directive hl =>
  split at h
  · simp at h
  split at h
  · simp at h
  simp only [Prod.mk.injEq, Except.ok.injEq] at h
  obtain ⟨rfl, rfl, rfl⟩ := h
  refine ⟨_, rfl, rfl, walltime_minutes _, rfl, rfl, by omega, ?_, rfl, rfl, rfl, rfl, ?_⟩
  · have : a.memory = 256 ∧ gb = 250 ∧ directive = "--mem=0" ∨ a.memory = 512 ∧ gb = 500 ∧ directive = "--constraint=512G --mem=0" ∨
        a.memory = 1024 ∧ gb = 1000 ∧ directive = "--constraint=1024G --mem=0" := by
      simp only [memoryConfigs, List.lookup] at hl
      split at hl
      · next hh => simp at hl hh; exact .inl ⟨hh, hl.1.symm, hl.2.symm⟩
      · split at hl
        · next hh => simp at hl hh; exact .inr (.inl ⟨hh, hl.1.symm, hl.2.symm⟩)
        · split at hl
          · next hh => simp at hl hh; exact .inr (.inr ⟨hh, hl.1.symm, hl.2.symm⟩)
          · simp at hl
    simp only [List.mem_cons, Prod.mk.injEq, List.not_mem_nil, or_false]
    exact this
  · intro k
    have := C79_context_of_exception .base "" a.options [("dashboard_address", ":" ++ a.dashboard)] k
    change lookup (schedulerOptions a.dashboard a.options) k = _ at this
    rw [this]
    cases lookup a.options.reverse k with
    | some v => rfl
    | none =>
      unfold lookup
      by_cases hk : k = "dashboard_address"
      · subst hk; rfl
      · rw [List.find?_cons_of_neg (by simpa using fun e => hk (Eq.symm e)), if_neg hk]; rfl

/-- A request for 90 minutes on nodes of 512 GB. -/
example : let site : Site := { physical := 8, logical := 16, tmp := "/t", link := "http://10.0.0.1:8889/status".toList, isDigit := Char.isDigit }
    (match (startDistributed ⟨false, false, 20⟩ site (fun _ => true) { workers := 16, perNode := 4, runtime := 90, memory := 512 }
        none none ⟨fun _ => none, ⟨false, .normal, 0⟩, []⟩).2 with
      | .ok (.slurm r, i) => decide (r.walltime = "01:30:00".toList ∧ r.memoryGB = 500 ∧ r.scale = 16 ∧ i.port = "8889".toList)
      | _ => false) = true := by decide +kernel

/-- **C95** Nodes of another size than 256, 512 or 1024 GB are rejected before anything is started. -/
theorem C95_memory_checked (env : LogEnv) (site : Site) (installed : String → Bool) (a : SlurmArgs)
    (hm : a.memory ∉ [256, 512, 1024]) (verbose quiet : Option Bool) (w : World) :
    (∃ e, (startDistributed env site installed a verbose quiet w).2 = .error e) ∧
    (startDistributed env site installed a verbose quiet w).1.running = w.running := by
  have hl : memoryConfigs.lookup a.memory = none := by
    simp only [List.mem_cons, List.not_mem_nil, or_false, not_or] at hm
    have h1 : (a.memory == 256) = false := by simpa using hm.1
    have h2 : (a.memory == 512) = false := by simpa using hm.2.1
    have h3 : (a.memory == 1024) = false := by simpa using hm.2.2
    simp only [memoryConfigs, List.lookup, h1, h2, h3]
  unfold startDistributed
  simp only [hl]
  split
  · exact ⟨⟨_, rfl⟩, rfl⟩
  split
  · exact ⟨⟨_, rfl⟩, rfl⟩
  split
  · exact ⟨⟨_, rfl⟩, rfl⟩
  · exact ⟨⟨_, rfl⟩, rfl⟩

/-- **C107** negative: the number of nodes that the call reports is too small whenever the workers do not fill the
nodes: with `perNode` workers to a job, the reported number of jobs does not hold the workers asked for. -/
theorem C107_nodes_reported_fails (a : SlurmArgs) (hp : 0 < a.perNode) (hd : ¬ a.perNode ∣ a.workers) :
    nodesReported a * a.perNode < a.workers := by
  unfold nodesReported
  have h1 := Nat.div_add_mod a.workers a.perNode
  have h2 : 0 < a.workers % a.perNode := Nat.pos_of_ne_zero fun h => hd (Nat.dvd_of_mod_eq_zero h)
  have h3 : a.workers / a.perNode * a.perNode = a.perNode * (a.workers / a.perNode) := Nat.mul_comm _ _
  omega

example : nodesReported { workers := 10, perNode := 4 } = 2 := by decide

/-- **C107** negative: without the package `dask_jobqueue` the call is meant to stop with an ImportError naming it.  It
never does: the dependency is always reported as available, dask is configured, and the call ends in a TypeError. -/
theorem C107_missing_jobqueue_fails (env : LogEnv) (site : Site) (hj : site.jobqueue = false)
    (hs : site.scratchOk = true) (installed : String → Bool) (a : SlurmArgs) (hp : 0 < a.perNode)
    (hm : a.memory ∈ [256, 512, 1024]) (verbose quiet : Option Bool) (w : World) :
    (startDistributed env site installed a verbose quiet w).2 = .error .notCallable ∧
    ∀ k v, (k, v) ∈ daskDefaults → (startDistributed env site installed a verbose quiet w).1.cfg k = some v := by
  have hr : requireDependencies installed ["dask_jobqueue"] = .ok () := by
    simp [requireDependencies, hasDependency, depTable, trackedDeps, List.lookup]
  obtain ⟨x, hx⟩ : ∃ x, memoryConfigs.lookup a.memory = some x := by
    simp only [List.mem_cons, List.not_mem_nil, or_false] at hm
    rcases hm with h | h | h <;> rw [h] <;> exact ⟨_, rfl⟩
  have hb : ∀ k v, (k, v) ∈ daskDefaults → lastSetting bokehSetting k = none := by
    intro k v hk
    rw [lastSetting_none]
    intro u hu
    simp only [bokehSetting, List.mem_singleton, Prod.mk.injEq] at hu
    have : ∀ p ∈ daskDefaults, p.1 ≠ "distributed.scheduler.dashboard.bokeh-application.session_token_expiration" := by
      decide +kernel
    exact this _ hk hu.1
  have hp' : a.perNode ≠ 0 := by omega
  unfold startDistributed
  simp only [hp', if_false, hs, hj, hx, hr, Except.isOk, Except.toBool, Bool.not_true, Bool.not_false, Bool.and_false,
    Bool.false_eq_true, if_true]
  refine ⟨trivial, fun k v hk => ?_⟩
  rw [daskSet_apply, hb k v hk, (C94_precedence site.tmp [] w.cfg).2.1 k v (by simp) hk]; rfl

/-- **C107** negative: the switches `verbose` and `quiet` of `start_distributed_cluster` have no effect. -/
theorem C107_switches_ignored_fails (env : LogEnv) (site : Site) (installed : String → Bool) (a : SlurmArgs)
    (verbose quiet : Option Bool) (w : World) :
    (startDistributed env site installed a verbose quiet w).1.log = w.log := by
  unfold startDistributed
  split
  · rfl
  split
  · rfl
  split
  · rfl
  simp only
  split
  · rfl
  split
  · rfl
  split <;> rfl

/-! ### C96 -/

theorem mem_takeWhile_true {p : Char → Bool} {l : List Char} {c : Char} (h : c ∈ l.takeWhile p) : p c = true := by
  induction l with
  | nil => simp at h
  | cons a l ih =>
    rw [List.takeWhile_cons] at h
    split at h
    · next ha =>
      rcases List.mem_cons.1 h with rfl | h
      · exact ha
      · exact ih h
    · simp at h

theorem portHere_some {isDigit : Char → Bool} (hslash : isDigit '/' = false) {l p : List Char} :
    portHere isDigit l = some p ↔ p ≠ [] ∧ (∀ c ∈ p, isDigit c = true) ∧ ∃ rest, l = ':' :: p ++ '/' :: rest := by
  constructor
  · intro h
    unfold portHere at h
    split at h
    · next rest =>
      simp only at h
      split at h
      · next hc =>
        simp only [Option.some.injEq] at h
        subst h
        refine ⟨hc.1, fun c hc' => mem_takeWhile_true hc', ?_⟩
        cases hd : rest.dropWhile isDigit with
        | nil => rw [hd] at hc; simp at hc
        | cons a b =>
          rw [hd] at hc
          have : a = '/' := by simpa using hc.2
          subst this
          exact ⟨b, by rw [List.cons_append, ← hd, List.takeWhile_append_dropWhile]⟩
      · simp at h
    · simp at h
  · rintro ⟨hne, hd, rest, rfl⟩
    have h1 : (p ++ '/' :: rest).takeWhile isDigit = p := by
      rw [List.takeWhile_append_of_pos hd]; simp [hslash]
    have h2 : (p ++ '/' :: rest).dropWhile isDigit = '/' :: rest := by
      rw [List.dropWhile_append_of_pos hd]; simp [hslash]
    rw [List.cons_append]
    simp only [portHere, h1, h2]
    simp [hne]

theorem findPort_some {isDigit : Char → Bool} (hslash : isDigit '/' = false) {link p : List Char}
    (h : findPort isDigit link = some p) :
    ∃ pre, NamesPort isDigit link pre p ∧ ∀ pre' p', NamesPort isDigit link pre' p' → pre.length ≤ pre'.length := by
  induction link with
  | nil => simp [findPort] at h
  | cons c l ih =>
    unfold findPort at h
    cases hp : portHere isDigit (c :: l) with
    | some q =>
      rw [hp] at h
      simp only [Option.some.injEq] at h
      subst h
      obtain ⟨h1, h2, rest, h3⟩ := (portHere_some hslash).1 hp
      exact ⟨[], ⟨h1, h2, rest, by simpa using h3⟩, fun _ _ _ => by simp⟩
    | none =>
      rw [hp] at h
      obtain ⟨pre, ⟨h1, h2, rest, h3⟩, hmin⟩ := ih h
      refine ⟨c :: pre, ⟨h1, h2, rest, by simp [h3]⟩, ?_⟩
      rintro pre' p' ⟨g1, g2, rest', g3⟩
      cases pre' with
      | nil =>
        have := (portHere_some hslash).2 ⟨g1, g2, rest', g3⟩
        rw [hp] at this; simp at this
      | cons d pre' =>
        have g4 : l = pre' ++ ':' :: p' ++ '/' :: rest' := by
          simp only [List.cons_append, List.cons.injEq] at g3
          exact g3.2
        have := hmin pre' p' ⟨g1, g2, rest', g4⟩
        simpa using this

theorem findPort_none {isDigit : Char → Bool} (hslash : isDigit '/' = false) {link : List Char}
    (h : findPort isDigit link = none) : ∀ pre p, ¬ NamesPort isDigit link pre p := by
  induction link with
  | nil => rintro pre p ⟨_, _, rest, h3⟩; simp at h3
  | cons c l ih =>
    unfold findPort at h
    cases hp : portHere isDigit (c :: l) with
    | some q => rw [hp] at h; simp at h
    | none =>
      rw [hp] at h
      rintro pre p ⟨g1, g2, rest, g3⟩
      cases pre with
      | nil =>
        have := (portHere_some hslash).2 ⟨g1, g2, rest, g3⟩
        rw [hp] at this; simp at this
      | cons d pre =>
        have g4 : l = pre ++ ':' :: p ++ '/' :: rest := by
          simp only [List.cons_append, List.cons.injEq] at g3
          exact g3.2
        exact ih h pre p ⟨g1, g2, rest, g4⟩

/-- Two names of a port at the same place are the same. -/
theorem namesPort_unique {isDigit : Char → Bool} (hslash : isDigit '/' = false) {link pre pre' p p' : List Char}
    (h : NamesPort isDigit link pre p) (h' : NamesPort isDigit link pre' p') (hl : pre.length = pre'.length) : p = p' := by
  obtain ⟨h1, h2, r, h3⟩ := h
  obtain ⟨g1, g2, r', g3⟩ := h'
  have e : pre ++ (':' :: p ++ '/' :: r) = pre' ++ (':' :: p' ++ '/' :: r') := by
    rw [← List.append_assoc, ← List.append_assoc, ← h3, ← g3]
  have e2 := (List.append_inj e hl).2
  have a1 := (portHere_some hslash).2 ⟨h1, h2, r, rfl⟩
  have a2 := (portHere_some hslash).2 ⟨g1, g2, r', rfl⟩
  rw [e2, a2] at a1
  simpa using a1.symm

/-- **C96** `get_cluster_info` reports the first port that the dashboard link names: for every link, the answer has port
`p` exactly when `:p/` with digits `p` stands in the link with no such place before it; the link it returns is
`localhost:p/status`, the host the name of the machine up to the first dot; and it raises exactly when the link names no
port. -/
theorem C96_reported_port (isDigit : Char → Bool) (hslash : isDigit '/' = false) (host link : List Char) :
    (∀ i, clusterInfo isDigit host link = .ok i →
      (∃ pre, NamesPort isDigit link pre i.port ∧
        ∀ pre' p', NamesPort isDigit link pre' p' → pre.length ≤ pre'.length) ∧
      i.link = "localhost:".toList ++ i.port ++ "/status".toList ∧
      '.' ∉ i.hostname ∧ (i.hostname = host ∨ ∃ rest, host = i.hostname ++ '.' :: rest)) ∧
    ((∃ e, clusterInfo isDigit host link = .error e) ↔ ∀ pre p, ¬ NamesPort isDigit link pre p) := by
  constructor
  · intro i h
    unfold clusterInfo at h
    split at h
    · simp at h
    next p hp =>
    simp only [Except.ok.injEq] at h
    subst h
    refine ⟨findPort_some hslash hp, rfl, ?_, ?_⟩
    · intro hm
      have := mem_takeWhile_true hm
      simp at this
    · have e := List.takeWhile_append_dropWhile (p := fun c : Char => decide (c ≠ '.')) (l := host)
      cases hd : host.dropWhile (fun c : Char => decide (c ≠ '.')) with
      | nil => rw [hd, List.append_nil] at e; exact Or.inl e
      | cons a b =>
        right
        have ha : a = '.' := by
          have := List.head_dropWhile_not (fun c : Char => decide (c ≠ '.')) (l := host) (by rw [hd]; simp)
          simp only [hd, List.head_cons] at this
          simpa using this
        subst ha
        exact ⟨b, by rw [hd] at e; exact e.symm⟩
  · unfold clusterInfo
    cases hp : findPort isDigit link with
    | none => simpa using fun pre p => findPort_none hslash hp pre p
    | some p =>
      obtain ⟨pre, h, _⟩ := findPort_some hslash hp
      simp only [reduceCtorEq, exists_false, false_iff, not_forall, not_not]
      exact ⟨pre, p, h⟩

example : (match clusterInfo Char.isDigit "login01.example.org".toList "http://[::1]:8787/status".toList with
    | .ok i => decide (i.port = "8787".toList ∧ i.hostname = "login01".toList ∧ i.link = "localhost:8787/status".toList)
    | .error _ => false) = true := by decide +kernel

theorem dropWhile_head_colon {isDigit : Char → Bool} (hcolon : isDigit ':' = false) (host t : List Char)
    (hhost : '/' ∉ host) : ((host ++ ':' :: t).dropWhile isDigit).head? ≠ some '/' := by
  induction host with
  | nil => simp [hcolon]
  | cons c host ih =>
    rw [List.cons_append, List.dropWhile_cons]
    split
    · exact ih fun h => hhost (List.mem_cons_of_mem _ h)
    · intro h
      simp only [List.head?_cons, Option.some.injEq] at h
      exact hhost (by rw [h]; exact List.mem_cons_self)

theorem findPort_host {isDigit : Char → Bool} (hslash : isDigit '/' = false) (hcolon : isDigit ':' = false)
    (host port rest : List Char) (hhost : '/' ∉ host) (hport : port ≠ []) (hdig : ∀ c ∈ port, isDigit c = true) :
    findPort isDigit (host ++ (':' :: port ++ '/' :: rest)) = some port := by
  induction host with
  | nil =>
    rw [List.nil_append]
    have := (portHere_some hslash).2 ⟨hport, hdig, rest, rfl⟩
    rw [List.cons_append] at this ⊢
    rw [findPort, this]
  | cons c host ih =>
    have ih := ih fun h => hhost (List.mem_cons_of_mem _ h)
    rw [List.cons_append, findPort]
    have : portHere isDigit (c :: (host ++ (':' :: port ++ '/' :: rest))) = none := by
      unfold portHere
      split
      · next r he =>
        simp only [List.cons.injEq] at he
        rw [if_neg]
        rintro ⟨_, h⟩
        rw [← he.2] at h
        exact dropWhile_head_colon hcolon host _ (fun h => hhost (List.mem_cons_of_mem _ h)) h
      · rfl
    rw [this]
    exact ih

/-- **C96** For the usual link `http://host:port/…` the reported port is `port`, for every host name without a slash
(dots, and colons as in numeric addresses, allowed). -/
theorem C96_usual_link (isDigit : Char → Bool) (hslash : isDigit '/' = false) (hcolon : isDigit ':' = false)
    (name host port rest : List Char)
    (hhost : '/' ∉ host) (hport : port ≠ []) (hdig : ∀ c ∈ port, isDigit c = true) :
    ∃ i, clusterInfo isDigit name ("http://".toList ++ (host ++ (':' :: port ++ '/' :: rest))) = .ok i ∧ i.port = port := by
  have h : findPort isDigit ("http://".toList ++ (host ++ (':' :: port ++ '/' :: rest))) = some port := by
    rw [show "http://".toList = ['h', 't', 't', 'p', ':', '/', '/'] from by decide +kernel]
    simp only [List.cons_append, List.nil_append, findPort, portHere, List.takeWhile_cons, hslash]
    simpa using findPort_host hslash hcolon host port rest hhost hport hdig
  unfold clusterInfo
  rw [h]
  exact ⟨_, rfl, rfl⟩

example : Char.isDigit '/' = false ∧ Char.isDigit ':' = false ∧ '/' ∉ "10.0.0.7".toList := by decide +kernel

/-- **C148** The client returned by `start_local_cluster` is that of the one cluster the call has started, which has the
threads per worker asked for and the number of workers settled on, and the switches of the call are in force: with both
given, the mode they name; with none, the mode there was. -/
theorem C148_local_cluster_started (env : LogEnv) (site : Site) (n t : Nat) (verbose quiet : Option Bool) (w w' : World)
    (c : Cluster) (i : ClusterInfo) (h : startLocal env site n t verbose quiet w = (w', .ok (c, i))) :
    ∃ n', startWorkers n t site.physical site.logical = some n' ∧ c = .local n' t ∧ w'.running = w.running ++ [c] ∧
      (verbose = none → quiet = none → w'.log = w.log) ∧
      (∀ v q, verbose = some v → quiet = some q →
        w'.log.mode = if q then .quiet else if v then .verbose else .normal) := by
  unfold startLocal at h
  dsimp only at h
  split at h
  · simp at h
  split at h
  · simp at h
  · next n' hn =>
    split at h
    · simp at h
    · cases h
      refine ⟨n', hn, rfl, rfl, ?_, ?_⟩
      · rintro rfl rfl; rfl
      · rintro v q rfl rfl
        cases v <;> cases q <;> rfl

example (env : LogEnv) (w : World) (rest : List Char) :
    ∃ w' c i, startLocal env { physical := 8, logical := 16, tmp := "/t", isDigit := Char.isDigit, link := "http://".toList ++ ("node7".toList ++ (':' :: "8787".toList ++ '/' :: rest)) } 4 1 (some true) (some false) w = (w', .ok (c, i)) := by
  obtain ⟨i, hi, _⟩ := C96_usual_link Char.isDigit (by decide) (by decide) "node".toList "node7".toList "8787".toList rest
    (by decide +kernel) (by decide +kernel) (by decide +kernel)
  unfold startLocal
  simp only [Bool.not_true, Bool.false_eq_true, if_false, show startWorkers 4 1 8 16 = some 4 from by decide +kernel, hi]
  exact ⟨_, _, _, rfl⟩

/-- **C108** negative: when the dashboard link names no port (a proxied dashboard such as
`https://hub/user/x/proxy/8787/status`), starting a local cluster raises after the workers were started: the cluster
runs and the caller has no client to close it with. -/
theorem C108_unnamed_port_leaks_fails (env : LogEnv) (site : Site) (hs : site.scratchOk = true)
    (hslash : site.isDigit '/' = false)
    (hlink : ∀ pre p, ¬ NamesPort site.isDigit site.link pre p) (n t n' : Nat)
    (hn : startWorkers n t site.physical site.logical = some n') (verbose quiet : Option Bool) (w : World) :
    (∃ e, (startLocal env site n t verbose quiet w).2 = .error e) ∧
    (startLocal env site n t verbose quiet w).1.running = w.running ++ [.local n' t] := by
  obtain ⟨e, he⟩ := (C96_reported_port site.isDigit hslash site.host site.link).2.2 hlink
  unfold startLocal
  simp only [hs, Bool.not_true, Bool.false_eq_true, if_false, hn, he]
  exact ⟨⟨e, rfl⟩, trivial⟩

/-- Such a link names no port. -/
example : (match clusterInfo Char.isDigit [] "https://hub/user/x/proxy/8787/status".toList with
    | .ok _ => false | .error e => decide (e = .noPort)) = true := by decide +kernel

end MarEx.Props
