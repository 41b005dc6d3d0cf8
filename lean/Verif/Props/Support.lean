import Verif.Model.Support
import Mathlib.Data.List.Induction
import Mathlib.Tactic.Linarith
import Mathlib.Tactic.Ring
import Mathlib.Data.List.Dedup
import Mathlib.Data.List.Perm.Subperm
/-! C46–C50, C77–C79: checkpoints, dependencies, logging, exceptions, cluster size. -/
namespace MarEx.Props
open MarEx Spec

/-! ### C46 -/

theorem zarrAccepts_of_layout {c : List Nat} (h : ZarrLayout c) : zarrAccepts c = true := by
  obtain ⟨s, k, r, rfl, hr⟩ := h
  cases k with
  | zero => simp [zarrAccepts]
  | succ k =>
    have h1 : (List.replicate (k + 1) s ++ [r]).dropLast = List.replicate (k + 1) s := by simp
    have h2 : (List.replicate (k + 1) s ++ [r]).getLastD 0 = r := by simp
    have h3 : (List.replicate (k + 1) s ++ [r]).headD 0 = s := by simp [List.replicate_succ]
    simp only [zarrAccepts, h1, h2, h3, hr, decide_true, Bool.and_true, List.all_eq_true, beq_iff_eq]
    exact fun x hx => List.eq_of_mem_replicate hx

theorem layout_of_accepts {c : List Nat} (hne : c ≠ []) (h : zarrAccepts c = true) : ZarrLayout c := by
  simp only [zarrAccepts, Bool.and_eq_true, decide_eq_true_eq, List.all_eq_true, beq_iff_eq] at h
  refine ⟨c.headD 0, c.dropLast.length, c.getLastD 0, ?_, h.2⟩
  have h1 : c.dropLast = List.replicate c.dropLast.length (c.headD 0) := List.eq_replicate_iff.2 ⟨rfl, h.1⟩
  rw [← h1]
  have h2 : c.getLastD 0 = c.getLast hne := by
    cases c with
    | nil => exact absurd rfl hne
    | cons a l => simp [List.getLastD, List.getLast?_eq_some_getLast]
  rw [h2, List.dropLast_concat_getLast hne]

theorem layout_const {c : List Nat} (hne : c ≠ []) (h : ∀ x ∈ c, x = c.headD 0) : ZarrLayout c := by
  refine ⟨c.headD 0, c.length - 1, c.headD 0, ?_, le_refl _⟩
  have h1 : c = List.replicate c.length (c.headD 0) := List.eq_replicate_iff.2 ⟨rfl, h⟩
  have hl : c.length = (c.length - 1) + 1 := by have := List.length_pos_iff.2 hne; omega
  conv_lhs => rw [h1, hl]
  rw [List.replicate_succ']

theorem regular_const {c : List Nat} (h : irregular c = false) : ∀ x ∈ c, x = c.headD 0 := by
  cases c with
  | nil => simp
  | cons a l =>
    intro x hx
    by_contra hne
    simp only [List.headD_cons] at hne
    have hxl : x ∈ l := by
      rcases List.mem_cons.1 hx with h1 | h1
      · exact absurd h1 hne
      · exact h1
    have hlen : 1 < (a :: l).length := by
      have := List.length_pos_of_mem hxl
      simp only [List.length_cons]; omega
    have hd : ¬ (1 < (a :: l).dedup.length) := by
      intro hd
      unfold irregular at h
      rw [decide_eq_true hlen, decide_eq_true hd] at h
      cases h
    have hsub : ([a, x] : List Nat) ⊆ (a :: l).dedup := by
      intro y hy
      rw [List.mem_dedup]
      rcases List.mem_cons.1 hy with h1 | h1
      · simp [h1]
      · have : y = x := by simpa using h1
        rw [this]; exact hx
    have hnd : ([a, x] : List Nat).Nodup := by simp [Ne.symm hne]
    have := (List.subperm_of_subset hnd hsub).length_le
    simp only [List.length_cons, List.length_nil] at this
    omega

theorem sum_replicate_nat (k s : Nat) : (List.replicate k s).sum = k * s := by
  induction k with
  | zero => simp
  | succ k ih => rw [List.replicate_succ, List.sum_cons, ih]; ring

theorem le_sum_of_head {c : List Nat} (hne : c ≠ []) : c.headD 0 ≤ c.sum := by
  cases c with
  | nil => exact absurd rfl hne
  | cons a l => simp

/-- C46 (chunk repair): the repaired chunks of any chunked dimension whose first chunk is not empty cover the whole
dimension, and can be stored: all but the last are equal, and the last is not larger. -/
theorem C46_repaired_chunks (c : List Nat) (hpos : 0 < c.headD 0) :
    (repairChunks c).sum = c.sum ∧ ZarrLayout (repairChunks c) ∧ (repairChunks c).headD 0 = c.headD 0 ∧
      ∀ k ∈ repairChunks c, 0 < k := by
  have hne : c ≠ [] := by rintro rfl; simp at hpos
  have hle := le_sum_of_head hne
  have hq : 1 ≤ c.sum / c.headD 0 := (Nat.one_le_div_iff hpos).2 hle
  have hdm := Nat.div_add_mod c.sum (c.headD 0)
  obtain ⟨m, hm⟩ : ∃ m, c.sum / c.headD 0 = m + 1 := ⟨c.sum / c.headD 0 - 1, by omega⟩
  rw [hm] at hdm
  unfold repairChunks
  simp only [hm]
  split
  · rename_i hr
    refine ⟨?_, ⟨c.headD 0, m + 1, c.sum % c.headD 0, rfl, (Nat.mod_lt _ hpos).le⟩, ?_, ?_⟩
    · simp only [List.sum_append, sum_replicate_nat, List.sum_cons, List.sum_nil]
      rw [Nat.mul_comm]; omega
    · simp [List.replicate_succ]
    · intro k hk
      rcases List.mem_append.1 hk with h1 | h1
      · rw [List.eq_of_mem_replicate h1]; exact hpos
      · have : k = c.sum % c.headD 0 := by simpa using h1
        omega
  · rename_i hr
    refine ⟨?_, ⟨c.headD 0, m, c.headD 0, ?_, le_refl _⟩, ?_, ?_⟩
    · simp only [sum_replicate_nat]
      rw [Nat.mul_comm]; omega
    · rw [List.replicate_succ']
    · simp [List.replicate_succ]
    · intro k hk
      rw [List.eq_of_mem_replicate hk]; exact hpos

example : repairChunks [4, 4, 3, 5] = [4, 4, 4, 4] ∧ repairChunks [4, 7, 3] = [4, 4, 4, 2] := by decide +kernel

/-- C46 (nothing to repair): chunks without an empty one that can be stored as they are, are written as they are, for
data sets and DataArrays alike – the first chunk may be the only one. -/
theorem C46_storable_chunks_kept (isDataset : Bool) (c : List Nat) (h : ZarrLayout c) (hpos : ∀ k ∈ c, 0 < k) :
    repairChunks c = c ∧ writtenChunks isDataset (some c) = some c := by
  have key : repairChunks c = c := by
    obtain ⟨s, k, r, rfl, hr⟩ := h
    have hr0 : 0 < r := hpos r (by simp)
    have hs0 : 0 < s := lt_of_lt_of_le hr0 hr
    cases k with
    | zero => simp [repairChunks, Nat.div_self hr0]
    | succ k =>
      have hhead : (List.replicate (k + 1) s ++ [r]).headD 0 = s := by simp [List.replicate_succ]
      have hsum : (List.replicate (k + 1) s ++ [r]).sum = r + s * (k + 1) := by
        simp only [List.sum_append, sum_replicate_nat, List.sum_cons, List.sum_nil]; ring
      unfold repairChunks
      simp only [hhead, hsum, Nat.add_mul_mod_self_left, Nat.add_mul_div_left _ _ hs0]
      rcases Nat.lt_or_ge r s with hlt | hge
      · rw [Nat.mod_eq_of_lt hlt, Nat.div_eq_of_lt hlt, if_pos hr0, Nat.zero_add]
      · obtain rfl : r = s := le_antisymm hr hge
        rw [Nat.mod_self, Nat.div_self hs0, if_neg (Nat.lt_irrefl 0), Nat.add_comm, List.replicate_succ']
  refine ⟨key, ?_⟩
  unfold writtenChunks
  split
  · rename_i h1; cases h1
  · rename_i c' h1
    obtain rfl : c = c' := Option.some.inj h1
    split
    · rw [key]
    · rfl

example : ZarrLayout [4, 4, 3] ∧ repairChunks [4, 4, 3] = [4, 4, 3] ∧ writtenChunks true (some [4, 4, 3]) = some [4, 4, 3] :=
  ⟨⟨4, 2, 3, rfl, by decide⟩, by decide +kernel, by decide +kernel⟩

/-- C139 (data sets), partial: a data set checkpointed without `cleanup`, with any chunks along time, is readable
afterwards and unchanged, whatever the disk does – unless the disk fails with a ValueError/OSError whose text mentions
chunks.  Missing: such failures, `cleanup=True`, DataArrays (see the `_fails` theorems). -/
theorem C139_dataset_unchanged_partial {α : Type} (c : Option (List Nat)) (hne : c ≠ some []) (d : StoreDisk) (data : α)
    (hw : d.write ≠ some .mentionsChunk) (hr : d.read ≠ some .mentionsChunk) :
    (checkpointToZarr true c true false d data).readable = some data := by
  have key : storeAttempt true c true d ≠ some .mentionsChunk := by
    unfold storeAttempt
    cases hz : zeroDivision true c with
    | true => simp
    | false =>
      have hok : timeChunksOk true c = true := by
        cases c with
        | none => rfl
        | some c =>
          have hne' : c ≠ [] := fun h => hne (by rw [h])
          cases hi : irregular c with
          | true =>
            have h0 : 0 < c.headD 0 := by
              simp only [zeroDivision, hi, Bool.true_and, beq_eq_false_iff_ne] at hz
              omega
            simpa [timeChunksOk, writtenChunks, hi] using zarrAccepts_of_layout (C46_repaired_chunks c h0).2.1
          | false =>
            simpa [timeChunksOk, writtenChunks, hi] using zarrAccepts_of_layout (layout_const hne' (regular_const hi))
      rw [hok]
      simp only [Bool.false_eq_true, if_false, Bool.true_and, Bool.not_true]
      cases hw' : d.write with
      | none => simpa using hr
      | some e => rw [hw'] at hw; exact hw
  unfold checkpointToZarr
  cases hs : storeAttempt true c true d with
  | none => simp [Handed.readable]
  | some e =>
    cases e with
    | mentionsChunk => exact absurd hs key
    | other => rfl
    | unrelated => rfl

example : (checkpointToZarr true (some [3, 5, 1]) true false {} 7).readable = some 7 := by decide +kernel

/-- C139 (DataArrays), partial: a DataArray checkpointed without `cleanup` is readable afterwards and unchanged if the
chunks along time can be stored as they are, or if writing fails for another reason. -/
theorem C139_dataarray_unchanged_partial {α : Type} (c : List Nat) (d : StoreDisk) (data : α)
    (hc : ZarrLayout c) (hw : d.write ≠ some .mentionsChunk) (hr : d.read ≠ some .mentionsChunk) :
    (checkpointToZarr false (some c) true false d data).readable = some data := by
  unfold checkpointToZarr storeAttempt
  simp only [zeroDivision, timeChunksOk, writtenChunks, Bool.false_and, Bool.false_eq_true, if_false,
    zarrAccepts_of_layout hc, Bool.true_and, Bool.not_true]
  cases hw' : d.write with
  | some e =>
    rw [hw'] at hw
    cases e with
    | mentionsChunk => exact absurd rfl hw
    | other => rfl
    | unrelated => rfl
  | none =>
    cases hr' : d.read with
    | none => simp [Handed.readable]
    | some e =>
      rw [hr'] at hr
      cases e with
      | mentionsChunk => exact absurd rfl hr
      | other => rfl
      | unrelated => rfl

example : ZarrLayout [4, 4, 3] ∧ ¬ ZarrLayout [4, 3, 4] := by
  refine ⟨⟨4, 2, 3, rfl, by omega⟩, ?_⟩
  intro h
  have := zarrAccepts_of_layout h
  revert this; decide

/-- C139 fails for every DataArray whose chunks along time cannot be stored as they are (for example monthly chunks):
the repair is never applied to a DataArray, the error is swallowed and the caller receives None instead of their data. -/
theorem C139_dataarray_irregular_fails {α : Type} (c : List Nat) (hne : c ≠ []) (hc : ¬ ZarrLayout c) (otherOk cleanup : Bool)
    (d : StoreDisk) (hd : d.removeOk = true) (data : α) :
    (checkpointToZarr false (some c) otherOk cleanup d data).readable = none := by
  have hz : zarrAccepts c = false := by
    cases h : zarrAccepts c with
    | false => rfl
    | true => exact absurd (layout_of_accepts hne h) hc
  unfold checkpointToZarr storeAttempt
  simp [zeroDivision, timeChunksOk, writtenChunks, hz, hd, Handed.readable]

example : (checkpointToZarr false (some [31, 28, 31]) true false {} 7).readable = none := by decide +kernel

/-- C139 fails for every error of the disk whose text mentions chunks (for example a failed write of a chunk file):
the data is lost to the caller, although the handler for other errors would have handed it back. -/
theorem C139_chunk_error_fails {α : Type} (isDataset : Bool) (c : Option (List Nat)) 
    (d : StoreDisk) (hw : d.write = some .mentionsChunk) (hd : d.removeOk = true) (data : α)
    (h0 : ∀ l, c = some l → 0 < l.headD 0) :
    (checkpointToZarr isDataset c true false d data).readable = none := by
  unfold checkpointToZarr storeAttempt
  have h1 : zeroDivision isDataset c = false := by
    cases c with
    | none => rfl
    | some l =>
      have := h0 l rfl
      have h2 : (l.headD 0 == 0) = false := by
        rw [beq_eq_false_iff_ne]; omega
      simp only [zeroDivision, h2, Bool.and_false]
  simp only [h1, Bool.false_eq_true, if_false, hw, ite_self, hd, if_true]
  rfl

/-- C139 fails with `cleanup=True` whenever the checkpoint itself succeeds: the store behind the lazily loaded result
is deleted before the result is returned. -/
theorem C139_cleanup_fails {α : Type} (isDataset : Bool) (c : Option (List Nat)) (d : StoreDisk) (data : α)
    (hs : storeAttempt isDataset c true d = none) (hc : d.cleanupOk = true) :
    (checkpointToZarr isDataset c true true d data).readable = none := by
  unfold checkpointToZarr
  rw [hs]
  simp [hc, Handed.readable]

example : storeAttempt true (some [4, 4, 3]) true {} = none := by decide +kernel

/-! ### C47 -/

theorem hasDependency_eq (installed : String → Bool) (n : String) :
    hasDependency installed n = decide (n ∈ trackedDeps) := by
  unfold hasDependency depTable
  generalize trackedDeps = l
  induction l with
  | nil => rfl
  | cons a l ih =>
    simp only [List.map_cons, List.lookup_cons, List.mem_cons]
    by_cases h : n = a
    · simp [h]
    · simp only [beq_false_of_ne h, ih, h, false_or]

/-- C47, partial: a package that marEx does not know is reported as missing, whatever is installed; and
`require_dependencies` succeeds iff all packages are known.  Missing: any relation to what is installed. -/
theorem C47_unknown_missing_partial (installed : String → Bool) (deps : List String) :
    (requireDependencies installed deps = .ok () ↔
      ∀ d ∈ deps, d ∈ ["jax", "jaxlib", "dask_jobqueue", "psutil", "matplotlib", "cartopy", "seaborn", "cmocean", "pillow"]) := by
  change _ ↔ ∀ d ∈ deps, d ∈ trackedDeps
  unfold requireDependencies
  simp only [hasDependency_eq]
  constructor
  · intro h d hd
    split at h
    · rename_i hm
      rw [List.filter_eq_nil_iff] at hm
      have := hm d hd
      simpa only [Bool.not_eq_true, Bool.not_eq_eq_eq_not, Bool.not_false, Bool.not_true, decide_eq_false_iff_not, not_not, decide_eq_true_eq] using this
    · cases h
  · intro h
    rw [if_pos]
    rw [List.filter_eq_nil_iff]
    intro d hd
    have := h d hd
    simpa only [Bool.not_eq_true, Bool.not_eq_eq_eq_not, Bool.not_false, Bool.not_true, decide_eq_false_iff_not, not_not, decide_eq_true_eq] using this

/-- C47 fails in every environment: each known package is reported as available even if it is not installed, requiring
it never raises, no package is ever listed as missing, and the installation profile is always "full". -/
theorem C47_always_available_fails (installed : String → Bool) :
    (∀ n ∈ trackedDeps, hasDependency installed n = true ∧ requireDependencies installed [n] = .ok ()) ∧
    missingDependencies installed = [] ∧ installationProfile installed = "full" := by
  refine ⟨?_, ?_, ?_⟩
  · intro n hn
    have h : hasDependency installed n = true := by rw [hasDependency_eq]; simpa using hn
    exact ⟨h, by simp [requireDependencies, h]⟩
  · unfold missingDependencies depTable
    have : (trackedDeps.map fun n => (n, true)).filter (fun p => !p.2) = [] := by
      rw [List.filter_eq_nil_iff]
      intro p hp
      obtain ⟨n, _, rfl⟩ := List.mem_map.1 hp
      simp
    rw [this]; rfl
  · have h : ∀ n, hasDependency installed n = decide (n ∈ trackedDeps) := hasDependency_eq installed
    have h2 : hasDependency installed = fun n => decide (n ∈ trackedDeps) := funext h
    unfold installationProfile profileOf
    rw [h2]
    decide +kernel

/-- C47, the part that holds: the profile follows from what the availability checks report. It is "full" iff the five packages of that profile are
reported available, else "plotting" iff seaborn and cmocean are, else "hpc" iff dask_jobqueue and psutil are, else "performance" iff jax and jaxlib
are, else "minimal". Missing: the checks report every known package as available. -/
theorem C47_profile_partial (has : String → Bool) :
    (profileOf has = "full" ↔ has "jax" ∧ has "jaxlib" ∧ has "dask_jobqueue" ∧ has "seaborn" ∧ has "cmocean") ∧
    (profileOf has = "plotting" ↔ (has "seaborn" ∧ has "cmocean") ∧ ¬ (has "jax" ∧ has "jaxlib" ∧ has "dask_jobqueue")) ∧
    (profileOf has = "hpc" ↔ (has "dask_jobqueue" ∧ has "psutil") ∧ ¬ (has "seaborn" ∧ has "cmocean")) ∧
    (profileOf has = "performance" ↔ (has "jax" ∧ has "jaxlib") ∧ ¬ (has "seaborn" ∧ has "cmocean") ∧ ¬ (has "dask_jobqueue" ∧ has "psutil")) ∧
    (profileOf has = "minimal" ↔ ¬ (has "jax" ∧ has "jaxlib") ∧ ¬ (has "seaborn" ∧ has "cmocean") ∧ ¬ (has "dask_jobqueue" ∧ has "psutil")) := by
  unfold profileOf profiles
  cases h1 : has "jax" <;> cases h2 : has "jaxlib" <;> cases h3 : has "dask_jobqueue" <;> cases h4 : has "seaborn" <;> cases h5 : has "cmocean" <;>
    cases h6 : has "psutil" <;> simp [List.find?, h1, h2, h3, h4, h5, h6]

example : profileOf (fun n => n = "jax" || n = "jaxlib") = "performance" := by decide +kernel

example : "jax" ∈ trackedDeps ∧ hasDependency (fun _ => false) "jax" = true := by decide +kernel

/-! ### C48 -/

theorem configureLogging_eq (env : LogEnv) (l : Option Nat) (v q : Option Bool) (s : LogState) :
    configureLogging env l v q s =
      { s with mode := modeOf (v.getD env.verbose) (q.getD env.quiet),
               level := l.getD (levelOf env (modeOf (v.getD env.verbose) (q.getD env.quiet))) } := by
  unfold configureLogging
  cases hv : v.getD env.verbose <;> cases hq : q.getD env.quiet <;> simp [modeOf, levelOf]

theorem logStep_asks (env : LogEnv) (s : LogState) (c : LogCall) (v q : Bool) (l : Option Nat)
    (h : c.asks env = some (v, q, l)) :
    (logStep env s c).mode = modeOf v q ∧ (logStep env s c).level = l.getD (levelOf env (modeOf v q)) ∧
      (logStep env s c).configured = s.configured := by
  cases c with
  | getLogger n => simp [LogCall.asks] at h
  | _ => simp only [LogCall.asks, Option.some.injEq, Prod.mk.injEq] at h
         obtain ⟨rfl, rfl, rfl⟩ := h
         simp [logStep, configureLogging_eq]

theorem logStep_configured (env : LogEnv) (s : LogState) (c : LogCall) :
    (logStep env s c).configured = (s.configured || decide (c = .getLogger "marEx")) := by
  cases c with
  | getLogger n =>
    simp only [logStep]
    by_cases hn : n = "marEx"
    · cases hs : s.configured <;> simp [hn, hs]
    · simp [hn]
  | _ => simp [logStep, configureLogging_eq]
 
theorem logRun_configured (env : LogEnv) (cs : List LogCall) (s : LogState) :
    (cs.foldl (logStep env) s).configured = true ↔ s.configured = true ∨ LogCall.getLogger "marEx" ∈ cs := by
  induction cs generalizing s with
  | nil => simp
  | cons c cs ih =>
    rw [List.foldl_cons, ih, logStep_configured]
    simp only [Bool.or_eq_true, decide_eq_true_eq, List.mem_cons]
    constructor
    · rintro ((h | h) | h)
      · exact Or.inl h
      · exact Or.inr (Or.inl h.symm)
      · exact Or.inr (Or.inr h)
    · rintro (h | h | h)
      · exact Or.inl (Or.inl h)
      · exact Or.inl (Or.inr h.symm)
      · exact Or.inr h

theorem getLoggers_noop (env : LogEnv) (rest : List LogCall) (s : LogState)
    (hrest : ∀ r ∈ rest, ∃ n, r = LogCall.getLogger n)
    (hcfg : s.configured = true ∨ LogCall.getLogger "marEx" ∉ rest) :
    rest.foldl (logStep env) s = s := by
  induction rest with
  | nil => rfl
  | cons r rest ih =>
    obtain ⟨n, rfl⟩ := hrest r (List.mem_cons_self ..)
    have h1 : logStep env s (.getLogger n) = s := by
      simp only [logStep]
      rcases hcfg with h | h
      · simp [h]
      · have : n ≠ "marEx" := fun hn => h (by rw [hn]; exact List.mem_cons_self ..)
        simp [this]
    rw [List.foldl_cons, h1]
    exact ih (fun r hr => hrest r (List.mem_cons_of_mem _ hr))
      (hcfg.imp_right fun h hm => h (List.mem_cons_of_mem _ hm))

/-- C48, partial: after any history of calls, the mode is the one asked for by the last call that asks for one (quiet
taking precedence over verbose, unset switches meaning the environment's), and the level is the one given in that call
or else that of the mode.  Missing: histories in which the package logger is fetched by `get_logger()` for the first
time after that call. -/
theorem C48_last_call_wins_partial (env : LogEnv) (before rest : List LogCall) (c : LogCall) (v q : Bool) (l : Option Nat)
    (hc : c.asks env = some (v, q, l)) (hrest : ∀ r ∈ rest, ∃ n, r = LogCall.getLogger n)
    (hcfg : LogCall.getLogger "marEx" ∈ before ∨ LogCall.getLogger "marEx" ∉ rest) :
    (logRun env (before ++ c :: rest)).mode = modeOf v q ∧
      (logRun env (before ++ c :: rest)).level = l.getD (levelOf env (modeOf v q)) := by
  unfold logRun
  rw [List.foldl_append, List.foldl_cons]
  set s := before.foldl (logStep env) ⟨false, .normal, 0⟩ with hs
  have h := logStep_asks env s c v q l hc
  rw [getLoggers_noop env rest _ hrest]
  · exact ⟨h.1, h.2.1⟩
  · refine hcfg.imp_left fun hb => ?_
    rw [h.2.2, hs, logRun_configured]
    exact Or.inr hb

example : (LogCall.setQuiet true).asks ⟨true, false, 20⟩ = some (false, true, none) ∧
    (logRun ⟨true, false, 20⟩ [.setVerbose true, .getLogger "marEx.track", .setQuiet true]).mode = .quiet := by
  decide +kernel

/-- C48 fails for every history without `get_logger()`: the first `get_logger()` after it throws the chosen mode and
level away and goes back to the settings of the environment. -/
theorem C48_get_logger_resets_fails (env : LogEnv) (cs : List LogCall) (hcs : LogCall.getLogger "marEx" ∉ cs) :
    (logRun env (cs ++ [.getLogger "marEx"])).mode = modeOf env.verbose env.quiet ∧
      (logRun env (cs ++ [.getLogger "marEx"])).level = levelOf env (modeOf env.verbose env.quiet) := by
  unfold logRun
  rw [List.foldl_append]
  have h : (cs.foldl (logStep env) ⟨false, .normal, 0⟩).configured = false := by
    rw [Bool.eq_false_iff, Ne, logRun_configured]
    simp [hcs]
  simp only [List.foldl_cons, List.foldl_nil, logStep, h, configureLogging_eq]
  simp

example : (logRun ⟨false, false, 20⟩ [.setQuiet true]).mode = .quiet ∧
    (logRun ⟨false, false, 20⟩ [.setQuiet true, .getLogger "marEx"]).mode = .normal := by decide +kernel

/-! ### C77 -/

/-- C77, partial: a package function called with neither `verbose` nor `quiet` leaves the logging configuration alone;
called with both it selects the mode they name, whatever was in force. -/
theorem C77_switches_partial (env : LogEnv) (s : LogState) (v q : Bool) :
    packageLogging env none none s = s ∧ (packageLogging env (some v) (some q) s).mode = modeOf v q := by
  constructor
  · rfl
  · simp [packageLogging, configureLogging_eq]

/-- C77 fails: with one switch given, the other is taken from the environment, not from the mode in force: a user who
selected verbose mode and calls a function with `quiet=False` is put back into normal mode. -/
theorem C77_unset_switch_fails (env : LogEnv) (hv : env.verbose = false) (s : LogState) (hs : s.mode = .verbose) :
    (packageLogging env none (some false) s).mode = .normal ∧ (packageLogging env none (some false) s).mode ≠ s.mode := by
  have h : (packageLogging env none (some false) s).mode = .normal := by
    simp [packageLogging, configureLogging_eq, hv, modeOf]
  exact ⟨h, by rw [h, hs]; decide⟩

example : (logRun ⟨false, false, 20⟩ [.setVerbose true]).mode = .verbose := by decide +kernel

/-! ### C49 -/

theorem exceptionMap_lookup (n : String) : (exceptionMap.lookup n).getD .base = mappedClass n := by
  unfold exceptionMap mappedClass
  simp only [List.lookup_cons]
  by_cases h1 : n = "ValueError"
  · subst h1; decide
  by_cases h2 : n = "RuntimeError"
  · subst h2; decide
  by_cases h3 : n = "TypeError"
  · subst h3; decide
  by_cases h4 : n = "KeyError"
  · subst h4; decide
  by_cases h5 : n = "AttributeError"
  · subst h5; decide
  by_cases h6 : n = "ImportError"
  · subst h6; decide
  by_cases h7 : n = "ModuleNotFoundError"
  · subst h7; decide
  simp only [beq_false_of_ne h1, beq_false_of_ne h2, beq_false_of_ne h3, beq_false_of_ne h4, beq_false_of_ne h5,
    beq_false_of_ne h6, beq_false_of_ne h7, h1, h2, h3, h4, h5, h6, h7, or_self, if_false]
  rfl

/-- C49: for every original exception (type name, text) and all arguments, the wrapped exception has the class given,
or else the class documented for the type; the message given, or else the original text; details and context name the
original type; the cause is the original exception; the text shown starts with the message and contains the details. -/
theorem C49_wrap_exception (typeName text : String) (message : Option String) (cls : Option ErrClass) :
    let e := wrapException (typeName, text) message cls
    e.cls = cls.getD (mappedClass typeName) ∧ e.message = message.getD text ∧
    e.details = some ("Original " ++ typeName ++ ": " ++ text) ∧
    e.context = [("original_exception_type", typeName)] ∧ e.cause = some (typeName, text) := by
  refine ⟨?_, rfl, rfl, rfl, rfl⟩
  simp [wrapException, mkError, exceptionMap_lookup]

example : (wrapException ("KeyError", "'time'") none none).cls = .configuration ∧
    (wrapException ("KeyError", "'time'") none none).text =
      "'time'\nDetails: Original KeyError: 'time'\nContext: original_exception_type=KeyError\nError Code: CONFIGURATION_ERROR" := by
  decide +kernel

/-! ### C78 -/

/-- `t` occurs in `s`. -/
def Shows (s t : String) : Prop := ∃ a b : String, s = a ++ t ++ b

theorem shows_trans {s t u : String} (h1 : Shows s t) (h2 : Shows t u) : Shows s u := by
  obtain ⟨a, b, rfl⟩ := h1
  obtain ⟨c, d, rfl⟩ := h2
  exact ⟨a ++ c, d ++ b, by simp [String.append_assoc]⟩

theorem shows_intercalate (sep : String) (l : List String) (x : String) (hx : x ∈ l) :
    Shows (String.intercalate sep l) x := by
  induction l with
  | nil => cases hx
  | cons a l ih =>
    cases l with
    | nil =>
      have : x = a := by simpa using hx
      subst this
      exact ⟨"", "", by simp⟩
    | cons b l =>
      rw [String.intercalate_cons_cons]
      rcases List.mem_cons.1 hx with rfl | h
      · exact ⟨"", sep ++ String.intercalate sep (b :: l), by simp [String.append_assoc]⟩
      · obtain ⟨p, q, hpq⟩ := ih h
        exact ⟨a ++ sep ++ p, q, by rw [hpq]; simp [String.append_assoc]⟩

/-- C78: the text of every new exception shows its message, its details, every suggestion and every context
entry given at construction, and the error code of its class. -/
theorem C78_text_shows_all (cls : ErrClass) (message : String) (details : Option String)
    (suggestions : List String) (context : List (String × String)) :
    let e := mkError cls message details suggestions context
    Shows e.text message ∧ (∀ d, details = some d → Shows e.text d) ∧ (∀ s ∈ suggestions, Shows e.text s) ∧
    (∀ p ∈ context, Shows e.text (p.1 ++ "=" ++ p.2)) ∧ (∀ c, e.code = some c → Shows e.text c) := by
  intro e
  have he : e.text = formatError message details suggestions (defaultCode cls) context := rfl
  unfold formatError at he
  rw [he]
  refine ⟨?_, ?_, ?_, ?_, ?_⟩
  · apply shows_intercalate
    simp
  · rintro d rfl
    by_cases hd : d = ""
    · subst hd; exact ⟨_, "", by rw [String.append_empty, String.append_empty]⟩
    · refine shows_trans (t := "Details: " ++ d) ?_ ⟨"Details: ", "", by simp⟩
      apply shows_intercalate
      simp [hd]
  · intro s hs
    have hne : suggestions ≠ [] := List.ne_nil_of_mem hs
    have h1 : Shows (String.intercalate "\n" (suggestions.map fun s => "  - " ++ s)) ("  - " ++ s) :=
      shows_intercalate _ _ _ (List.mem_map.2 ⟨s, hs, rfl⟩)
    refine shows_trans (t := "Suggestions:\n" ++ String.intercalate "\n" (suggestions.map fun s => "  - " ++ s)) ?_ ?_
    · apply shows_intercalate
      simp [hne]
    · exact shows_trans ⟨"Suggestions:\n", "", by simp⟩ (shows_trans h1 ⟨"  - ", "", by simp⟩)
  · intro p hp
    have hne : context ≠ [] := List.ne_nil_of_mem hp
    have h1 := shows_intercalate ", " (context.map fun p => p.1 ++ "=" ++ p.2) (p.1 ++ "=" ++ p.2)
      (List.mem_map.2 ⟨p, hp, rfl⟩)
    refine shows_trans (t := "Context: " ++ String.intercalate ", " (context.map fun p => p.1 ++ "=" ++ p.2)) ?_ ?_
    · apply shows_intercalate
      simp [hne]
    · exact shows_trans ⟨"Context: ", "", by simp⟩ h1
  · intro c hc
    have hc' : defaultCode cls = some c := hc
    have hne : c ≠ "" := by
      cases cls <;> simp only [defaultCode, Option.some.injEq, reduceCtorEq] at hc' <;> (rw [← hc']; decide)
    refine shows_trans (t := "Error Code: " ++ c) ?_ ⟨"Error Code: ", "", by simp⟩
    apply shows_intercalate
    simp [hc', hne]

/-- `t` stands in `s` on lines of its own. -/
def OwnLines (s t : String) : Prop := ∃ a b : String, s = a ++ t ++ b ∧ (a = "" ∨ ∃ a', a = a' ++ "\n") ∧ (b = "" ∨ ∃ b', b = "\n" ++ b')

theorem ownLines_intercalate (l : List String) (x : String) (hx : x ∈ l) : OwnLines (String.intercalate "\n" l) x := by
  induction l with
  | nil => cases hx
  | cons a l ih =>
    cases l with
    | nil =>
      have : x = a := by simpa using hx
      subst this
      exact ⟨"", "", by simp, Or.inl rfl, Or.inl rfl⟩
    | cons b l =>
      rw [String.intercalate_cons_cons]
      rcases List.mem_cons.1 hx with rfl | h
      · exact ⟨"", "\n" ++ String.intercalate "\n" (b :: l), by simp [String.append_assoc], Or.inl rfl, Or.inr ⟨_, rfl⟩⟩
      · obtain ⟨p, q, hpq, hp, hq⟩ := ih h
        refine ⟨a ++ "\n" ++ p, q, by rw [hpq]; simp [String.append_assoc], Or.inr ?_, hq⟩
        rcases hp with rfl | ⟨p', rfl⟩
        · exact ⟨a, by simp⟩
        · exact ⟨a ++ "\n" ++ p', by simp [String.append_assoc]⟩

theorem ownLines_trans {s t u : String} (h1 : OwnLines s t) (h2 : OwnLines t u) : OwnLines s u := by
  obtain ⟨a, b, rfl, ha, hb⟩ := h1
  obtain ⟨c, d, rfl, hc, hd⟩ := h2
  refine ⟨a ++ c, d ++ b, by simp [String.append_assoc], ?_, ?_⟩
  · rcases hc with rfl | ⟨c', rfl⟩
    · simpa using ha
    · exact Or.inr ⟨a ++ c', by simp [String.append_assoc]⟩
  · rcases hd with rfl | ⟨d', rfl⟩
    · simpa using hb
    · exact Or.inr ⟨d' ++ b, by simp [String.append_assoc]⟩

/-- C78: message, details, each suggestion and the error code stand in the text of a new exception on lines of their own, the context together on one. -/
theorem C78_text_lines (cls : ErrClass) (message : String) (details : Option String) (suggestions : List String) (context : List (String × String)) :
    let e := mkError cls message details suggestions context
    OwnLines e.text message ∧ (∀ d, details = some d → d ≠ "" → OwnLines e.text ("Details: " ++ d)) ∧
    (∀ s ∈ suggestions, OwnLines e.text ("  - " ++ s)) ∧
    (context ≠ [] → OwnLines e.text ("Context: " ++ String.intercalate ", " (context.map fun p => p.1 ++ "=" ++ p.2))) ∧
    (∀ c, e.code = some c → OwnLines e.text ("Error Code: " ++ c)) := by
  intro e
  have he : e.text = formatError message details suggestions (defaultCode cls) context := rfl
  unfold formatError at he
  rw [he]
  refine ⟨?_, ?_, ?_, ?_, ?_⟩
  · apply ownLines_intercalate
    simp
  · rintro d rfl hd
    apply ownLines_intercalate
    simp [hd]
  · intro s hs
    have hne : suggestions ≠ [] := List.ne_nil_of_mem hs
    refine ownLines_trans (t := "Suggestions:\n" ++ String.intercalate "\n" (suggestions.map fun s => "  - " ++ s)) ?_ ?_
    · apply ownLines_intercalate
      simp [hne]
    · exact ownLines_trans ⟨"Suggestions:\n", "", by simp, Or.inr ⟨"Suggestions:", by decide +kernel⟩, Or.inl rfl⟩
        (ownLines_intercalate _ _ (List.mem_map.2 ⟨s, hs, rfl⟩))
  · intro hne
    apply ownLines_intercalate
    simp [hne]
  · intro c hc
    have hc' : defaultCode cls = some c := hc
    have hne : c ≠ "" := by
      cases cls <;> simp only [defaultCode, Option.some.injEq, reduceCtorEq] at hc' <;> (rw [← hc']; decide)
    apply ownLines_intercalate
    simp [hc', hne]

/-- C78: the error code tells the class: two new exceptions with the same code, whatever else they carry, are of the same class. -/
theorem C78_codes_distinguish (cls cls' : ErrClass) (m m' : String) (d d' : Option String) (s s' : List String) (c c' : List (String × String))
    (h : (mkError cls m d s c).code = (mkError cls' m' d' s' c').code) : cls = cls' := by
  have h' : defaultCode cls = defaultCode cls' := h
  cases cls <;> cases cls' <;> first | rfl | (exfalso; revert h'; decide)

/-- The published error codes, by class (exceptions.py; the base class has none). -/
def publishedCodes : List (ErrClass × Option String) :=
  [(.base, none), (.dataValidation, some "DATA_VALIDATION"), (.coordinate, some "COORDINATE_ERROR"), (.processing, some "PROCESSING_ERROR"),
   (.configuration, some "CONFIGURATION_ERROR"), (.dependency, some "DEPENDENCY_ERROR"), (.tracking, some "TRACKING_ERROR"),
   (.visualisation, some "VISUALISATION_ERROR")]

/-- C78: a new exception of any class carries the published code of its class, whatever else it is given. -/
theorem C78_codes_published (cls : ErrClass) (m : String) (d : Option String) (s : List String) (c : List (String × String)) :
    (cls, (mkError cls m d s c).code) ∈ publishedCodes ∧ (mkError cls m d s c).cls = cls := by
  cases cls <;> simp [publishedCodes, mkError, defaultCode]

/-- C142 fails: suggestions and context added afterwards do not change the text of any exception; a suggestion longer
than the text is not shown. -/
theorem C142_added_later_fails (e : MarExErr) (s k v : String) :
    (e.addSuggestion s).text = e.text ∧ (e.addContext k v).text = e.text ∧
    s ∈ (e.addSuggestion s).suggestions ∧ (e.text.length < s.length → ¬ Shows (e.addSuggestion s).text s) := by
  refine ⟨rfl, rfl, by simp [MarExErr.addSuggestion], ?_⟩
  rintro hlt ⟨a, b, hab⟩
  have h : e.text = a ++ s ++ b := hab
  have := congrArg String.length h
  simp only [String.length_append] at this
  omega

example : (mkError .processing "failed" none [] []).text.length < "use a smaller chunk size along the time dimension".length := by
  decide +kernel

theorem lookup_set (ctx : List (String × String)) (k v k' : String) :
    lookup (if ctx.any (·.1 == k) then ctx.map (fun p => if p.1 == k then (k, v) else p) else ctx ++ [(k, v)]) k' =
      if k' = k then some v else lookup ctx k' := by
  unfold lookup
  induction ctx with
  | nil =>
    simp only [List.any_nil, Bool.false_eq_true, if_false, List.nil_append, List.find?_cons, List.find?_nil]
    by_cases h : k' = k
    · subst h; simp
    · have h' : ¬ k = k' := fun e => h e.symm
      simp [h, h']
  | cons p l ih =>
    by_cases hp : p.1 = k
    · have h1 : ((p :: l).any fun q => q.1 == k) = true := by simp [hp]
      rw [if_pos h1, List.map_cons, if_pos (by simpa using hp)]
      by_cases h : k' = k
      · subst h; simp
      · have h' : ¬ k = k' := fun e => h e.symm
        have hp' : ¬ p.1 = k' := by rw [hp]; exact h'
        rw [List.find?_cons_of_neg (by simpa using h'), List.find?_cons_of_neg (by simpa using hp'), if_neg h]
        rw [if_neg h] at ih
        rw [← ih]
        split
        · rfl
        · rename_i hany
          rw [List.find?_append]
          have e : l.map (fun q => if (q.1 == k) = true then (k, v) else q) = l := by
            rw [List.map_congr_left (g := id), List.map_id]
            intro q hq
            rw [if_neg]; rfl
            intro hq'
            exact hany (List.any_eq_true.mpr ⟨q, hq, hq'⟩)
          rw [e]
          simp [List.find?_cons_of_neg, h']
    · have h1 : ((p :: l).any fun q => q.1 == k) = l.any fun q => q.1 == k := by simp [hp]
      have key : ∀ l' : List (String × String),
          (l'.find? fun p => decide (p.1 = k')).map Prod.snd = (if k' = k then some v else (l.find? fun p => decide (p.1 = k')).map Prod.snd) →
          ((p :: l').find? fun p => decide (p.1 = k')).map Prod.snd =
            (if k' = k then some v else ((p :: l).find? fun p => decide (p.1 = k')).map Prod.snd) := by
        intro l' hl'
        by_cases hk : p.1 = k'
        · have hne : ¬ k' = k := fun e => hp (hk.trans e)
          rw [if_neg hne, List.find?_cons_of_pos (by simpa using hk), List.find?_cons_of_pos (by simpa using hk)]
        · rw [List.find?_cons_of_neg (by simpa using hk), List.find?_cons_of_neg (by simpa using hk), hl']
      by_cases hany : (l.any fun q => q.1 == k) = true
      · rw [if_pos hany] at ih
        rw [if_pos (h1.trans hany), List.map_cons, if_neg (fun h => hp (eq_of_beq h))]
        exact key _ ih
      · rw [if_neg hany] at ih
        rw [if_neg (fun h => hany (h1.symm.trans h)), List.cons_append]
        exact key _ ih

/-- C78, what is stored: `add_context` sets the value of its key and no other, and `add_suggestion` appends to the suggestions; message, code and class
are as before. -/
theorem C78_additions_stored (e : MarExErr) (s k v k' : String) :
    lookup (e.addContext k v).context k' = (if k' = k then some v else lookup e.context k') ∧
    (e.addContext k v).suggestions = e.suggestions ∧ (e.addContext k v).code = e.code ∧
    (e.addSuggestion s).suggestions = e.suggestions ++ [s] ∧ (e.addSuggestion s).context = e.context ∧ (e.addSuggestion s).code = e.code :=
  ⟨lookup_set e.context k v k', rfl, rfl, rfl, rfl, rfl⟩

example (e : MarExErr) : lookup ((e.addContext "a" "1").addContext "a" "2").context "a" = some "2" := by
  rw [(C78_additions_stored _ "" _ _ _).1]; rfl

/-! ### C79 -/

/-- C79, what the exception carries: the extra information, the last value of each key, over the context given. -/
theorem C79_context_of_exception (cls : ErrClass) (message : String) (info ctx : List (String × String)) (k : String) :
    lookup (createError cls message info ctx).1.context k =
      match lookup info.reverse k with
      | some v => some v
      | none => lookup ctx k := by
  show lookup (info.foldl (fun c p => dictSet c p.1 p.2) ctx) k = _
  induction info using List.reverseRec with
  | nil => rfl
  | append_singleton l p ih =>
    rw [List.foldl_append, List.foldl_cons, List.foldl_nil, List.reverse_append, List.reverse_singleton, List.singleton_append]
    have h := lookup_set (l.foldl (fun c p => dictSet c p.1 p.2) ctx) p.1 p.2 k
    have h' : lookup (dictSet (l.foldl (fun c p => dictSet c p.1 p.2) ctx) p.1 p.2) k =
      if k = p.1 then some p.2 else lookup (l.foldl (fun c p => dictSet c p.1 p.2) ctx) k := h
    rw [h', ih]
    unfold lookup
    by_cases hk : k = p.1
    · rw [if_pos hk, List.find?_cons_of_pos (by simpa using hk.symm)]; rfl
    · rw [if_neg hk, List.find?_cons_of_neg (by simpa using fun e => hk (Eq.symm e))]

/-- C79, partial: building an exception without extra information leaves the caller's context as it was. -/
theorem C79_context_untouched_partial (cls : ErrClass) (message : String) (ctx : List (String × String)) :
    (createError cls message [] ctx).2 = ctx ∧ (createError cls message [] ctx).1.context = ctx := ⟨rfl, rfl⟩

theorem dictSet_length (ctx : List (String × String)) (k v : String) : ctx.length ≤ (dictSet ctx k v).length := by
  unfold dictSet; split <;> simp

theorem dictFold_length (info ctx : List (String × String)) :
    ctx.length ≤ (info.foldl (fun c p => dictSet c p.1 p.2) ctx).length := by
  induction info generalizing ctx with
  | nil => simp
  | cons p info ih => exact le_trans (dictSet_length ctx p.1 p.2) (ih _)

/-- C79 fails: whenever the extra information brings a new key, the dict the caller passed as `context` is changed. -/
theorem C79_context_changed_fails (cls : ErrClass) (message : String) (ctx info : List (String × String)) (k v : String)
    (hk : ∀ p ∈ ctx, p.1 ≠ k) :
    (createError cls message ((k, v) :: info) ctx).2 ≠ ctx := by
  intro h
  have h1 : (dictSet ctx k v).length = ctx.length + 1 := by
    unfold dictSet
    rw [if_neg]
    · simp
    · simpa using fun x hab => hk (k, x) hab rfl
  have h2 := dictFold_length info (dictSet ctx k v)
  have h3 : (info.foldl (fun c p => dictSet c p.1 p.2) (dictSet ctx k v)) = ctx := h
  rw [h3] at h2
  omega

example : (createError .dataValidation "bad" [("shape", "(3,)")] [("name", "sst")]).2 = [("name", "sst"), ("shape", "(3,)")] := by
  decide +kernel

/-! ### C50 -/

/-- C50, partial: a request that fits the machine is started as it is.  Missing: requests that do not fit. -/
theorem C50_fitting_request_partial (n t physical logical : Nat) (hn : 0 < n) (hfit : n * t ≤ logical) :
    startWorkers n t physical logical = some n := by
  unfold startWorkers
  have : ¬ logical < n * t := by omega
  simp [this]
  omega

/-- C50 fails on every machine (logical cores at least as many as physical ones): a request for more threads than the
machine has is started unreduced. -/
theorem C50_not_reduced_fails (n t physical logical : Nat) (hmach : physical ≤ logical) (hover : logical < n * t) :
    startWorkers n t physical logical = some n ∧ ¬ n * t ≤ logical := by
  have hn : n ≠ 0 := by rintro rfl; simp at hover
  unfold startWorkers
  have : physical < n * t := by omega
  simp [this, hn]
  omega

example : startWorkers 8 4 4 8 = some 8 := by decide +kernel

/-- C50, partial: when fewer logical than physical cores are reported (a container with a CPU quota), a request between the two is reduced to the
largest number of workers that fits, and fails iff not even one fits.  Missing: requests for more threads than there are physical cores. -/
theorem C50_reduced_request_partial (n t physical logical : Nat) (hphys : n * t ≤ physical) (hover : logical < n * t) :
    (startWorkers n t physical logical = none ↔ logical < t) ∧
    ∀ m, startWorkers n t physical logical = some m → m * t ≤ logical ∧ logical < (m + 1) * t := by
  have ht : 0 < t := by
    rcases Nat.eq_zero_or_pos t with rfl | h
    · simp at hover
    · exact h
  have hw : startWorkers n t physical logical = if logical / t = 0 then none else some (logical / t) := by
    unfold startWorkers
    rw [if_neg (show ¬ physical < n * t by omega), if_pos hover]
  rw [hw]
  constructor
  · rw [ite_eq_left_iff, Nat.div_eq_zero_iff]
    simp only [reduceCtorEq, imp_false, not_not]
    omega
  · intro m hm
    split at hm
    · cases hm
    · cases hm
      exact ⟨Nat.div_mul_le_self _ _, by rw [Nat.mul_comm]; exact Nat.lt_mul_div_succ logical ht⟩

example : startWorkers 8 2 16 6 = some 3 := by decide +kernel

end MarEx.Props
