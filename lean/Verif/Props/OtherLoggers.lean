import Verif.Model.OtherLoggers
import Verif.Props.Support
import Verif.Props.LogUse
/-! C200: the loggers of other libraries. C201: the level of the marEx logger. C202: information about dask data. C203: the report at the end of a
progress bar. Additions to C47 and C97. -/
namespace MarEx.Spec

/-- The loggers that marEx claims to quieten. -/
def noisyLoggers : List (List String) :=
  [["distributed", "scheduler"], ["distributed", "worker"], ["distributed", "shuffle", "_scheduler_plugin"], ["distributed", "comm"],
   ["distributed", "core"], ["tornado", "access"], ["asyncio"], ["matplotlib", "font_manager"], ["PIL", "PngImagePlugin"]]

/-- Calls made to marEx, as opposed to the application setting a level itself. -/
def FromPackage : LevelCall → Prop
  | .app _ _ => False
  | _ => True

/-- The eight level names of the standard library. -/
def levelNames : List (String × Nat) :=
  [("CRITICAL", 50), ("FATAL", 50), ("ERROR", 40), ("WARNING", 30), ("WARN", 30), ("INFO", 20), ("DEBUG", 10), ("NOTSET", 0)]

end MarEx.Spec

namespace MarEx.Props
open Spec

/-! ### C200 -/

theorem levelStep_spec (lv : Levels) (c : LevelCall) (hc : FromPackage c) (k : LoggerName) :
    levelStep lv c k = lv k ∨ (levelStep lv c k = 40 ∧ k ∈ noisyLoggers) := by
  have hq : ∀ k, quietenExternal lv k = lv k ∨ (quietenExternal lv k = 40 ∧ k ∈ noisyLoggers) := by
    intro k
    unfold quietenExternal
    by_cases h : k ∈ externalLoggers
    · exact Or.inr ⟨by rw [if_pos h], h⟩
    · exact Or.inl (by rw [if_neg h])
  cases c with
  | configure d => cases d <;> simp only [levelStep] <;> first | exact hq k | simp
  | package v q =>
    simp only [levelStep]
    split
    · exact hq k
    · exact Or.inl rfl
  | tracker d =>
    simp only [levelStep]
    split
    · by_cases h : k = ["distributed", "scheduler"]
      · subst h
        exact Or.inr ⟨by simp, by decide⟩
      · exact Or.inl (by rw [Function.update_of_ne h])
    · exact Or.inl rfl
  | app n l => exact absurd hc (by simp [FromPackage])

theorem effective_congr (a b : Levels) (n : LoggerName) (h : ∀ k, k <+: n → a k = b k) : effectiveLevel a n = effectiveLevel b n := by
  unfold effectiveLevel
  congr 2
  apply List.map_congr_left
  intro k hk
  exact h k ((List.mem_inits k n).1 (List.mem_reverse.1 hk))

/-- C200, the part that holds: calls of marEx, in any number and order, leave what every logger of a process lets through as it was, unless the logger is one
of the nine that marEx quietens or below one of them. Missing: those nine are changed for good, see `C200_not_given_back_fails`. -/
theorem C200_others_untouched_partial (lv : Levels) (cs : List LevelCall) (hcs : ∀ c ∈ cs, FromPackage c) (n : LoggerName)
    (hn : ∀ e ∈ noisyLoggers, ¬ e <+: n) (m : Nat) : passes (levelsAfter lv cs) n m = passes lv n m := by
  have key : ∀ k, k <+: n → levelsAfter lv cs k = lv k := by
    intro k hk
    unfold levelsAfter
    induction cs generalizing lv with
    | nil => rfl
    | cons c cs ih =>
      rw [List.foldl_cons, ih (levelStep lv c) fun c' h' => hcs c' (List.mem_cons_of_mem _ h')]
      rcases levelStep_spec lv c (hcs c List.mem_cons_self) k with h | ⟨_, h⟩
      · exact h
      · exact absurd hk (hn k h)
  unfold passes
  rw [effective_congr _ _ n key]

example : (∀ e ∈ noisyLoggers, ¬ e <+: ["distributed", "nanny"]) ∧ (∀ c ∈ [LevelCall.configure true, .package (some true) none, .tracker 0], FromPackage c) ∧
    passes (levelsAfter (fun k => if k = [] then 30 else 0) [.configure true, .package (some true) none, .tracker 0]) ["distributed", "nanny"] 30 = true ∧
    passes (levelsAfter (fun k => if k = [] then 30 else 0) [.configure true]) ["asyncio"] 30 = false := by
  refine ⟨by decide, ?_, by decide +kernel, by decide +kernel⟩
  intro c hc
  simp only [List.mem_cons, List.not_mem_nil, or_false] at hc
  rcases hc with rfl | rfl | rfl <;> simp [FromPackage]

theorem find_le (a b : Levels) (m : Nat) (hm : 40 ≤ m) (l : List LoggerName) (h : ∀ k ∈ l, b k = a k ∨ b k = 40)
    (ha : ((l.map a).find? (· != 0)).getD 0 ≤ m) : ((l.map b).find? (· != 0)).getD 0 ≤ m := by
  induction l with
  | nil => simp
  | cons k l ih =>
    rw [List.map_cons, List.find?_cons] at ha ⊢
    rcases h k List.mem_cons_self with hk | hk
    · rw [hk]
      cases h0 : (a k != 0) with
      | true => rw [h0] at ha; exact ha
      | false =>
        rw [h0] at ha
        exact ih (fun k' hk' => h k' (List.mem_cons_of_mem _ hk')) ha
    · rw [hk]
      exact hm

/-- C200, the part that holds: an error of any library that was let through is still let through after any calls of marEx. Missing: less serious messages, see
`C200_hidden_in_verbose_fails`. -/
theorem C200_errors_stay_partial (lv : Levels) (cs : List LevelCall) (hcs : ∀ c ∈ cs, FromPackage c) (n : LoggerName) (m : Nat) (hm : 40 ≤ m)
    (h : passes lv n m = true) : passes (levelsAfter lv cs) n m = true := by
  unfold levelsAfter
  induction cs generalizing lv with
  | nil => exact h
  | cons c cs ih =>
    rw [List.foldl_cons]
    refine ih (levelStep lv c) (fun c' h' => hcs c' (List.mem_cons_of_mem _ h')) ?_
    have h' := of_decide_eq_true h
    refine decide_eq_true (find_le lv _ m hm _ (fun k _ => ?_) h')
    rcases levelStep_spec lv c (hcs c List.mem_cons_self) k with h | ⟨h, _⟩
    · exact Or.inl h
    · exact Or.inr h

example : passes (levelsAfter (fun _ => 0) [.configure true, .tracker 1]) ["distributed", "scheduler"] 40 = true ∧
    passes (levelsAfter (fun _ => 0) [.configure true, .tracker 1]) ["distributed", "scheduler"] 39 = false := by decide +kernel

theorem effective_of_set (lv : Levels) (n : LoggerName) (h : lv n ≠ 0) : effectiveLevel lv n = lv n := by
  unfold effectiveLevel
  have : n.inits.reverse = n :: (n.inits.dropLast).reverse := by
    have hne : n.inits ≠ [] := by cases n <;> simp
    have hl : n.inits.getLast hne = n := by
      rw [List.getLast_eq_getElem]
      simp
    conv_lhs => rw [← List.dropLast_append_getLast hne, hl]
    simp
  rw [this, List.map_cons, List.find?_cons, show (lv n != 0) = true by simpa using h]
  rfl

theorem levels_of_noisy (lv : Levels) (cs : List LevelCall) (hcs : ∀ c ∈ cs, FromPackage c) (e : LoggerName) (h : lv e = 40) : levelsAfter lv cs e = 40 := by
  unfold levelsAfter
  induction cs generalizing lv with
  | nil => exact h
  | cons c cs ih =>
    rw [List.foldl_cons]
    refine ih _ (fun c' h' => hcs c' (List.mem_cons_of_mem _ h')) ?_
    rcases levelStep_spec lv c (hcs c List.mem_cons_self) e with h' | ⟨h', _⟩
    · rw [h', h]
    · exact h'

/-- C200 fails for the nine loggers, whatever the application has set: one call of a package function with `verbose` (or `quiet`) given, in verbose mode just as
in quiet mode, hides everything less serious than an error. -/
theorem C200_hidden_in_verbose_fails (lv : Levels) (v q : Option Bool) (hvq : v.isSome ∨ q.isSome) (e : LoggerName) (he : e ∈ noisyLoggers) (m : Nat) :
    passes (levelStep lv (.package v q)) e m = decide (40 ≤ m) := by
  have h : levelStep lv (.package v q) e = 40 := by
    have : (v.isSome || q.isSome) = true := by simpa using hvq
    simp only [levelStep, this, if_true, quietenExternal]
    exact if_pos he
  unfold passes
  rw [effective_of_set _ e (by rw [h]; decide), h]

/-- C200 fails for the nine loggers: once they have been quietened, no later call of marEx gives them back, not even
`configure_logging(disable_external_loggers=False)`. -/
theorem C200_not_given_back_fails (lv : Levels) (cs : List LevelCall) (hcs : ∀ c ∈ cs, FromPackage c) (e : LoggerName) (he : e ∈ noisyLoggers) (m : Nat) :
    passes (levelsAfter lv (.configure true :: cs)) e m = decide (40 ≤ m) := by
  have h : levelsAfter lv (.configure true :: cs) e = 40 :=
    levels_of_noisy (levelStep lv (.configure true)) cs hcs e (by simp only [levelStep, if_true, quietenExternal]; exact if_pos he)
  unfold passes
  rw [effective_of_set _ e (by rw [h]; decide), h]

example : passes (fun k => if k = ["asyncio"] then 10 else 0) ["asyncio"] 10 = true ∧
    passes (levelsAfter (fun k => if k = ["asyncio"] then 10 else 0) [.configure true, .configure false]) ["asyncio"] 10 = false := by decide +kernel

/-! ### C201 -/

theorem loggingAttr_of_name (a : String) (n : Nat) (h : (a, n) ∈ levelNames) : loggingAttr a = some (.level n) := by
  simp only [levelNames, List.mem_cons, Prod.mk.injEq, List.not_mem_nil, or_false] at h
  rcases h with ⟨rfl, rfl⟩ | ⟨rfl, rfl⟩ | ⟨rfl, rfl⟩ | ⟨rfl, rfl⟩ | ⟨rfl, rfl⟩ | ⟨rfl, rfl⟩ | ⟨rfl, rfl⟩ | ⟨rfl, rfl⟩ <;> simp [loggingAttr]

theorem loggingAttr_none (a : String) (h : a ∉ levelNames.map Prod.fst) (h1 : a ≠ "BASIC_FORMAT") (h2 : a ≠ "_STYLES") : loggingAttr a = none := by
  simp only [levelNames, List.map_cons, List.map_nil, List.mem_cons, List.not_mem_nil, or_false, not_or] at h
  obtain ⟨a1, a2, a3, a4, a5, a6, a7, a8⟩ := h
  simp [loggingAttr, *]

/-- C201, the part that holds: a level given as a number is in force, whatever the mode; so is one given by one of the eight level names of the standard library,
in capitals or not; without a level it is WARNING in quiet mode, DEBUG in verbose mode, and else the one named by the environment variable, INFO if there is none.
Missing: any other name, see `C201_unknown_name_fails`. -/
theorem C201_known_level_partial (up : String → String) (env : Option String) (verbose quiet : Bool) :
    (∀ n, levelInForce up env verbose quiet (.int n) = .ok n) ∧
    (∀ s a n, (a, n) ∈ levelNames → up s = a → levelInForce up env verbose quiet (.str s) = .ok n) ∧
    levelInForce up env verbose true .none = .ok 30 ∧
    levelInForce up env true false .none = .ok 10 ∧
    (∀ s a n, (a, n) ∈ levelNames → up s = a → levelInForce up (some s) false false .none = .ok n) ∧
    (up "INFO" = "INFO" → levelInForce up none false false .none = .ok 20) := by
  refine ⟨fun n => rfl, ?_, rfl, rfl, ?_, ?_⟩
  · intro s a n h hs
    simp [levelInForce, resolveText, hs, loggingAttr_of_name a n h, setLevel]
  · intro s a n h hs
    simp [levelInForce, hs, loggingAttr_of_name a n h, resolveText, setLevel]
  · intro h
    simp [levelInForce, h, loggingAttr, resolveText, setLevel]

example : levelInForce String.toUpper none false false (.str "Warn") = .ok 30 ∧ levelInForce String.toUpper (some "debug") false false .none = .ok 10 ∧
    levelInForce String.toUpper (some "debug") false true (.int 5) = .ok 5 := by
  refine ⟨?_, ?_, ?_⟩
  · exact (C201_known_level_partial _ _ _ _).2.1 "Warn" "WARN" 30 (by decide) (by decide +kernel)
  · exact (C201_known_level_partial _ none false false).2.2.2.2.1 "debug" "DEBUG" 10 (by decide) (by decide +kernel)
  · rfl

/-- C201 fails: every other name, given as the level or in the environment, is neither in force nor refused: the level is silently INFO (given as `level`, also in
quiet and in verbose mode). The only texts that are refused are two that happen to name something else in the standard library. -/
theorem C201_unknown_name_fails (up : String → String) (env : Option String) (verbose quiet : Bool) (s : String) (h : up s ∉ levelNames.map Prod.fst) :
    (up s ≠ "BASIC_FORMAT" → up s ≠ "_STYLES" →
      levelInForce up env verbose quiet (.str s) = .ok 20 ∧ levelInForce up (some s) false false .none = .ok 20) ∧
    (up s = "BASIC_FORMAT" → levelInForce up env verbose quiet (.str s) = .error "ValueError") ∧
    (up s = "_STYLES" → levelInForce up env verbose quiet (.str s) = .error "TypeError") := by
  refine ⟨fun h1 h2 => ?_, fun h1 => ?_, fun h1 => ?_⟩
  · have := loggingAttr_none _ h h1 h2
    simp [levelInForce, this, resolveText, setLevel]
  · simp [levelInForce, h1, loggingAttr, resolveText, setLevel]
  · simp [levelInForce, h1, loggingAttr, resolveText, setLevel]

example : levelInForce String.toUpper none false true (.str "trace") = .ok 20 ∧ levelInForce String.toUpper none false true (.str "10") = .ok 20 ∧
    levelInForce String.toUpper none false true .none = .ok 30 :=
  ⟨((C201_unknown_name_fails _ _ _ _ "trace" (by decide +kernel)).1 (by decide +kernel) (by decide +kernel)).1,
    ((C201_unknown_name_fails _ _ _ _ "10" (by decide +kernel)).1 (by decide +kernel) (by decide +kernel)).1, rfl⟩

/-! ### C202 -/

/-- C202: asking for information about dask data never ends a computation: whatever the object does, only an interrupt gets through. -/
theorem C202_never_raises (o : DaskView) (message e : String) : (logDaskInfo o message).2 ≠ .error (.exc e) := by
  unfold logDaskInfo
  intro h
  split at h
  · simp at h
  · rename_i hr
    cases hb : daskInfoBody o message with
    | mk ls r =>
      rw [hb] at h hr
      simp only at h
      subst h
      exact hr ls e rfl

/-- C202, the part that holds: for data that answers all questions, one line with the shape, the chunks (cut after 100 characters) and the size is logged, after
the message if there is one; for dask data the number of tasks follows. Missing: datasets, see `C202_dataset_fails`. -/
theorem C202_array_partial (c b s message : String) (k : Option Nat) (hc : c.length ≤ 100) :
    logDaskInfo ⟨some (.ok c), .ok b, .ok s, k.map .ok⟩ message =
      (((if message = "" then "" else message ++ " - ") ++ ("Dask object - Shape: " ++ s ++ ", Chunks: " ++ c ++ ", Size: " ++ b)) ::
        (k.toList.map fun t => "Dask graph size: " ++ toString t ++ " tasks"), .ok ()) := by
  have hcut : cutChunks c = c := by
    unfold cutChunks
    rw [if_neg (by omega)]
  cases k <;> by_cases hm : message = "" <;> simp [logDaskInfo, daskInfoBody, hcut, hm]

example : (logDaskInfo ⟨some (.ok "((4,), (9,))"), .ok "288", .ok "(4, 9)", some (.ok 3)⟩ "Data") =
    (["Data - Dask object - Shape: (4, 9), Chunks: ((4,), (9,)), Size: 288", "Dask graph size: 3 tasks"], .ok ()) := by
  have := C202_array_partial "((4,), (9,))" "288" "(4, 9)" "Data" (some 3) (by decide +kernel)
  simp only [Option.map_some] at this
  rw [this]
  decide +kernel

/-- C202 fails for every dataset: it has chunks but no shape, so all that is logged is that the information could not be logged. -/
theorem C202_dataset_fails (c b : String) (tasks : Option (Except Raised Nat)) (message e : String) :
    logDaskInfo ⟨some (.ok c), .ok b, .error (.exc e), tasks⟩ message = (["Could not log Dask info: " ++ e], .ok ()) := by
  simp [logDaskInfo, daskInfoBody]

/-! ### C203 -/

/-- C203, the part that holds: the block of a progress bar gives what its body gives, and the bar is closed in every case, provided that closing it does not raise;
in quiet mode nothing is logged. Missing: the report is made whatever happened, see `C203_completed_fails`. -/
theorem C203_bar_partial {α : Type} (bar logger : Bool) (mode : Mode) (desc : String) (body : Except Raised α) :
    (progressBar bar (.ok ()) logger mode desc body).2.2 = body ∧ (progressBar bar (.ok ()) logger mode desc body).1 = bar ∧
    (mode = .quiet → (progressBar bar (.ok ()) logger mode desc body).2.1 = []) ∧
    (logger = true → bar = false → mode ≠ .quiet → (progressBar bar (.ok ()) logger mode desc body).2.1 = ["Completed " ++ desc]) := by
  cases bar <;> cases logger <;> cases mode <;> simp [progressBar]

/-- C203 fails: without a bar, a block that ended with an exception is reported as completed, whatever the exception. -/
theorem C203_completed_fails {α : Type} (closing : Except Raised Unit) (mode : Mode) (hm : mode ≠ .quiet) (desc : String) (e : Raised) :
    progressBar (α := α) false closing true mode desc (.error e) = (false, ["Completed " ++ desc], .error e) := by
  cases mode <;> simp_all [progressBar]

example : progressBar (α := Nat) false (.ok ()) true .normal "events" (.error (.exc "MemoryError")) =
    (false, ["Completed events"], .error (.exc "MemoryError")) := by
  rw [C203_completed_fails _ _ (by decide)]
  decide +kernel

/-! ### Additions to C97 and C47 -/

/-- C97, also when the memory is logged: if the memory of the process can be read, the block gives what it gives without. Missing: see
`C97_memory_unreadable_fails`. -/
theorem C97_memory_partial {α : Type} (verbose : Bool) (level : Nat) (dur : ℚ) (body : Except Raised α) :
    logTimingMemory verbose level dur (.ok ()) (.ok ()) body = (true, (logTiming verbose dur body).2) := by
  unfold logTimingMemory
  cases body with
  | ok a => simp
  | error e => cases e <;> simp [logTiming]

example : logTimingMemory false 20 1 (.ok ()) (.ok ()) (.ok 7) = (true, .ok 7) := by
  rw [C97_memory_partial]
  decide +kernel

/-- C97 fails when the memory of the process cannot be read (on some systems psutil is not permitted to), in every mode: a step that logs it is not run at all, or
its result is lost. -/
theorem C97_memory_unreadable_fails {α : Type} (verbose : Bool) (level : Nat) (hl : level ≤ 20) (dur : ℚ) (after : Except Raised Unit) (body : Except Raised α)
    (a : α) (e : Raised) :
    logTimingMemory verbose level dur (.error e) after body = (false, .error e) ∧
    logTimingMemory verbose level dur (.ok ()) (.error e) (.ok a) = (true, .error e) := by
  simp [logTimingMemory, hl]

/-- C47, the part that holds of `print_dependency_status`: whatever the table of known packages says, each of the nine is listed exactly once, with what the table
says, and suggestions are printed iff the table has a missing package. Missing: the table says that every package is available, see `C47_status_fails`. -/
theorem C47_status_partial (b : String → Bool) :
    let out := statusLines (trackedDeps.map fun n => (n, b n))
    (∀ n ∈ trackedDeps, out.count (.package n (b n)) = 1 ∧ out.count (.package n !(b n)) = 0) ∧
    (.suggestions ∈ out ↔ ∃ n ∈ trackedDeps, b n = false) := by
  have hout : ∃ p, statusLines (trackedDeps.map fun n => (n, b n)) =
      [.profile p, .category "Performance", .package "jax" (b "jax"), .package "jaxlib" (b "jaxlib"), .category "HPC",
        .package "dask_jobqueue" (b "dask_jobqueue"), .package "psutil" (b "psutil"), .category "Visualisation",
        .package "matplotlib" (b "matplotlib"), .package "cartopy" (b "cartopy"), .package "seaborn" (b "seaborn"),
        .package "cmocean" (b "cmocean"), .category "Core", .package "pillow" (b "pillow")] ++
      (if ((trackedDeps.map fun n => (n, b n)).filter fun p => !p.2).isEmpty then [] else [.suggestions]) := by
    refine ⟨profileOf fun n => ((trackedDeps.map fun n => (n, b n)).lookup n).getD false, ?_⟩
    unfold statusLines statusCategories
    simp [trackedDeps, List.lookup]
  obtain ⟨p, hp⟩ := hout
  intro out
  have hout' : out = _ := hp
  rw [hout']
  constructor
  · intro n hn
    simp only [trackedDeps, List.mem_cons, List.not_mem_nil, or_false] at hn
    rcases hn with rfl | rfl | rfl | rfl | rfl | rfl | rfl | rfl | rfl <;> constructor <;> split <;> simp
  · by_cases hm : ((trackedDeps.map fun n => (n, b n)).filter fun p => !p.2).isEmpty = true
    · rw [if_pos hm]
      simp only [List.isEmpty_iff, List.filter_eq_nil_iff, List.mem_map, forall_exists_index, and_imp] at hm
      simp only [List.append_nil, List.mem_cons, List.not_mem_nil, or_false, reduceCtorEq, false_iff, not_exists, not_and]
      intro n hn hb
      have := hm (n, b n) n hn rfl
      simp [hb] at this
    · rw [if_neg hm]
      simp only [List.isEmpty_iff, List.filter_eq_nil_iff, List.mem_map, forall_exists_index, and_imp, not_forall] at hm
      obtain ⟨q, n, hn, rfl, hq⟩ := hm
      simp only [List.mem_append, List.mem_singleton, or_true, true_iff]
      exact ⟨n, hn, by simpa using hq⟩

example : StatusLine.package "cartopy" false ∈ statusLines (trackedDeps.map fun n => (n, n != "cartopy")) ∧
    StatusLine.suggestions ∈ statusLines (trackedDeps.map fun n => (n, n != "cartopy")) := by decide +kernel

/-- C47 fails for what is printed and warned about, in every environment: each package is listed as available, the profile as full, no suggestion is printed, and
there is no warning on import or from `warn_missing_dependency`, whether jax is installed or not. -/
theorem C47_status_fails (installed : String → Bool) :
    StatusLine.profile "full" ∈ statusLines (depTable installed) ∧
    (∀ n, StatusLine.package n false ∉ statusLines (depTable installed)) ∧ StatusLine.suggestions ∉ statusLines (depTable installed) ∧
    importWarning (hasDependency installed) = none ∧ ∀ n ∈ trackedDeps, warnMissing (hasDependency installed) n = none := by
  have hout : statusLines (depTable installed) =
      [.profile "full", .category "Performance", .package "jax" true, .package "jaxlib" true, .category "HPC",
        .package "dask_jobqueue" true, .package "psutil" true, .category "Visualisation",
        .package "matplotlib" true, .package "cartopy" true, .package "seaborn" true,
        .package "cmocean" true, .category "Core", .package "pillow" true] := by
    change statusLines (trackedDeps.map fun n => (n, true)) = _
    decide +kernel
  have hav := C47_always_available_fails installed
  refine ⟨by rw [hout]; simp, fun n => by rw [hout]; simp, by rw [hout]; simp, ?_, ?_⟩
  · have := (hav.1 "jax" (by decide)).1
    simp [importWarning, this]
  · intro n hn
    simp [warnMissing, (hav.1 n hn).1]

end MarEx.Props
