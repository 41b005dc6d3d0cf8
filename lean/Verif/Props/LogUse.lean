import Verif.Model.LogUse
import Mathlib.Tactic
/-! # C97, C98: logging does not change results; where messages go -/
namespace MarEx.Props
open Spec

/-- **C97** A computation run under `log_timing` gives what it gives without: the same value, or the same exception –
for every computation, when the measured time is not zero or the mode is not verbose.  The log has a starting line and
then says whether it completed or failed (an interrupt passes without a second line).
Missing: verbose mode on a clock that does not advance, where the property fails (`C97_zero_duration_fails`). -/
theorem C97_timing_transparent_partial {α : Type} (verbose : Bool) (dur : ℚ) (body : Except Raised α)
    (h : verbose = false ∨ dur ≠ 0) :
    (logTiming verbose dur body).2 = body ∧
    (logTiming verbose dur body).1 = .starting :: (match body with
      | .ok _ => [.completed]
      | .error (.exc _) => [.failed]
      | .error (.base _) => []) := by
  unfold logTiming
  match body with
  | .ok a =>
    have : (verbose && dur == 0) = false := by
      rcases h with h | h
      · simp [h]
      · simp [h]
    simp [this]
  | .error (.exc e) => exact ⟨rfl, rfl⟩
  | .error (.base e) => exact ⟨rfl, rfl⟩

example : (logTiming true (1/1000) (.ok 5 : Except Raised Nat)).2 = .ok 5 :=
  (C97_timing_transparent_partial _ _ _ (.inr (by norm_num))).1

/-- **C97** negative: in verbose mode, a computation that succeeds within the resolution of the clock is turned into a
failure: the closing line divides by the time taken. -/
theorem C97_zero_duration_fails {α : Type} (a : α) :
    (logTiming true 0 (.ok a)).2 = .error (.exc "ZeroDivisionError") ∧ (logTiming true 0 (.ok a)).1 = [.starting, .failed] := by
  unfold logTiming
  simp

theorem reprs_ok {l : List ArgRepr} (h : ∀ a ∈ l, ∃ s, a = .ok s) : ∃ t, reprs l = .ok t := by
  induction l with
  | nil => exact ⟨[], rfl⟩
  | cons a l ih =>
    obtain ⟨s, rfl⟩ := h _ List.mem_cons_self
    obtain ⟨t, ht⟩ := ih fun a ha => h a (List.mem_cons_of_mem _ ha)
    exact ⟨s :: t, by simp [reprs, ht]⟩

theorem reprs_error {l : List ArgRepr} {e : Raised} (h : .error e ∈ l) : ∃ e', .error e' ∈ l ∧ reprs l = .error e' := by
  induction l with
  | nil => simp at h
  | cons a l ih =>
    cases a with
    | error e' => exact ⟨e', List.mem_cons_self, rfl⟩
    | ok s =>
      have hl : Except.error e ∈ l := by simpa using h
      obtain ⟨e', h1, h2⟩ := ih hl
      exact ⟨e', List.mem_cons_of_mem _ h1, by simp [reprs, h2]⟩

/-- **C97** A function decorated with `log_function_call` is called exactly once and gives its caller what the
undecorated function gives, value or exception, as long as the arguments that are logged – the first three positional
and the first three named ones – can be shown; the other arguments are not touched.
Missing: arguments that cannot be shown (`C97_unshowable_argument_fails`). -/
theorem C97_decorated_call_partial {α : Type} (args : List ArgRepr) (kwargs : List (String × ArgRepr))
    (func : Except Raised α) (ha : ∀ a ∈ args.take 3, ∃ s, a = .ok s) (hk : ∀ p ∈ kwargs.take 3, ∃ s, p.2 = .ok s) :
    (logFunctionCall args kwargs func).2 = (true, func) ∧
    (logFunctionCall args kwargs func).1 = .calling :: (match func with
      | .ok _ => [.completed]
      | .error (.exc _) => [.failed]
      | .error (.base _) => []) := by
  obtain ⟨t, ht⟩ := reprs_ok ha
  obtain ⟨u, hu⟩ := reprs_ok (l := (kwargs.take 3).map Prod.snd) (by
    intro a h
    obtain ⟨p, hp, rfl⟩ := List.mem_map.1 h
    exact hk p hp)
  unfold logFunctionCall paramText
  rw [ht, hu]
  match func with
  | .ok a => exact ⟨rfl, rfl⟩
  | .error (.exc e) => exact ⟨rfl, rfl⟩
  | .error (.base e) => exact ⟨rfl, rfl⟩

example : (logFunctionCall [.ok "1", .ok "2", .ok "3", .error (.exc "X")] [("y", .ok "10")] (.ok 7 : Except Raised Nat)).2 = (true, .ok 7) :=
  (C97_decorated_call_partial _ _ _ (by simp) (by simp)).1

/-- **C97** negative: if one of the logged arguments cannot be shown, the decorated function is never entered and the
caller gets the exception of the showing, whatever the function would have returned. -/
theorem C97_unshowable_argument_fails {α : Type} (args : List ArgRepr) (kwargs : List (String × ArgRepr))
    (func : Except Raised α) (e : Raised) (he : .error e ∈ args.take 3 ∨ .error e ∈ (kwargs.take 3).map Prod.snd) :
    ∃ e', (.error e' ∈ args.take 3 ∨ .error e' ∈ (kwargs.take 3).map Prod.snd) ∧
      logFunctionCall args kwargs func = ([], false, .error e') := by
  unfold logFunctionCall paramText
  by_cases h : ∃ e, .error e ∈ args.take 3
  · obtain ⟨e, h⟩ := h
    obtain ⟨e', h1, h2⟩ := reprs_error h
    exact ⟨e', .inl h1, by rw [h2]⟩
  · have hk : .error e ∈ (kwargs.take 3).map Prod.snd := he.resolve_left fun h' => h ⟨e, h'⟩
    obtain ⟨t, ht⟩ := reprs_ok (l := args.take 3) (by
      intro a ha
      cases a with
      | ok s => exact ⟨s, rfl⟩
      | error e => exact absurd ⟨e, ha⟩ h)
    obtain ⟨e', h1, h2⟩ := reprs_error hk
    exact ⟨e', .inr h1, by rw [ht, h2]⟩

example : (Except.error (Raised.exc "MemoryError") : ArgRepr) ∈ [.ok "1", Except.error (Raised.exc "MemoryError")].take 3 := by
  simp

/-- **C149** The text of the parameters in the log has at most 203 characters, however large the arguments. -/
theorem C149_parameter_text_bounded (args : List ArgRepr) (kwargs : List (String × ArgRepr)) (s : String)
    (h : paramText args kwargs = .ok s) : s.length ≤ 203 := by
  have key : ∀ p, (cutText p).length ≤ 203 := by
    intro p
    unfold cutText
    split
    · rw [String.length_append, String.length_ofList]
      have h1 := List.length_take_le 200 p.toList
      have h2 : ("..." : String).length = 3 := by decide +kernel
      omega
    · omega
  unfold paramText at h
  split at h
  · simp at h
  split at h
  · simp at h
  simp only [Except.ok.injEq] at h
  subst h
  exact key _

example : paramText [.ok "1", .ok "2"] [("y", .ok "10")] = .ok "1, 2, y=10" := by decide +kernel

/-- The first three of a list of texts, with a note of how many are left out. -/
def Shown (l : List String) : List String := if l.length ≤ 3 then l else l.take 3 ++ [s!"... +{l.length - 3} more"]

theorem reprs_values (l : List String) : reprs (l.map .ok) = .ok l := by
  induction l with
  | nil => rfl
  | cons a l ih => simp only [List.map_cons, reprs, ih]

/-- **C149** What is logged of the arguments: if the first three positional and the first three keyword arguments, with a note of how many more there
are, take at most 200 characters, they are logged in full, separated by commas; if they take more, the first 200 characters are logged,
followed by dots. -/
theorem C149_parameter_text (args : List String) (kwargs : List (String × String)) :
    ∀ full, full = String.intercalate ", " (Shown args ++ Shown (kwargs.map fun p => p.1 ++ "=" ++ p.2)) →
      (full.length ≤ 200 → paramText (args.map .ok) (kwargs.map fun p => (p.1, .ok p.2)) = .ok full) ∧
      (200 < full.length → ∃ t, paramText (args.map .ok) (kwargs.map fun p => (p.1, .ok p.2)) = .ok (t ++ "...") ∧ t.length = 200 ∧
        t.toList <+: full.toList) := by
  intro full hfull
  have key : paramText (args.map .ok) (kwargs.map fun p => (p.1, .ok p.2)) = .ok (cutText full) := by
    unfold paramText
    have e1 : reprs ((args.map .ok).take 3) = .ok (args.take 3) := by rw [← List.map_take, reprs_values]
    have e2 : reprs (((kwargs.map fun p => (p.1, (.ok p.2 : ArgRepr))).take 3).map Prod.snd) = .ok ((kwargs.take 3).map Prod.snd) := by
      rw [← List.map_take, List.map_map, ← reprs_values, List.map_map]
      rfl
    rw [e1]
    dsimp only
    rw [e2]
    dsimp only
    rw [hfull]
    congr 3
    have z : ∀ l : List (String × String), List.zipWith (fun (p : String × ArgRepr) v => p.1 ++ "=" ++ v) (l.map fun p => (p.1, .ok p.2)) (l.map Prod.snd)
        = l.map fun p => p.1 ++ "=" ++ p.2 := by
      intro l
      induction l with
      | nil => rfl
      | cons a l ih => simp [ih]
    rw [← List.map_take, z]
    unfold Shown
    simp only [List.length_map, List.map_take]
    congr 1
    · split
      · rw [if_neg (by omega)]; rfl
      · rw [if_pos (by omega), List.take_of_length_le (by omega)]
    · split
      · rw [if_neg (by omega)]; rfl
      · rw [if_pos (by omega), List.take_of_length_le (by simp; omega)]
  rw [key]
  unfold cutText
  refine ⟨fun h => by rw [if_neg (by omega)], fun h => ?_⟩
  rw [if_pos h]
  refine ⟨_, rfl, ?_, ?_⟩
  · rw [String.length_ofList, List.length_take, String.length_toList]
    omega
  · rw [String.toList_ofList]
    exact List.take_prefix _ _

example : paramText (["1", "2", "3", "4", "5"].map .ok) ([("y", "10")].map fun p => (p.1, .ok p.2)) = .ok "1, 2, 3, ... +2 more, y=10" := by
  decide +kernel

/-! ### progress -/

/-- **C149** `log_progress` inside a loop of `total` steps: outside quiet mode the last step is always logged, and a step
before it exactly when `100·current` is a multiple of `frequency·total`; in quiet mode, and for a loop without steps, nothing is logged. -/
theorem C149_progress_lines (mode : Mode) (current total freq : Nat) (hf : 0 < freq) :
    logsProgress mode current total freq = true ↔
      mode ≠ .quiet ∧ 0 < total ∧ (current = total ∨ freq * total ∣ 100 * current) := by
  rcases Nat.eq_zero_or_pos total with ht | ht
  · subst ht
    unfold logsProgress
    by_cases hm : mode = .quiet <;> simp [hm]
  have ht' : (total : ℚ) ≠ 0 := by exact_mod_cast ht.ne'
  have hf' : (freq : ℚ) ≠ 0 := by exact_mod_cast hf.ne'
  have key : ((current : ℚ) / total * 100 - freq * ⌊(current : ℚ) / total * 100 / freq⌋ = 0) ↔ freq * total ∣ 100 * current := by
    constructor
    · intro h
      set z := ⌊(current : ℚ) / total * 100 / freq⌋ with hz
      have h1 : (100 * current : ℚ) = freq * total * z := by
        field_simp at h
        linarith
      have h2 : ((freq * total : ℕ) : ℤ) ∣ ((100 * current : ℕ) : ℤ) := ⟨z, by exact_mod_cast h1⟩
      exact Int.natCast_dvd_natCast.1 h2
    · rintro ⟨k, hk⟩
      have h1 : (100 * current : ℚ) = freq * total * k := by exact_mod_cast hk
      have h2 : (current : ℚ) / total * 100 / freq = ((k : ℤ) : ℚ) := by
        field_simp
        push_cast
        linarith
      rw [h2, Int.floor_intCast]
      field_simp at h2
      push_cast at h2 ⊢
      field_simp
      linarith
  unfold logsProgress
  by_cases hm : mode = .quiet
  · simp [hm]
  · simp only [hm, if_false, ht.ne', ht, key, Bool.or_eq_true, decide_eq_true_eq, beq_iff_eq, ne_eq, not_false_eq_true, true_and]
    tauto

/-- **C150** negative: "log every `frequency` percent" is not what happens: for every number of steps that has no
divisor in common with 100, no step but the last is logged, whatever the frequency. -/
theorem C150_progress_silent_fails (mode : Mode) (current total freq : Nat) (hc : 0 < current) (hlt : current < total)
    (hf : 0 < freq) (hcop : Nat.Coprime total 100) : logsProgress mode current total freq = false := by
  by_contra h
  rw [Bool.not_eq_false, C149_progress_lines mode current total freq hf] at h
  rcases h.2.2 with h | h
  · omega
  · have h1 : total ∣ 100 * current := dvd_trans (Dvd.intro_left freq rfl) h
    have h2 : total ∣ current := hcop.dvd_of_dvd_mul_left h1
    exact absurd (Nat.le_of_dvd hc h2) (by omega)

example : Nat.Coprime 1461 100 := by decide +kernel

/-! ### C98 -/

/-- **C149** A progress bar is shown exactly if tqdm is there and it is not disabled; unless the caller says so, it is
disabled in quiet mode only. -/
theorem C149_progress_bar (mode : Mode) (hasTqdm : Bool) (disable : Option Bool) :
    hasProgressBar mode hasTqdm disable = true ↔
      hasTqdm = true ∧ (disable = some false ∨ disable = none ∧ mode ≠ .quiet) := by
  unfold hasProgressBar
  cases hasTqdm <;> rcases disable with _ | _ | _ <;> simp

example : hasProgressBar .normal true none = true ∧ hasProgressBar .quiet true none = false := by decide

theorem handlersAfter_last (envFile : Option String) (cs : List HandlerCall) (c : HandlerCall) :
    handlersAfter envFile (cs ++ [c]) = (some c.level, configureHandlers envFile c []) := by
  simp [handlersAfter, List.foldl_append, configureHandlers]

/-- **C98** After any history of configuring calls the last one alone decides where messages go: a message is written to
the console at most once, and exactly once if that call asked for the console and the message has its level; to a file
exactly once if a file was named by that call, or else by MAREX_LOG_FILE, and the message has the level; and nowhere
else. -/
theorem C98_messages_once (envFile : Option String) (cs : List HandlerCall) (c : HandlerCall) (m : Nat) :
    emitted (handlersAfter envFile (cs ++ [c])) m =
      if c.level ≤ m then
        (if c.console then [Handler.console c.level] else []) ++
        ((c.logFile.or envFile).toList.map fun f => Handler.file f c.level)
      else [] := by
  rw [handlersAfter_last]
  unfold emitted configureHandlers
  by_cases h : c.level ≤ m
  · simp only [h, if_true]
    cases hc : c.console <;> cases hf : c.logFile <;> cases envFile <;> simp [h]
  · simp [h]

example : emitted (handlersAfter none ([{ level := 20 }, { level := 10 }] ++ [{ level := 20, logFile := some "a.log" }])) 20
    = [Handler.console 20, Handler.file "a.log" 20] := by rw [C98_messages_once]; rfl

/-- **C98** After a switch of the mode, or a call of a package function with `verbose` or `quiet`, messages of the chosen level and above are written to the
console once, and to the file of MAREX_LOG_FILE once if there is one; messages below the level nowhere. -/
theorem C98_after_switch (envFile : Option String) (cs : List HandlerCall) (level m : Nat) :
    emitted (handlersAfter envFile (cs ++ [switchCall level])) m =
      if level ≤ m then Handler.console level :: (envFile.toList.map fun f => Handler.file f level) else [] := by
  rw [C98_messages_once]
  cases envFile <;> simp [switchCall]

example : emitted (handlersAfter (some "m.log") ([{ level := 40, console := false }] ++ [switchCall 10])) 10 =
    [Handler.console 10, Handler.file "m.log" 10] := by rw [C98_after_switch]; rfl

/-- **C109** negative: a log file asked for by the user is given up as soon as a package function is called with `verbose`
or `quiet`, or the mode is switched: after that no message of any level reaches any file, unless MAREX_LOG_FILE is set. -/
theorem C109_log_file_dropped_fails (cs : List HandlerCall) (level m : Nat) (path : String) (k : Nat) :
    Handler.file path k ∉ emitted (handlersAfter none (cs ++ [switchCall level])) m := by
  rw [C98_messages_once]
  unfold switchCall
  split
  · simp
  · simp

/-- The file was written to before. -/
example : Handler.file "run.log" 20 ∈ emitted (handlersAfter none ([] ++ [{ level := 20, logFile := some "run.log" }])) 30 := by
  rw [C98_messages_once]; simp

end MarEx.Props
