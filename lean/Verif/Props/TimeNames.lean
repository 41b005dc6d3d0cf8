import Verif.Model.TimeNames
import Verif.Props.Tracker
/-! Properties C158–C160: the name of the time coordinate, the form of the result, the messages that a tracker hides. -/
namespace MarEx.Props
open MarEx MarEx.Spec

/-! ### C158 -/

theorem construct_has_time (a : Args) (t : Tracker) (h : (construct a).1 = .ok t) : ∃ v, (construct a).2.coord a.timecoord = some v := by
  obtain ⟨rad, lat, lon, hu, c, hc, ch, hch, htd, hv, hs, rfl⟩ := construct_ok.mp (Prod.ext h rfl : construct a = (.ok t, (construct a).2))
  exact Option.isSome_iff_exists.mp (validate_ok.mp hv).2.2.1.1

/-- **C158** on structured grids: whatever the name of the time coordinate, the events of every constructed tracker carry it under that name, with the
values of the record, with merging and without. -/
theorem C158_grid_time_coordinate_partial (a : Args) (t : Tracker) (h : (construct a).1 = .ok t) (hg : a.unstructured = false) (allowMerging : Bool) :
    ∃ out v, eventCoords a allowMerging (construct a).2.coord = .ok out ∧ (construct a).2.coord a.timecoord = some v ∧ out a.timecoord = some v := by
  obtain ⟨v, hv⟩ := construct_has_time a t h
  refine ⟨_, v, by unfold eventCoords; simp only [hg]; rfl, hv, ?_⟩
  unfold restoreTime timeIndexed addTimecoord
  by_cases hne : a.timecoord = a.timedim
  · cases allowMerging <;> simp [hne] <;> rw [← hne] <;> exact hv
  · have hne' : ¬ a.timedim = a.timecoord := fun e => hne e.symm
    cases allowMerging <;> simp [hne, hne', hv]

/-- **C158** on meshes, the part that holds: a time coordinate named after the time dimension is kept.  Missing: every other name
(`C158_mesh_own_name_fails`). -/
theorem C158_mesh_time_coordinate_partial (a : Args) (t : Tracker) (h : (construct a).1 = .ok t) (hm : a.unstructured = true)
    (hn : a.timecoord = a.timedim) (allowMerging : Bool) :
    ∃ out v, eventCoords a allowMerging (construct a).2.coord = .ok out ∧ (construct a).2.coord a.timecoord = some v ∧ out a.timecoord = some v := by
  obtain ⟨v, hv⟩ := construct_has_time a t h
  refine ⟨addTimecoord a (construct a).2.coord, v, ?_, hv, ?_⟩
  · unfold eventCoords timeIndexed restoreTime
    simp [hm, hn]
    rw [← hn, hv]
  · unfold addTimecoord
    simp
    rw [← hn]; exact hv

/-- **C158** fails on meshes: for every configuration that the constructor accepts, with a time coordinate that is not named after the time
dimension, `run()` raises `KeyError`. -/
theorem C158_mesh_own_name_fails (a : Args) (t : Tracker) (_h : (construct a).1 = .ok t) (hm : a.unstructured = true)
    (hn : a.timecoord ≠ a.timedim) (allowMerging : Bool) : eventCoords a allowMerging (construct a).2.coord = .error .key := by
  unfold eventCoords timeIndexed
  simp only [hm, if_pos hn, if_true]
  rw [if_neg hn]

/-- The mesh configuration with a time coordinate `date` on the dimension `time`. -/
def dateArgs : Args :=
  { meshArgs with
    data := { meshArgs.data with coord := fun k => if k = "date" then some [10, 11] else if k = "lon" ∨ k = "lat" then some [0, 1] else none }
    coordinates := ⟨some "date", none, none⟩ }

example : (construct dateArgs).1.toOption.isSome = true ∧ dateArgs.unstructured = true ∧ dateArgs.timecoord ≠ dateArgs.timedim := by decide +kernel

-- the same name on a grid is accepted and kept
example : (match eventCoords { gridArgs with coordinates := ⟨some "date", none, none⟩ } false (fun k => if k = "date" then some [10, 11] else none) with
    | .ok out => (out "date", out "time") == (some [10, 11], none) | .error _ => false) = true := by decide +kernel

/-! ### C170 -/

/-- **C170** on grids without merging, for records whose time dimension has no other coordinate under its own name: the events have exactly the
coordinates of the record along time, under the same names and with the same values.  Missing: runs with merging and records with both coordinates
(see the `_fails` theorems). -/
theorem C170_same_coordinates_partial (a : Args) (t : Tracker) (h : (construct a).1 = .ok t) (hg : a.unstructured = false)
    (hn : a.timecoord = a.timedim ∨ (construct a).2.coord a.timedim = none) :
    ∃ out, eventCoords a false (construct a).2.coord = .ok out ∧ ∀ k, out k = (construct a).2.coord k := by
  obtain ⟨v, hv⟩ := construct_has_time a t h
  refine ⟨_, by unfold eventCoords; simp only [hg]; rfl, ?_⟩
  intro k
  unfold restoreTime timeIndexed
  by_cases hne : a.timecoord = a.timedim
  · simp [hne]
  · have hne' : ¬ a.timedim = a.timecoord := fun e => hne e.symm
    rcases hn with hn | hn
    · exact absurd hn hne
    · simp only [hne, not_false_eq_true, if_true, true_and, hne', if_false, ne_eq, hv, Option.isSome_some, Option.isNone_none, Bool.false_eq_true]
      by_cases h1 : k = a.timecoord
      · subst h1; simp [hv]
      · by_cases h2 : k = a.timedim
        · subst h2; simp [hne', hn]
        · simp [h1, h2]

/-- **C170** fails with merging: a record whose time coordinate has a name of its own, and whose time dimension has no coordinate, comes back with a
second one, under the name of the dimension. -/
theorem C170_extra_coordinate_fails (a : Args) (t : Tracker) (h : (construct a).1 = .ok t) (hg : a.unstructured = false)
    (hn : a.timecoord ≠ a.timedim) :
    ∃ out v, eventCoords a true (construct a).2.coord = .ok out ∧ (construct a).2.coord a.timecoord = some v ∧ out a.timedim = some v := by
  obtain ⟨v, hv⟩ := construct_has_time a t h
  refine ⟨_, v, by unfold eventCoords; simp only [hg]; rfl, hv, ?_⟩
  have hn' : ¬ a.timedim = a.timecoord := fun e => hn e.symm
  unfold restoreTime timeIndexed addTimecoord
  simp [hn, hn', hv]

/-- **C170** fails for records with two coordinates along time: the one named after the dimension is lost, without merging altogether, with merging in
favour of the values of the other one. -/
theorem C170_lost_coordinate_fails (a : Args) (t : Tracker) (h : (construct a).1 = .ok t) (hg : a.unstructured = false)
    (hn : a.timecoord ≠ a.timedim) (w : List ℚ) (_hw : (construct a).2.coord a.timedim = some w) :
    (∃ out, eventCoords a false (construct a).2.coord = .ok out ∧ out a.timedim = none) ∧
    (∃ out, eventCoords a true (construct a).2.coord = .ok out ∧ out a.timedim = (construct a).2.coord a.timecoord) := by
  obtain ⟨v, hv⟩ := construct_has_time a t h
  have hn' : ¬ a.timedim = a.timecoord := fun e => hn e.symm
  refine ⟨⟨_, by unfold eventCoords; simp only [hg]; rfl, ?_⟩, ⟨_, by unfold eventCoords; simp only [hg]; rfl, ?_⟩⟩
  · unfold restoreTime timeIndexed
    simp [hn, hn', hv]
  · unfold restoreTime timeIndexed addTimecoord
    simp [hn, hn', hv]

/-- A grid record with a coordinate `date` along `time`. -/
def dateGrid : Args :=
  { gridArgs with
    data := { gridArgs.data with coord := fun k => if k = "date" then some [10, 11] else gridArgs.data.coord (if k = "time" then "" else k) }
    coordinates := ⟨some "date", none, none⟩ }

/-- The same with step numbers as the coordinate `time`. -/
def numberedGrid : Args :=
  { dateGrid with data := { dateGrid.data with coord := fun k => if k = "time" then some [0, 1] else dateGrid.data.coord k } }

example : (construct dateGrid).1.toOption.isSome = true ∧ dateGrid.unstructured = false ∧ dateGrid.timecoord ≠ dateGrid.timedim ∧
    (construct dateGrid).2.coord dateGrid.timedim = none := by decide +kernel

example : (construct numberedGrid).1.toOption.isSome = true ∧ numberedGrid.unstructured = false ∧ numberedGrid.timecoord ≠ numberedGrid.timedim ∧
    (construct numberedGrid).2.coord numberedGrid.timedim = some [0, 1] := by decide +kernel

/-! ### C159 -/

/-- **C159**, the part that holds: with `allow_merging`, `run(return_merges=True)` returns the events together with the merges, and
`run(return_merges=False)` the events alone.  Missing: trackers without `allow_merging` (`C159_no_merges_returned_fails`). -/
theorem C159_merges_returned_partial {ε μ : Type} (e : ε) (m : μ) :
    runReturn true true e m = .pair e m ∧ runReturn true false e m = .events e := ⟨rfl, rfl⟩

/-- **C159** fails without `allow_merging`: the merges that were asked for are not returned, whatever they are; a caller that unpacks two datasets
fails.  (On meshes merges happen without `allow_merging` too, see C120.) -/
theorem C159_no_merges_returned_fails {ε μ : Type} (e : ε) (m : μ) : ∀ e' m', runReturn false true e m ≠ .pair e' m' := by
  intro e' m' h
  simp [runReturn] at h

/-! ### C160 -/

theorem loggerAfter_append (s : SchedLogger) (ds es : List Int) : loggerAfter s (ds ++ es) = loggerAfter (loggerAfter s ds) es := List.foldl_append

theorem loggerAfter_spec (s : SchedLogger) (ds : List Int) :
    (loggerAfter s ds).filters = s.filters ++ ds.filter (· < 2) ∧
    (loggerAfter s ds).level = if ∃ d ∈ ds, d < 2 then 40 else s.level := by
  induction ds generalizing s with
  | nil => simp [loggerAfter]
  | cons d ds ih =>
    have e : loggerAfter s (d :: ds) = loggerAfter (configureWarnings s d) ds := rfl
    rw [e]
    obtain ⟨i1, i2⟩ := ih (configureWarnings s d)
    rw [i1, i2]
    unfold configureWarnings
    by_cases hd : d < 2
    · rw [if_pos hd, List.filter_cons_of_pos (by simpa using hd), if_pos (⟨d, List.mem_cons_self, hd⟩ : ∃ d' ∈ d :: ds, d' < 2)]
      exact ⟨by rw [List.append_assoc]; rfl, by split <;> rfl⟩
    · rw [if_neg hd, List.filter_cons_of_neg (by simpa using hd)]
      refine ⟨rfl, ?_⟩
      have : (∃ d' ∈ d :: ds, d' < 2) ↔ ∃ d' ∈ ds, d' < 2 := by
        constructor
        · rintro ⟨d', h1, h2⟩
          rcases List.mem_cons.mp h1 with rfl | h1
          · exact absurd h2 hd
          · exact ⟨d', h1, h2⟩
        · rintro ⟨d', h1, h2⟩; exact ⟨d', List.mem_cons_of_mem _ h1, h2⟩
      simp only [this]

/-- **C160**, what holds: whatever trackers were constructed before, an error message of the scheduler that contains none of the three known texts is
shown. -/
theorem C160_errors_shown_partial (level : Int) (ds : List Int) (m : SchedMsg) (h1 : level ≤ m.level) (h2 : 40 ≤ m.level)
    (hm : m.runSpec = false ∧ m.largeGraph = false ∧ m.slowdown = false) : (loggerAfter ⟨level, []⟩ ds).shows m = true := by
  obtain ⟨s1, s2⟩ := loggerAfter_spec ⟨level, []⟩ ds
  unfold SchedLogger.shows
  rw [s1, s2, Bool.and_eq_true, decide_eq_true_eq, List.all_eq_true]
  refine ⟨by split <;> assumption, fun d _ => ?_⟩
  unfold keepsMsg
  simp [hm]

/-- **C160**, what holds: as long as only trackers with debug level 2 or more were constructed, the messages of the scheduler are shown as without marEx. -/
theorem C160_debug_shows_all_partial (s : SchedLogger) (ds : List Int) (h : ∀ d ∈ ds, 2 ≤ d) (m : SchedMsg) :
    (loggerAfter s ds).shows m = s.shows m := by
  obtain ⟨s1, s2⟩ := loggerAfter_spec s ds
  have hf : ds.filter (· < 2) = [] := by
    rw [List.filter_eq_nil_iff]
    intro d hd
    have := h d hd
    simp; omega
  have hn : ¬ ∃ d ∈ ds, d < 2 := by
    rintro ⟨d, hd, h'⟩
    have := h d hd
    omega
  unfold SchedLogger.shows
  rw [s1, s2, hf, if_neg hn, List.append_nil]

/-- **C160** fails: once a tracker with a debug level below 2 was constructed in the process, a tracker with any debug level hides every message of
the scheduler below the level of errors, whatever the logger was set to and whatever came between. -/
theorem C160_earlier_tracker_hides_fails (s : SchedLogger) (ds : List Int) (d : Int) (hd : d ∈ ds) (h2 : d < 2) (debug : Int) (m : SchedMsg)
    (hm : m.level < 40) : (loggerAfter s (ds ++ [debug])).shows m = false := by
  obtain ⟨-, s2⟩ := loggerAfter_spec s (ds ++ [debug])
  unfold SchedLogger.shows
  rw [s2, if_pos ⟨d, List.mem_append_left _ hd, h2⟩]
  simp
  omega

/-- **C160** fails: debug level 1, meant to hide only the messages about `run_spec`, hides every warning. -/
theorem C160_level_one_hides_warnings_fails (s : SchedLogger) (m : SchedMsg) (hm : m.level < 40) : (loggerAfter s [1]).shows m = false := by
  obtain ⟨-, s2⟩ := loggerAfter_spec s [1]
  unfold SchedLogger.shows
  rw [s2, if_pos ⟨1, by simp, by norm_num⟩]
  simp
  omega

/-- **C160**, what holds: debug levels 0 and 1 differ in what they hide of the error messages: level 0 hides the three known texts, level 1 only
`run_spec`. -/
theorem C160_hidden_errors_partial (level : Int) (m : SchedMsg) (h2 : 40 ≤ m.level) :
    ((loggerAfter ⟨level, []⟩ [0]).shows m = false ↔ m.runSpec = true ∨ m.largeGraph = true ∨ m.slowdown = true) ∧
    ((loggerAfter ⟨level, []⟩ [1]).shows m = false ↔ m.runSpec = true) := by
  unfold loggerAfter SchedLogger.shows
  simp only [List.foldl_cons, List.foldl_nil, configureWarnings, keepsMsg]
  have : ((40 : Int) ≤ m.level) := h2
  refine ⟨?_, ?_⟩
  · cases m.runSpec <;> cases m.largeGraph <;> cases m.slowdown <;> simp [this]
  · cases m.runSpec <;> simp [this]

-- non-vacuity: a warning about unmanaged memory is shown with debug level 2 in a fresh process, and hidden after another tracker
example : (loggerAfter ⟨30, []⟩ [2]).shows ⟨30, false, false, false⟩ = true ∧ (loggerAfter ⟨30, []⟩ [0, 2]).shows ⟨30, false, false, false⟩ = false := by
  decide

end MarEx.Props
