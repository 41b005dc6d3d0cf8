import Verif.Model.Movie
import Mathlib.Tactic
/-! Properties of the plotting front end: accepted data, panels, movies, markers, and what plots leave behind. -/
namespace MarEx.Props
open MarEx

/-! ### C100 -/

theorem mem_missingNames (h : List String) (m : Names) (k v : String) :
    (k, v) ∈ missingNames h m ↔ (k, v) ∈ m ∧ k ≠ "time" ∧ v ∉ h := by
  unfold missingNames
  simp [List.mem_filter]

theorem missingNames_nil (h : List String) (m : Names) :
    missingNames h m = [] ↔ ∀ k v, (k, v) ∈ m → k ≠ "time" → v ∈ h := by
  rw [List.eq_nil_iff_forall_not_mem]
  constructor
  · intro hh k v hm hk
    by_contra hv
    exact hh (k, v) ((mem_missingNames h m k v).2 ⟨hm, hk, hv⟩)
  · rintro hh ⟨k, v⟩ hm
    obtain ⟨a, b, c⟩ := (mem_missingNames h m k v).1 hm
    exact c (hh k v a b)

/-- C100: a plotter is made exactly if every dimension name of the mapping (the given one, or time/lat/lon) other than
that for "time" is a dimension of the data, and likewise every coordinate name. -/
theorem C100_accepts_iff (g : GridSpec) (da : PlotData) (d c : Option Names) :
    (∃ p, plotterFor g da d c = .ok p) ↔
      (∀ k v, (k, v) ∈ d.getD [("time", "time"), ("y", "lat"), ("x", "lon")] → k ≠ "time" → v ∈ da.dims) ∧
      (∀ k v, (k, v) ∈ c.getD [("time", "time"), ("y", "lat"), ("x", "lon")] → k ≠ "time" → v ∈ da.coords) := by
  change _ ↔ (∀ k v, (k, v) ∈ d.getD stdNames → k ≠ "time" → v ∈ da.dims) ∧ (∀ k v, (k, v) ∈ c.getD stdNames → k ≠ "time" → v ∈ da.coords)
  rw [← missingNames_nil, ← missingNames_nil]
  unfold plotterFor newPlotter
  dsimp only
  split
  · next h => simp [h]
  · next h =>
    split
    · next h' => simp [h']
    · next h' =>
      rw [not_not] at h h'
      simp [h, h']

/-- C100: if it is not made, the error lists exactly the missing dimensions, or, all dimensions being there, exactly the
missing coordinates. -/
theorem C100_error_lists_missing (g : GridSpec) (da : PlotData) (d c : Option Names) (e : PlotErr)
    (h : plotterFor g da d c = .error e) :
    (∃ l, e = .missingDims l ∧ l ≠ [] ∧
      ∀ k v, (k, v) ∈ l ↔ (k, v) ∈ d.getD [("time", "time"), ("y", "lat"), ("x", "lon")] ∧ k ≠ "time" ∧ v ∉ da.dims) ∨
    ((∀ k v, (k, v) ∈ d.getD [("time", "time"), ("y", "lat"), ("x", "lon")] → k ≠ "time" → v ∈ da.dims) ∧
      ∃ l, e = .missingCoords l ∧ l ≠ [] ∧
      ∀ k v, (k, v) ∈ l ↔ (k, v) ∈ c.getD [("time", "time"), ("y", "lat"), ("x", "lon")] ∧ k ≠ "time" ∧ v ∉ da.coords) := by
  unfold plotterFor newPlotter at h
  dsimp only at h
  split at h
  · next h1 =>
    cases h
    exact .inl ⟨_, rfl, h1, fun k v => mem_missingNames _ _ k v⟩
  · next h1 =>
    rw [not_not] at h1
    split at h
    · next h2 =>
      cases h
      exact .inr ⟨(missingNames_nil _ _).1 h1, _, rfl, h2, fun k v => mem_missingNames _ _ k v⟩
    · cases h

/-- C100: the plotter made has the mappings asked for; it is one for a mesh exactly if the type set with `specify_grid`
says so, or, no type being set, the data lack the dimension for "y"; it takes the grid files set then. -/
theorem C100_plotter (g : GridSpec) (da : PlotData) (d c : Option Names) (p : Plotter)
    (h : plotterFor g da d c = .ok p) :
    p.dims = d.getD stdNames ∧ p.coords = c.getD stdNames ∧
    (g.type = none → (p.unstructured = true ↔ ∀ y, (d.getD stdNames).lookup "y" = some y → y ∉ da.dims)) ∧
    (g.type = some "unstructured" → p.unstructured = true) ∧ (g.type = some "gridded" → p.unstructured = false) ∧
    (p.unstructured = true → p.tgrid = g.tgrid ∧ p.ckdtree = g.ckdtree) := by
  unfold plotterFor newPlotter at h
  dsimp only at h
  split at h
  · cases h
  split at h
  · cases h
  cases h
  dsimp only
  refine ⟨rfl, rfl, ?_, ?_, ?_, ?_⟩
  · intro hg
    simp only [usesUnstructured, hg, Option.getD_none, detectGrid]
    cases (d.getD stdNames).lookup "y" with
    | none => simp only [reduceCtorEq, false_imp_iff, implies_true, iff_true]; decide +kernel
    | some y =>
      simp only [Option.some.injEq, forall_eq']
      by_cases hy : y ∈ da.dims
      · simp only [hy, not_true_eq_false, iff_false]; decide +kernel
      · simp only [hy, not_false_eq_true, iff_true]; decide +kernel
  · intro hg; simp only [usesUnstructured, hg, Option.getD_some]; decide +kernel
  · intro hg; simp only [usesUnstructured, hg, Option.getD_some]; decide +kernel
  · intro hu; simp [hu]

example : ∃ p, plotterFor {} ⟨["time", "ncells"], ["time", "lat", "lon"]⟩ (some [("time", "time"), ("x", "ncells")]) none = .ok p ∧ p.unstructured = true :=
  ⟨⟨[("time", "time"), ("x", "ncells")], stdNames, true, none, none⟩, by decide +kernel, rfl⟩

example : plotterFor {} ⟨["t", "y", "x"], ["t", "y"]⟩ (some [("time", "t"), ("y", "y"), ("x", "x")]) (some [("y", "y"), ("x", "x")])
    = .error (.missingCoords [("x", "x")]) := by decide +kernel

/-- C118 fails for the shortcuts `single_plot`, `multi_plot` and `animate` of the accessor, which pass no mappings: on
data without a dimension "lat", so on every mesh, they raise, whatever the grid settings say. -/
theorem C118_mesh_shortcut_fails (g : GridSpec) (da : PlotData) (h : "lat" ∉ da.dims) :
    ∃ e, plotterFor g da none none = .error e := by
  cases hp : plotterFor g da none none with
  | error e => exact ⟨e, rfl⟩
  | ok p =>
    exact absurd (((C100_accepts_iff g da none none).1 ⟨p, hp⟩).1 "y" "lat" (by simp) (by decide)) h

example : "lat" ∉ (PlotData.mk ["time", "ncells"] ["time", "lat", "lon"]).dims := by decide

/-! ### C103 -/

/-- The values of all steps. -/
def allValues (steps : List (List Column)) : List ℚ := (steps.map fun s => s.flatten.filterMap id).flatten

theorem setup_range_value (hasTime : Bool) (cfg : PlotCfg) (st st' : PlotState) (s : Scale) (hid : cfg.plotIDs = false)
    (h : setupParams hasTime cfg st = .ok (s, st')) :
    st' = st ∧ s.cmap = cfg.cmap.getD (.named (if cfg.issym then "RdBu_r" else "viridis")) ∧
    s.norm = cfg.norm ∧ (cfg.clim ≠ none → s.clim = cfg.clim) ∧ (cfg.norm ≠ none → s.clim = cfg.clim) := by
  unfold setupParams at h
  rw [hid] at h
  simp only [Bool.false_eq_true, if_false, Except.ok.injEq, Prod.mk.injEq] at h
  obtain ⟨h1, h2⟩ := h
  subst h1
  refine ⟨h2.symm, rfl, rfl, ?_, ?_⟩
  · intro hc
    cases hcl : cfg.clim with
    | none => exact absurd hcl hc
    | some x => rfl
  · intro hc
    cases hn : cfg.norm with
    | none => exact absurd hn hc
    | some x => cases cfg.clim <;> rfl

/-- The colours of a plot of values: a norm of the user decides; else limits of the user; else the automatic
limits of the data (of every tenth step, if the data have a time dimension).  The colour map is the one of the user, or
a diverging one if the plot is to be symmetric and a sequential one otherwise. -/
theorem setup_colour_scale (hasTime : Bool) (cfg : PlotCfg) (st st' : PlotState) (s : Scale) (hid : cfg.plotIDs = false)
    (h : setupParams hasTime cfg st = .ok (s, st')) :
    (∀ n, cfg.norm = some n → s.range = .norm n) ∧
    (∀ lo hi, cfg.norm = none → cfg.clim = some (lo, hi) → s.range = .limits lo hi) ∧
    (cfg.norm = none → cfg.clim = none → s.range =
      let l := if hasTime then autoClim (st.steps.map fun s => s.flatten.filterMap id) cfg.issym cfg.cperc.1 cfg.cperc.2
        else climRobust (st.steps.map fun s => s.flatten.filterMap id).flatten cfg.issym cfg.cperc.1 cfg.cperc.2
      .limits l.1 l.2) ∧
    (∀ m, cfg.cmap = some m → s.cmap = m) ∧
    (cfg.cmap = none → s.cmap = .named (if cfg.issym then "RdBu_r" else "viridis")) ∧
    s.units = cfg.units ∧ s.extend = cfg.extend := by
  unfold setupParams at h
  rw [hid] at h
  simp only [Bool.false_eq_true, if_false, Except.ok.injEq, Prod.mk.injEq] at h
  obtain ⟨h1, h2⟩ := h
  subst h1
  refine ⟨?_, ?_, ?_, ?_, ?_, rfl, rfl⟩
  · intro n hn; simp [Scale.range, hn]
  · intro lo hi hn hc; simp [Scale.range, hn, hc]
  · intro hn hc; simp only [Scale.range, hn, hc]; rfl
  · intro m hm; simp [hm]
  · intro hm; simp [hm]

/-- A plotter for a regular grid with the default names. -/
def moviePlotter : Plotter := ⟨stdNames, stdNames, false, none, none⟩

theorem singlePlot_ok (p : Plotter) (da : GridData) (cfg : PlotCfg) (st st' : PlotState) (d : Drawn) (cb : Bool)
    (h : singlePlot p da cfg st = .ok ((d, cb), st')) :
    ∃ s step, setupParams (hasTimeDim p.dims da.lead) cfg st = .ok (s, st') ∧ st'.steps = [step] ∧
      d.cmap = s.cmap ∧ d.range = s.range ∧ d.projection = cfg.projection ∧ cb = cfg.colourbar ∧ d.lat = da.lat ∧
      wrapLon da.lon step = some (d.lon, d.cols) ∧ (∀ t, cfg.title = some t → t ≠ "" → d.heading = .text t) := by
  unfold singlePlot at h
  split at h
  · cases h
  · next s st1 hs =>
    dsimp only at h
    split at h
    · cases h
    · next d' hd =>
      cases h
      unfold drawGrid at hd
      split at hd
      · cases hd
      · cases hd
      · cases hd
      · split at hd
        · cases hd
        · split at hd
          · next step hstep =>
            split at hd
            · cases hd
            · split at hd
              · cases hd
              · next hw =>
                cases hd
                refine ⟨s, step, hs, hstep, rfl, rfl, rfl, rfl, rfl, hw, ?_⟩
                intro t ht hne
                simp [ht, hne]
          · cases hd

/-- C103: what a single plot of values shows: the one step of the data (closed over the globe where the longitudes go
around), under the projection and with the title asked for, with a colour bar if asked for.  Its colours: a norm of the
user decides; else limits of the user; else the automatic limits of the data.  The colour map is the one of the user, or
a diverging one if the plot is to be symmetric and a sequential one otherwise. -/
theorem C103_single_plot (p : Plotter) (da : GridData) (cfg : PlotCfg) (st st' : PlotState) (d : Drawn) (cb : Bool)
    (hid : cfg.plotIDs = false) (h : singlePlot p da cfg st = .ok ((d, cb), st')) :
    (∃ step, st.steps = [step] ∧ wrapLon da.lon step = some (d.lon, d.cols) ∧
      (cfg.norm = none → cfg.clim = none → d.range =
        .limits (climRobust (step.flatten.filterMap id) cfg.issym cfg.cperc.1 cfg.cperc.2).1
          (climRobust (step.flatten.filterMap id) cfg.issym cfg.cperc.1 cfg.cperc.2).2)) ∧
    (∀ n, cfg.norm = some n → d.range = .norm n) ∧
    (∀ lo hi, cfg.norm = none → cfg.clim = some (lo, hi) → d.range = .limits lo hi) ∧
    (∀ m, cfg.cmap = some m → d.cmap = m) ∧
    (cfg.cmap = none → d.cmap = .named (if cfg.issym then "RdBu_r" else "viridis")) ∧
    d.lat = da.lat ∧ d.projection = cfg.projection ∧ cb = cfg.colourbar ∧
    (∀ t, cfg.title = some t → t ≠ "" → d.heading = .text t) := by
  obtain ⟨s, step, h1, h2, h3, h4, h5, h6, h7, h8, h9⟩ := singlePlot_ok p da cfg st st' d cb h
  obtain ⟨a1, a2, a3, a4, a5, _, _⟩ := setup_colour_scale _ _ _ _ _ hid h1
  have hst := (setup_range_value _ _ _ _ _ hid h1).1
  rw [hst] at h2
  rw [h3, h4]
  refine ⟨⟨step, h2, h8, ?_⟩, a1, a2, a4, a5, h7, h5, h6, h9⟩
  intro hn hc
  rw [a3 hn hc, h2]
  split <;> simp [autoClim, everyTenth]

example : (match singlePlot moviePlotter ⟨none, "lat", "lon", ["lat", "lon"], [0, 1], [10, 11], []⟩ { clim := some (0, 3), title := some "SST" }
    ⟨[[[some 1, none], [some 2, some 0]]], (0, 0)⟩ with
    | .ok ((d, cb), _) => d.range == .limits 0 3 && d.heading == .text "SST" && cb | _ => false) = true := by decide +kernel

theorem wrapLon_some_iff (lons : List ℚ) (step : List Column) : (∃ w, wrapLon lons step = some w) ↔ 2 ≤ lons.length ∧ step ≠ [] := by
  cases lons with
  | nil => simp [wrapLon]
  | cons a l =>
    cases l with
    | nil => simp [wrapLon]
    | cons b l =>
      cases step with
      | nil => simp [wrapLon]
      | cons c cs =>
        unfold wrapLon
        dsimp only
        split <;> simp

/-- C103: a single plot of values is made exactly if the plotter maps x, y and time, x and y to the dimensions of the data, there is one
step, a leading dimension, if any, is the one taken for time, and there are at least two longitudes. -/
theorem C103_single_plot_made_iff (p : Plotter) (da : GridData) (cfg : PlotCfg) (st : PlotState) (hid : cfg.plotIDs = false) :
    (∃ r, singlePlot p da cfg st = .ok r) ↔
      p.dims.lookup "x" = some da.x ∧ p.dims.lookup "y" = some da.y ∧
      (∃ t, p.dims.lookup "time" = some t ∧ (da.lead = none ∨ da.lead = some t)) ∧
      ∃ step, st.steps = [step] ∧ 2 ≤ da.lon.length ∧ step ≠ [] := by
  have hw := wrapLon_some_iff da.lon
  unfold singlePlot setupParams
  simp only [hid, Bool.false_eq_true, if_false]
  constructor
  · rintro ⟨r, hr⟩
    split at hr
    · cases hr
    · next d hd =>
      unfold drawGrid at hd
      split at hd
      · cases hd
      · cases hd
      · cases hd
      · next x t y hx ht hy =>
        split at hd
        · cases hd
        · next hxy =>
          push Not at hxy
          split at hd
          · next step hstep =>
            split at hd
            · cases hd
            · next hl =>
              split at hd
              · cases hd
              · next w hwr =>
                refine ⟨by rw [hx, hxy.1], by rw [hy, hxy.2], ⟨t, ht, ?_⟩, step, hstep, (hw step).mp ⟨_, hwr⟩⟩
                cases hle : da.lead with
                | none => exact .inl rfl
                | some u => right; simpa [hle] using hl
          · cases hd
  · rintro ⟨hx, hy, ⟨t, ht, hl⟩, step, hs, h2⟩
    obtain ⟨w, hwr⟩ := (hw step).mpr h2
    have hl' : (da.lead.isSome && !(da.lead == some t)) = false := by
      rcases hl with hl | hl <;> simp [hl]
    simp only [drawGrid, hx, hy, ht, hs, hl', hwr, ne_eq, not_true_eq_false, or_self, if_false, Bool.false_eq_true]
    exact ⟨_, rfl⟩

example : moviePlotter.dims.lookup "x" = some "lon" ∧ moviePlotter.dims.lookup "time" = some "time" := by decide +kernel

/-- Both a norm and limits: the plot of the panel must not fall back to automatic limits. -/
theorem setup_panel (s : Scale) (hs : s.norm ≠ none ∨ s.clim ≠ none) (cfg : PlotCfg) (hid : cfg.plotIDs = false)
    (h1 : cfg.cmap = some s.cmap) (h2 : cfg.clim = s.clim) (h3 : cfg.norm = s.norm) (st : PlotState) (b : Bool) :
    ∃ s', setupParams b cfg st = .ok (s', st) ∧ s'.cmap = s.cmap ∧ s'.range = s.range := by
  unfold setupParams
  simp only [hid, Bool.false_eq_true, if_false, h1, h2, h3, Option.getD_some]
  refine ⟨_, rfl, rfl, ?_⟩
  rcases s with ⟨cm, n, cl, u, e⟩
  cases n <;> cases cl <;> simp_all [Scale.range]

theorem setup_some (hasTime : Bool) (cfg : PlotCfg) (st st' : PlotState) (s : Scale)
    (h : setupParams hasTime cfg st = .ok (s, st')) : s.norm ≠ none ∨ s.clim ≠ none := by
  unfold setupParams at h
  split at h
  · split at h
    · cases h
    · cases h; exact .inl (by simp)
  · cases h
    dsimp only
    cases cfg.norm <;> cases cfg.clim <;> simp

/-- The data after the colour scale has been set up. -/
theorem setup_steps (hasTime : Bool) (cfg : PlotCfg) (st st' : PlotState) (s : Scale)
    (h : setupParams hasTime cfg st = .ok (s, st')) :
    st'.steps = if cfg.plotIDs then keepPositive st.steps else st.steps := by
  unfold setupParams at h
  split at h
  · next hi =>
    split at h
    · cases h
    · cases h; simp [hi]
  · next hi => cases h; simp [hi]

theorem drawPanel_ok (tc : String) (da : GridData) (cfg : PlotCfg) (col : String) (s : Scale) (st : PlotState) (i : Nat) (d : Drawn)
    (hs : s.norm ≠ none ∨ s.clim ≠ none) (h : drawPanel tc da cfg col s st i = .ok d) :
    ∃ step lon cols, st.steps[i]? = some step ∧ wrapLon da.lon step = some (lon, cols) ∧ da.x = "lon" ∧ da.y = "lat" ∧
      d = ⟨lon, da.lat, cols, s.cmap, s.range, cfg.projection,
        if cfg.dims.lookup "time" = some col then .date i else .value i⟩ := by
  unfold drawPanel at h
  cases ht : cfg.dims.lookup "time" with
  | none => rw [ht] at h; cases h
  | some t =>
    rw [ht] at h
    cases hst : st.steps[i]? with
    | none => rw [hst] at h; cases h
    | some step =>
      rw [hst] at h
      dsimp only at h
      obtain ⟨s', h1, h2, h3⟩ := setup_panel s hs { cmap := some s.cmap, clim := s.clim, norm := s.norm, plotIDs := false, colourbar := false, extend := s.extend, dims := cfg.dims, coords := cfg.coords, projection := cfg.projection } rfl rfl rfl rfl ⟨[step], st.rng⟩ false
      rw [h1] at h
      dsimp only at h
      split at h
      · cases h
      unfold drawGrid at h
      have e1 : stdNames.lookup "x" = some "lon" := by decide +kernel
      have e2 : stdNames.lookup "time" = some "time" := by decide +kernel
      have e3 : stdNames.lookup "y" = some "lat" := by decide +kernel
      rw [e1, e2, e3] at h
      dsimp only at h
      split at h
      · cases h
      · next hxy =>
        push Not at hxy
        simp only [Option.isSome_none, Bool.false_and, Bool.false_eq_true, if_false] at h
        cases hw : wrapLon da.lon step with
        | none => rw [hw] at h; cases h
        | some lc =>
          rw [hw] at h
          cases h
          refine ⟨step, lc.1, lc.2, rfl, hw, hxy.1.symm, hxy.2.symm, ?_⟩
          rw [h2, h3]
          by_cases hc : col = t
          · simp [hc]
          · have : ¬ t = col := fun h => hc h.symm
            simp [hc, this]

theorem mapM_ok_getElem {ε α β} (f : α → Except ε β) (l : List α) (r : List β) (h : l.mapM f = .ok r) :
    r.length = l.length ∧ ∀ (k : Nat) (a : α), l[k]? = some a → ∃ b, r[k]? = some b ∧ f a = .ok b := by
  induction l generalizing r with
  | nil =>
    rw [List.mapM_nil] at h
    cases h
    exact ⟨rfl, fun k a h => by simp at h⟩
  | cons x l ih =>
    rw [List.mapM_cons] at h
    cases hx : f x with
    | error e => rw [hx] at h; cases h
    | ok b =>
      rw [hx] at h
      cases hl : l.mapM f with
      | error e => rw [hl] at h; cases h
      | ok r' =>
        rw [hl] at h
        cases h
        obtain ⟨h1, h2⟩ := ih r' hl
        refine ⟨by simp [h1], ?_⟩
        intro k a hk
        cases k with
        | zero => simp only [List.getElem?_cons_zero, Option.some.injEq] at hk ⊢; subst hk; exact ⟨b, rfl, hx⟩
        | succ k => simpa using h2 k a (by simpa using hk)

theorem multiPanels_filterMap (n w : Nat) (axes : List (Option Nat)) (h : multiPanels n w = some axes) :
    axes.filterMap id = List.range n := by
  unfold multiPanels at h
  split at h
  · cases h
  · next hw =>
    dsimp only at h
    split at h
    · cases h
    · cases h
      rw [List.filterMap_map]
      have hle : n ≤ (n + w - 1) / w * min n w := by
        rcases Nat.le_total n w with hnw | hnw
        · rw [min_eq_left hnw]
          rcases Nat.eq_zero_or_pos n with h0 | hpos
          · simp [h0]
          · have : 1 ≤ (n + w - 1) / w := by rw [Nat.le_div_iff_mul_le (by omega)]; omega
            exact Nat.le_mul_of_pos_left _ this
        · rw [min_eq_right hnw]
          have := Nat.div_add_mod (n + w - 1) w
          have hm := Nat.mod_lt (n + w - 1) (show 0 < w by omega)
          rw [Nat.mul_comm]
          omega
      have key : ∀ m, n ≤ m → (List.range m).filterMap (id ∘ fun i => if i < n then some i else none) = List.range n := by
        intro m hm
        induction m with
        | zero => simp [Nat.le_zero.1 hm]
        | succ m ih =>
          rw [List.range_succ, List.filterMap_append]
          rcases Nat.lt_or_ge m n with h1 | h1
          · have : n = m + 1 := by omega
            subst this
            rw [List.range_succ]
            have e1 : (List.range m).filterMap (id ∘ fun i => if i < m + 1 then some i else none) = List.range m := by
              rw [List.filterMap_congr (g := some)]
              · simp
              · intro x hx
                have := List.mem_range.1 hx
                simpa using Nat.le_of_lt this
            rw [e1]
            simp
          · rw [ih h1]
            simp [show ¬ m < n by omega]
      exact key _ hle

/-- C103: the panels of `multi_plot` are one for each step, in order; panel `k` shows step `k` (without the background,
if IDs are plotted), closed over the globe as for a single plot, under the projection asked for and with the date of the
step as heading; all panels and the colour bar have the colour map and the range of the whole record. -/
theorem C103_panels_share_scale (p : Plotter) (g : GridSpec) (da : GridData) (cfg : PlotCfg) (col : String) (w : Nat)
    (st : PlotState) (panels : List Drawn) (bar : Option (ColourMap × ColourRange))
    (h : multiPlot p g da cfg col w st = .ok (panels, bar)) :
    ∃ s st', setupParams (da.lead == some ((p.dims.lookup "time").getD "time")) cfg st = .ok (s, st') ∧
      bar = (if cfg.colourbar then some (s.cmap, s.range) else none) ∧
      panels.length = st.steps.length ∧
      ∀ (k : Nat) (step : List Column), (if cfg.plotIDs then keepPositive st.steps else st.steps)[k]? = some step →
        ∃ lon cols, wrapLon da.lon step = some (lon, cols) ∧
          panels[k]? = some ⟨lon, da.lat, cols, s.cmap, s.range, cfg.projection,
            if cfg.dims.lookup "time" = some col then .date k else .value k⟩ := by
  unfold multiPlot at h
  split at h
  · cases h
  split at h
  · cases h
  · next s st' hs =>
    split at h
    · cases h
    · next axes hax =>
      split at h
      · cases h
      · split at h
        · cases h
        · next panels' hpan =>
          simp only [Except.ok.injEq, Prod.mk.injEq] at h
          obtain ⟨rfl, rfl⟩ := h
          rw [multiPanels_filterMap _ _ _ hax] at hpan
          obtain ⟨hl, hk⟩ := mapM_ok_getElem _ _ _ hpan
          have hsteps := setup_steps _ _ _ _ _ hs
          refine ⟨s, st', hs, rfl, ?_, ?_⟩
          · rw [hl, List.length_range, hsteps]
            split
            · simp [keepPositive]
            · rfl
          · intro k step hstep
            rw [← hsteps] at hstep
            have hlt : k < st'.steps.length := by
              by_contra hc
              rw [List.getElem?_eq_none (by omega)] at hstep
              cases hstep
            obtain ⟨d, hd1, hd2⟩ := hk k k (List.getElem?_range hlt)
            obtain ⟨step', lon, cols, e1, e2, _, _, e3⟩ := drawPanel_ok _ _ _ _ _ _ _ _ (setup_some _ _ _ _ _ hs) hd2
            rw [hstep] at e1
            cases e1
            exact ⟨lon, cols, e2, by rw [hd1, e3]⟩

theorem mapM_ok_of_all {ε α β} (f : α → Except ε β) (l : List α) (h : ∀ a ∈ l, ∃ b, f a = .ok b) : ∃ r, l.mapM f = .ok r := by
  induction l with
  | nil => exact ⟨[], List.mapM_nil⟩
  | cons x l ih =>
    obtain ⟨b, hb⟩ := h x (by simp)
    obtain ⟨r, hr⟩ := ih fun a ha => h a (by simp [ha])
    exact ⟨b :: r, by rw [List.mapM_cons, hb, hr]; rfl⟩

theorem multiPanels_some_iff (n w : Nat) : (∃ axes, multiPanels n w = some axes) ↔ 0 < w ∧ 2 ≤ n := by
  unfold multiPanels
  by_cases hw : w = 0
  · simp [hw]
  · simp only [hw, if_false]
    have h0 : 0 < w := by omega
    have key : (n + w - 1) / w * min n w ≤ 1 ↔ n ≤ 1 := by
      constructor
      · intro h
        by_contra hn
        have h1 : 1 ≤ (n + w - 1) / w := by rw [Nat.le_div_iff_mul_le h0]; omega
        by_cases h2 : w = 1
        · subst h2
          simp only [Nat.add_sub_cancel, Nat.div_one] at h
          rw [min_eq_right (by omega)] at h
          omega
        · have h3 : 2 ≤ min n w := by omega
          have := Nat.mul_le_mul h1 h3
          omega
      · intro h
        have h1 : n = 0 ∨ n = 1 := by omega
        rcases h1 with rfl | rfl
        · simp
        · have e : (1 + w - 1) / w = 1 := by rw [Nat.add_sub_cancel_left]; exact Nat.div_self h0
          rw [e]; omega
    constructor
    · rintro ⟨axes, h⟩
      split at h
      · cases h
      · next hk => rw [key] at hk; omega
    · rintro ⟨_, h⟩
      rw [if_neg (by rw [key]; omega)]
      exact ⟨_, rfl⟩

/-- C103: panels of values are made exactly if they are along the leading dimension, there is at least one column and there are at least two steps, the
other dimensions are called "lat" and "lon" and are coordinates too, the configuration maps "time", the time coordinate exists if the panels are along
time, there are at least two longitudes, and no step is empty. -/
theorem C103_panels_made_iff (p : Plotter) (g : GridSpec) (da : GridData) (cfg : PlotCfg) (hid : cfg.plotIDs = false) (col : String) (w : Nat)
    (st : PlotState) :
    (∃ r, multiPlot p g da cfg col w st = .ok r) ↔
      da.lead = some col ∧ 0 < w ∧ 2 ≤ st.steps.length ∧ da.y = "lat" ∧ da.x = "lon" ∧ "lat" ∈ da.coords ∧ "lon" ∈ da.coords ∧
      (∃ t, cfg.dims.lookup "time" = some t ∧ (t = col → (p.coords.lookup "time").getD "time" ∈ da.coords)) ∧
      2 ≤ da.lon.length ∧ ∀ step ∈ st.steps, step ≠ [] := by
  obtain ⟨s, hs⟩ : ∃ s, setupParams (hasTimeDim p.dims da.lead) cfg st = .ok (s, st) := by
    unfold setupParams
    simp only [hid, Bool.false_eq_true, if_false]
    exact ⟨_, rfl⟩
  unfold multiPlot
  by_cases hlead : da.lead = some col
  swap
  · simp [hlead]
  rw [if_neg (by simpa using hlead), hs]
  dsimp only
  cases hax : multiPanels st.steps.length w with
  | none =>
    have := mt (multiPanels_some_iff st.steps.length w).2 (by rw [hax]; simp)
    simp only [reduceCtorEq, exists_false, false_iff]
    tauto
  | some axes =>
    have hnw := (multiPanels_some_iff st.steps.length w).1 ⟨_, hax⟩
    have haxes := multiPanels_filterMap _ _ _ hax
    dsimp only
    have hnp : ∀ (d c : Option Names), (∃ q, newPlotter p.unstructured g ⟨da.dims, da.coords⟩ d c = .ok q) ↔
        (∀ k v, (k, v) ∈ d.getD stdNames → k ≠ "time" → v ∈ da.dims) ∧ (∀ k v, (k, v) ∈ c.getD stdNames → k ≠ "time" → v ∈ da.coords) := by
      intro d c
      rw [← missingNames_nil, ← missingNames_nil]
      unfold newPlotter
      dsimp only
      split
      · next h => simp [h]
      · next h =>
        split
        · next h' => simp [h']
        · next h' =>
          rw [not_not] at h h'
          simp [h, h']
    have hsome := setup_some _ _ _ _ _ hs
    cases hq : newPlotter p.unstructured g ⟨da.dims, da.coords⟩ none none with
    | error e =>
      simp only [reduceCtorEq, exists_false, false_iff]
      rintro ⟨_, _, _, hy, hx, h1, h2, _⟩
      have : ∃ q, newPlotter p.unstructured g ⟨da.dims, da.coords⟩ none none = .ok q := by
        rw [hnp]
        constructor
        · intro k v hk hkt
          simp only [Option.getD_none, stdNames, List.mem_cons, Prod.mk.injEq, List.not_mem_nil, or_false] at hk
          rcases hk with ⟨rfl, rfl⟩ | ⟨rfl, rfl⟩ | ⟨rfl, rfl⟩
          · exact absurd rfl hkt
          · simp [GridData.dims, hy]
          · simp [GridData.dims, hx]
        · intro k v hk hkt
          simp only [Option.getD_none, stdNames, List.mem_cons, Prod.mk.injEq, List.not_mem_nil, or_false] at hk
          rcases hk with ⟨rfl, rfl⟩ | ⟨rfl, rfl⟩ | ⟨rfl, rfl⟩
          · exact absurd rfl hkt
          · exact h1
          · exact h2
      rw [hq] at this
      simp at this
    | ok q =>
      have hcoords := ((hnp none none).1 ⟨q, hq⟩).2
      have hlat := hcoords "y" "lat" (by decide) (by decide)
      have hlon := hcoords "x" "lon" (by decide) (by decide)
      dsimp only
      rw [haxes]
      constructor
      · rintro ⟨r, hr⟩
        split at hr
        · cases hr
        · next panels hp =>
          obtain ⟨hl, hk⟩ := mapM_ok_getElem _ _ _ hp
          have hpan : ∀ i, i < st.steps.length → ∃ d, drawPanel ((p.coords.lookup "time").getD "time") da cfg col s st i = .ok d := by
            intro i hi
            obtain ⟨b, _, hb⟩ := hk i i (List.getElem?_range hi)
            exact ⟨b, hb⟩
          obtain ⟨d0, hd0⟩ := hpan 0 (by omega)
          obtain ⟨step0, lon0, cols0, e1, e2, hx, hy, _⟩ := drawPanel_ok _ _ _ _ _ _ _ _ hsome hd0
          refine ⟨hlead, hnw.1, hnw.2, hy, hx, hlat, hlon, ?_, ((wrapLon_some_iff _ _).1 ⟨_, e2⟩).1, ?_⟩
          · unfold drawPanel at hd0
            cases ht : cfg.dims.lookup "time" with
            | none => rw [ht] at hd0; cases hd0
            | some t =>
              refine ⟨t, rfl, fun htc => ?_⟩
              rw [ht, e1] at hd0
              dsimp only at hd0
              split at hd0
              · cases hd0
              · split at hd0
                · cases hd0
                · next hn => push Not at hn; exact hn htc.symm
          · intro step hstep
            obtain ⟨i, hi⟩ := List.getElem?_of_mem hstep
            obtain ⟨d, hd⟩ := hpan i (List.getElem?_eq_some_iff.1 hi).1
            obtain ⟨step', lon', cols', e1', e2', _⟩ := drawPanel_ok _ _ _ _ _ _ _ _ hsome hd
            rw [hi] at e1'
            cases e1'
            exact ((wrapLon_some_iff _ _).1 ⟨_, e2'⟩).2
      · rintro ⟨_, _, _, hy, hx, _, _, ⟨t, ht, htc⟩, hl2, hne⟩
        obtain ⟨panels, hp⟩ := mapM_ok_of_all (drawPanel ((p.coords.lookup "time").getD "time") da cfg col s st) (List.range st.steps.length) (by
          intro i hi
          have hi' := List.mem_range.1 hi
          unfold drawPanel
          rw [ht, List.getElem?_eq_getElem hi']
          dsimp only
          obtain ⟨s', hs', _, _⟩ := setup_panel s hsome { cmap := some s.cmap, clim := s.clim, norm := s.norm, plotIDs := false, colourbar := false, extend := s.extend, dims := cfg.dims, coords := cfg.coords, projection := cfg.projection } rfl rfl rfl rfl ⟨[st.steps[i]], st.rng⟩ false
          rw [hs']
          dsimp only
          rw [if_neg (by rintro ⟨h1, h2⟩; exact h2 (htc h1.symm))]
          obtain ⟨wr, hwr⟩ := (wrapLon_some_iff da.lon st.steps[i]).2 ⟨hl2, hne _ (List.getElem_mem hi')⟩
          have e1 : stdNames.lookup "x" = some "lon" := by decide +kernel
          have e2 : stdNames.lookup "y" = some "lat" := by decide +kernel
          have e3 : stdNames.lookup "time" = some "time" := by decide +kernel
          unfold drawGrid
          rw [e1, e2, e3]
          dsimp only
          rw [if_neg (by simp [hx, hy]), hwr]
          exact ⟨_, rfl⟩)
        rw [hp]
        exact ⟨_, rfl⟩

/-- Three steps of a small regional grid. -/
def movieData : GridData := ⟨some "time", "lat", "lon", ["time", "lat", "lon"], [0, 1], [10, 11, 12],
  [[[some 1, none], [some 2, some 0], [some 0, some 0]], [[some 1, some 1], [none, some 3], [some 0, some 2]],
   [[some 0, none], [some 0, some 0], [some 2, some 2]]]⟩

example : (match multiPlot moviePlotter {} movieData { clim := some (0, 3) } "time" 2 ⟨movieData.steps, (0, 0)⟩ with
    | .ok (p, b) => p.length == 3 && b == some (.named "viridis", .limits 0 3) | _ => false) = true := by decide +kernel

example : movieData.lead = some "time" ∧ 2 ≤ movieData.steps.length ∧ movieData.y = "lat" ∧ "lat" ∈ movieData.coords ∧
    ("time" ∈ movieData.coords) ∧ 2 ≤ movieData.lon.length := by decide +kernel

/-- C103, movies: every frame has the colour map and the range of the whole record; without norm and limits of the user these are the
automatic limits of the record, from every tenth step if its leading dimension is the one the plotter takes for time. -/
theorem C103_frames_share_scale (p : Plotter) (da : GridData) (cfg : PlotCfg) (st : PlotState) (n : Nat)
    (frame : Nat → Except PlotErr Drawn) (h : gridFrames p da cfg st = .ok (n, frame)) :
    ∃ cmap range, (∀ i d, frame i = .ok d → d.cmap = cmap ∧ d.range = range) ∧
      (∀ m, cfg.plotIDs = false → cfg.cmap = some m → cmap = m) ∧
      (cfg.plotIDs = false → cfg.cmap = none → cmap = .named (if cfg.issym then "RdBu_r" else "viridis")) ∧
      (∀ m, cfg.plotIDs = false → cfg.norm = some m → range = .norm m) ∧
      (∀ lo hi, cfg.plotIDs = false → cfg.norm = none → cfg.clim = some (lo, hi) → range = .limits lo hi) ∧
      (cfg.plotIDs = false → cfg.norm = none → cfg.clim = none → ∀ t, p.dims.lookup "time" = some t →
        range = (if da.lead = some t
          then .limits (autoClim (st.steps.map fun s => s.flatten.filterMap id) cfg.issym cfg.cperc.1 cfg.cperc.2).1
            (autoClim (st.steps.map fun s => s.flatten.filterMap id) cfg.issym cfg.cperc.1 cfg.cperc.2).2
          else .limits (climRobust (allValues st.steps) cfg.issym cfg.cperc.1 cfg.cperc.2).1
            (climRobust (allValues st.steps) cfg.issym cfg.cperc.1 cfg.cperc.2).2)) := by
  unfold gridFrames at h
  split at h
  · cases h
  · next s st' hs =>
    refine ⟨s.cmap, s.range, ?_, ?_, ?_, ?_, ?_, ?_⟩
    · split at h
      · cases h
      · split at h
        · cases h
        · split at h
          · cases h
          · cases h
            intro i d hd
            dsimp only at hd
            split at hd
            · cases hd
            · unfold drawFrame at hd
              split at hd
              · cases hd
              · split at hd
                · cases hd
                · cases hd; exact ⟨rfl, rfl⟩
    · exact fun m hid => (setup_colour_scale _ _ _ _ _ hid hs).2.2.2.1 m
    · exact fun hid => (setup_colour_scale _ _ _ _ _ hid hs).2.2.2.2.1
    · exact fun m hid => (setup_colour_scale _ _ _ _ _ hid hs).1 m
    · exact fun lo hi hid => (setup_colour_scale _ _ _ _ _ hid hs).2.1 lo hi
    · intro hid hn hc t ht
      rw [(setup_colour_scale _ _ _ _ _ hid hs).2.2.1 hn hc]
      unfold hasTimeDim
      rw [ht]
      by_cases hl : da.lead = some t
      · simp [hl]
      · simp [hl, allValues]

/-- C119 fails for plots of IDs with a colour map given by name, which `PlotConfig` allows: they raise. -/
theorem C119_named_map_fails (hasTime : Bool) (cfg : PlotCfg) (st : PlotState) (name : String)
    (hid : cfg.plotIDs = true) (hc : cfg.cmap = some (.named name)) : ∃ e, setupParams hasTime cfg st = .error e := by
  unfold setupParams idScale
  simp only [hid, if_true, hc]
  cases maxOf st.steps <;> exact ⟨_, rfl⟩

theorem foldl_max_spec (v : ℚ) (vs : List ℚ) : vs.foldl max v ∈ v :: vs ∧ ∀ x ∈ v :: vs, x ≤ vs.foldl max v := by
  induction vs generalizing v with
  | nil => simp
  | cons w vs ih =>
    obtain ⟨h1, h2⟩ := ih (max v w)
    rw [List.foldl_cons]
    refine ⟨?_, ?_⟩
    · rcases List.mem_cons.1 h1 with h1 | h1
      · rw [h1]
        rcases max_choice v w with h | h <;> rw [h] <;> simp
      · simp [h1]
    · intro x hx
      have h3 := h2 (max v w) (by simp)
      rcases List.mem_cons.1 hx with rfl | hx
      · exact (le_max_left _ _).trans h3
      rcases List.mem_cons.1 hx with rfl | hx
      · exact (le_max_right _ _).trans h3
      · exact h2 x (by simp [hx])

theorem maxOf_largest (steps : List (List Column)) (m : Nat) (h : maxOf steps = some m) :
    ∃ v ∈ allValues steps, m = ⌊v⌋.toNat ∧ ∀ x ∈ allValues steps, x ≤ v := by
  unfold maxOf at h
  unfold allValues
  split at h
  · cases h
  · next v vs hv =>
    cases h
    have hv' : (steps.map fun s => s.flatten.filterMap id).flatten = v :: vs := hv
    rw [hv']
    obtain ⟨h1, h2⟩ := foldl_max_spec v vs
    exact ⟨_, h1, rfl, h2⟩

/-- C103: a plot of IDs has one colour for each number up to the largest ID `top` of the whole record, and no colour bar. -/
theorem C103_id_scale (hasTime : Bool) (cfg : PlotCfg) (st st' : PlotState) (s : Scale) (hid : cfg.plotIDs = true)
    (h : setupParams hasTime cfg st = .ok (s, st')) :
    ∃ m n, 0 < m ∧ m ≤ n ∧ s.range = .norm (.idBins m n) ∧
      (∃ top ∈ allValues st.steps, m = ⌊top⌋.toNat ∧ ∀ x ∈ allValues st.steps, x ≤ top) ∧
      (cfg.cmap = none → s.cmap = .random m ∧ n = m) ∧ (postInit cfg).colourbar = false := by
  unfold setupParams at h
  simp only [hid, if_true] at h
  split at h
  · cases h
  · next cm nn rng hi =>
    cases h
    unfold idScale at hi
    split at hi
    · cases hi
    · next m hm =>
      have hpb : (postInit cfg).colourbar = false := by simp [postInit, hid]
      split at hi
      · split at hi
        · next hf =>
          cases hi
          simp [coloursFit] at hf
          exact ⟨m, m, by omega, le_rfl, rfl, maxOf_largest _ _ hm, fun _ => ⟨rfl, rfl⟩, hpb⟩
        · cases hi
      · cases hi
      · next n hcm =>
        split at hi
        · next hf =>
          cases hi
          simp [coloursFit] at hf
          exact ⟨m, n, by omega, hf.2, rfl, maxOf_largest _ _ hm, by simp [hcm], hpb⟩
        · cases hi
      · next n hcm =>
        split at hi
        · next hf =>
          cases hi
          simp [coloursFit] at hf
          exact ⟨m, n, by omega, hf.2, rfl, maxOf_largest _ _ hm, by simp [hcm], hpb⟩
        · cases hi

example : (match setupParams true { plotIDs := true } ⟨movieData.steps, (7, 7)⟩ with
    | .ok (s, st) => s.range == .norm (.idBins 3 3) && st.rng == (42, 9) | _ => false) = true := by decide +kernel

/-- C118 fails for `multi_plot` with names of one's own: it makes a second plotter with the default names, so it raises
on all data without dimensions called "lat" and "lon", although the plotter it is called on is fine. -/
theorem C118_panels_names_fails (p : Plotter) (g : GridSpec) (da : GridData) (cfg : PlotCfg) (col : String) (w : Nat)
    (st : PlotState) (h : "lat" ∉ da.dims ∨ "lon" ∉ da.dims) : ∃ e, multiPlot p g da cfg col w st = .error e := by
  cases hm : multiPlot p g da cfg col w st with
  | error e => exact ⟨e, rfl⟩
  | ok r =>
    exfalso
    unfold multiPlot at hm
    split at hm
    · cases hm
    split at hm
    · cases hm
    split at hm
    · cases hm
    split at hm
    · cases hm
    · next q hq =>
      unfold newPlotter at hq
      simp only [Option.getD_none] at hq
      split at hq
      · cases hq
      · next hd =>
        rw [not_not] at hd
        have := (missingNames_nil _ _).1 hd
        rcases h with h | h
        · exact h (this "y" "lat" (by simp [stdNames]) (by decide))
        · exact h (this "x" "lon" (by simp [stdNames]) (by decide))

/-- Such data, for which the accessor makes a plotter without complaint. -/
example : (let da : GridData := ⟨some "t", "latitude", "longitude", ["t", "latitude", "longitude"], [0, 1], [10, 11], []⟩
    "lat" ∉ da.dims ∧ (plotterFor {} ⟨da.dims, da.coords⟩ (some [("time", "t"), ("y", "latitude"), ("x", "longitude")])
      (some [("time", "t"), ("y", "latitude"), ("x", "longitude")])).isOk = true) := by decide +kernel

/-! ### C101 -/

theorem frameFile_eq_pattern (i : Nat) : frameFile i = patternFile i := by
  unfold frameFile patternFile
  split
  · next h =>
    congr 2
    have hd : ∀ k, k < 10 → Nat.toDigits 10 k = [Nat.digitChar k] := fun k hk => Nat.toDigits_of_lt_base hk
    have step : ∀ a b, 0 < a → b < 10 → Nat.toDigits 10 (10 * a + b) = Nat.toDigits 10 a ++ [Nat.digitChar b] := by
      intro a b ha hb
      rw [Nat.toDigits_append_toDigits (b := 10) (by omega) ha hb |>.symm, hd b hb]
    rcases Nat.lt_or_ge i 10 with h1 | h1
    · rw [hd i h1]
      have e1 : i / 1000 % 10 = 0 := by omega
      have e2 : i / 100 % 10 = 0 := by omega
      have e3 : i / 10 % 10 = 0 := by omega
      have e4 : i % 10 = i := by omega
      simp [e1, e2, e3, e4, List.replicate]
    rcases Nat.lt_or_ge i 100 with h2 | h2
    · have : Nat.toDigits 10 i = [Nat.digitChar (i / 10), Nat.digitChar (i % 10)] := by
        conv_lhs => rw [show i = 10 * (i / 10) + i % 10 by omega]
        rw [step _ _ (by omega) (by omega), hd _ (by omega)]; rfl
      rw [this]
      have e1 : i / 1000 % 10 = 0 := by omega
      have e2 : i / 100 % 10 = 0 := by omega
      have e3 : i / 10 % 10 = i / 10 := by omega
      simp [e1, e2, e3, List.replicate]
    rcases Nat.lt_or_ge i 1000 with h3 | h3
    · have : Nat.toDigits 10 i = [Nat.digitChar (i / 100), Nat.digitChar (i / 10 % 10), Nat.digitChar (i % 10)] := by
        conv_lhs => rw [show i = 10 * (10 * (i / 100) + i / 10 % 10) + i % 10 by omega]
        rw [step _ _ (by omega) (by omega), step _ _ (by omega) (by omega), hd _ (by omega)]; rfl
      rw [this]
      have e1 : i / 1000 % 10 = 0 := by omega
      have e2 : i / 100 % 10 = i / 100 := by omega
      simp [e1, e2, List.replicate]
    · have : Nat.toDigits 10 i = [Nat.digitChar (i / 1000), Nat.digitChar (i / 100 % 10), Nat.digitChar (i / 10 % 10), Nat.digitChar (i % 10)] := by
        conv_lhs => rw [show i = 10 * (10 * (10 * (i / 1000) + i / 100 % 10) + i / 10 % 10) + i % 10 by omega]
        rw [step _ _ (by omega) (by omega), step _ _ (by omega) (by omega), step _ _ (by omega) (by omega), hd _ (by omega)]; rfl
      rw [this]
      have e1 : i / 1000 % 10 = i / 1000 := by omega
      simp [e1]
  · next h =>
    have : ¬ (Nat.toDigits 10 i).length ≤ 4 := by
      rw [Nat.length_toDigits_le_iff (by omega) (by omega)]
      omega
    rw [show 4 - (Nat.toDigits 10 i).length = 0 by omega]
    simp

theorem ofDigitChars_zeros (k : Nat) (l : List Char) : Nat.ofDigitChars 10 (List.replicate k '0' ++ l) 0 = Nat.ofDigitChars 10 l 0 := by
  induction k with
  | zero => simp
  | succ k ih => rw [List.replicate_succ, List.cons_append, Nat.ofDigitChars_cons]; simpa using ih

theorem frameFile_injective : Function.Injective frameFile := by
  intro i j h
  unfold frameFile at h
  have h1 := List.append_cancel_right h
  have h2 := List.append_cancel_left h1
  have := congrArg (fun l => Nat.ofDigitChars 10 l 0) h2
  simp only [ofDigitChars_zeros] at this
  simpa using this

theorem writeFrames_ok {α} (frame : Nat → Except PlotErr α) (fs : Nat → α) (l : List Nat) (d : Dir α)
    (h : ∀ i ∈ l, frame i = .ok (fs i)) :
    writeFrames frame l d = ((l.map fun i => (frameFile i, fs i)).reverse ++ d, none) := by
  induction l generalizing d with
  | nil => rfl
  | cons i l ih =>
    unfold writeFrames
    rw [h i (by simp)]
    dsimp only
    rw [ih _ (fun j hj => h j (by simp [hj]))]
    simp

theorem lookup_frames {α} (fs : Nat → α) (l : List Nat) (i : Nat) :
    (l.map fun i => (frameFile i, fs i)).lookup (frameFile i) = if i ∈ l then some (fs i) else none := by
  induction l with
  | nil => simp
  | cons j l ih =>
    rw [List.map_cons, List.lookup_cons]
    by_cases h : i = j
    · subst h; simp
    · have : (frameFile i == frameFile j) = false := by
        rw [beq_eq_false_iff_ne]; exact fun h' => h (frameFile_injective h')
      rw [this, ih]
      simp [h]

theorem readFrom_eq {α} (d : Dir α) (fs : Nat → α) (n : Nat)
    (h : ∀ i, d.lookup (patternFile i) = if i < n then some (fs i) else none) (fuel i : Nat) (hf : n - i ≤ fuel) (hi : i ≤ n) :
    readFrom d fuel i = (List.range' i (n - i)).map fs := by
  induction fuel generalizing i with
  | zero => simp [show n - i = 0 by omega, readFrom]
  | succ f ih =>
    unfold readFrom
    rw [h i]
    by_cases hlt : i < n
    · simp only [hlt, if_true]
      rw [ih (i + 1) (by omega) (by omega), show n - i = (n - (i + 1)) + 1 by omega, List.range'_succ]
      simp
    · simp [hlt, show n - i = 0 by omega]

theorem ffmpegReads_frames {α} (fs : Nat → α) (n : Nat) (hn : 0 < n) (l : List Nat) (hperm : l.Perm (List.range n)) :
    ffmpegReads (l.map fun i => (frameFile i, fs i)) = some ((List.range n).map fs) := by
  have hlook : ∀ i, (l.map fun i => (frameFile i, fs i)).lookup (patternFile i) = if i < n then some (fs i) else none := by
    intro i
    rw [← frameFile_eq_pattern, lookup_frames]
    have : i ∈ l ↔ i < n := by rw [hperm.mem_iff]; simp
    simp [this]
  unfold ffmpegReads
  have : [0, 1, 2, 3, 4].find? (fun i => ((l.map fun i => (frameFile i, fs i)).lookup (patternFile i)).isSome) = some 0 := by
    rw [List.find?_cons, hlook 0]
    simp [hn]
  rw [this]
  dsimp only
  rw [readFrom_eq _ fs n hlook _ 0 (by simp [hperm.length_eq]) (by omega)]
  rw [Nat.sub_zero, List.range_eq_range']

theorem writeFrames_none {α} (frame : Nat → Except PlotErr α) : ∀ (l : List Nat) (d d' : Dir α),
    writeFrames frame l d = (d', none) → ∀ i ∈ l, ∃ a, frame i = .ok a
  | [], _, _, _, _, hi => by simp at hi
  | j :: l, d, d', h, i, hi => by
    unfold writeFrames at h
    cases hj : frame j with
    | error e => rw [hj] at h; simp at h
    | ok a =>
      rw [hj] at h
      rcases List.mem_cons.1 hi with rfl | hi
      · exact ⟨a, hj⟩
      · exact writeFrames_none frame l _ d' h i hi

/-- C101: a movie whose path is returned, under whatever circumstances, has one picture for each step, in order of time: picture `i`
is the frame made for step `i`.  The frames are made in parallel, in any order that has each of them once. -/
theorem C101_returned_movie {α} (env : AnimEnv) (dir : String) (name : Option String) (daName : String)
    (prepare : Except PlotErr (Nat × (Nat → Except PlotErr α))) (order : Nat → List Nat)
    (hord : ∀ n, (order n).Perm (List.range n)) (path : String)
    (h : (animate env dir name daName prepare order).result = .ok (some path)) :
    ∃ n frame pics, prepare = .ok (n, frame) ∧ 0 < n ∧
      (animate env dir name daName prepare order).movie = some (path, pics) ∧ pics.length = n ∧
      ∀ i < n, ∃ a, frame i = .ok a ∧ pics[i]? = some a := by
  unfold animate at h ⊢
  split at h
  · simp at h
  case isFalse h1 =>
  split at h
  · simp at h
  case isFalse h2 =>
  rw [if_neg h1, if_neg h2]
  split at h
  · simp at h
  case _ n frame =>
    split at h
    · simp at h
    case _ d hw =>
      have hall := writeFrames_none frame _ _ _ hw
      have hok : ∀ i < n, ∃ a, frame i = .ok a := fun i hi => hall i ((hord n).mem_iff.2 (by simpa using hi))
      by_cases hn : 0 < n
      · obtain ⟨a0, _⟩ := hok 0 hn
        set fs : Nat → α := fun i => match frame i with | .ok a => a | .error _ => a0 with hfs
        have hfr : ∀ i < n, frame i = .ok (fs i) := by
          intro i hi
          obtain ⟨a, ha⟩ := hok i hi
          simp only [hfs, ha]
        rw [writeFrames_ok frame fs (order n) [] (fun i hi => hfr i (by simpa using (hord n).mem_iff.1 hi))] at hw
        rw [List.append_nil, ← List.map_reverse] at hw
        have hd : d = (order n).reverse.map fun i => (frameFile i, fs i) := by
          simpa [eq_comm] using congrArg Prod.fst hw
        have hr := ffmpegReads_frames fs n hn _ ((List.reverse_perm (order n)).trans (hord n))
        rw [hd, hr] at h ⊢
        dsimp only at h ⊢
        split at h
        case isTrue h3 =>
          rw [if_pos h3]
          refine ⟨n, frame, (List.range n).map fs, rfl, hn, ?_, by simp, fun i hi => ⟨fs i, hfr i hi, by simp [hi]⟩⟩
          simpa using h
        case isFalse => simp at h
      · have h0 : n = 0 := by omega
        subst h0
        have : order 0 = [] := by simpa using hord 0
        rw [this] at hw
        simp only [writeFrames, Prod.mk.injEq] at hw
        rw [← hw.1] at h
        simp [ffmpegReads] at h

/-- C101: if the frames can be made, ffmpeg works and there is at least one step, the movie is written under the name given; the call
returns its path, and the temporary files are gone. -/
theorem C101_movie {α} (env : AnimEnv) (dir name daName : String) (n : Nat) (frame : Nat → Except PlotErr α)
    (fs : Nat → α) (order : Nat → List Nat) (henv : env.ffmpegFound = true ∧ env.ffmpegWorks = true ∧ env.dirPossible = true)
    (hn : 0 < n) (hname : name ≠ "") (hfr : ∀ i < n, frame i = .ok (fs i)) (hord : (order n).Perm (List.range n)) :
    animate env dir (some name) daName (.ok (n, frame)) order =
      ⟨.ok (some (dir ++ "/" ++ name ++ ".mp4")), some (dir ++ "/" ++ name ++ ".mp4", (List.range n).map fs), none⟩ := by
  unfold animate
  simp only [henv.1, henv.2.1, henv.2.2, Bool.not_true, Bool.false_eq_true, if_false, if_true]
  rw [writeFrames_ok frame fs (order n) [] (fun i hi => hfr i (by simpa using hord.mem_iff.1 hi))]
  dsimp only
  rw [List.append_nil, ← List.map_reverse, ffmpegReads_frames fs n hn _ ((List.reverse_perm (order n)).trans hord)]
  simp [movieFile, hname]

/-- Three frames made in the order 2, 0, 1. -/
example : (animate {} "plots" none "sst" (.ok (3, fun i => if i < 3 then .ok (10 * i) else .error .index)) (fun _ => [2, 0, 1])).result =
      .ok (some "plots/movie_sst.mp4.mp4") ∧
    (animate {} "plots" none "sst" (.ok (3, fun i => if i < 3 then .ok (10 * i) else .error .index)) (fun _ => [2, 0, 1])).movie =
      some ("plots/movie_sst.mp4.mp4", [0, 10, 20]) := by
  constructor <;> rfl

/-- 12 345 frames, made in reverse order. -/
example : (List.range 12345).reverse.Perm (List.range 12345) := List.reverse_perm _

example : frameFile 7 = "time_0007.jpg".toList ∧ frameFile 12345 = "time_12345.jpg".toList := by decide +kernel

theorem writeFrames_some {α} (frame : Nat → Except PlotErr α) : ∀ (l : List Nat) (d d' : Dir α) (e : PlotErr),
    writeFrames frame l d = (d', some e) → ∃ i ∈ l, frame i = .error e
  | [], _, _, _, h => by simp [writeFrames] at h
  | j :: l, d, d', e, h => by
    unfold writeFrames at h
    cases hj : frame j with
    | error e' =>
      rw [hj] at h
      simp only [Prod.mk.injEq, Option.some.injEq] at h
      exact ⟨j, by simp, by rw [hj, h.2]⟩
    | ok a =>
      rw [hj] at h
      obtain ⟨i, hi, he⟩ := writeFrames_some frame l _ d' e h
      exact ⟨i, by simp [hi], he⟩

/-- C101: if a frame cannot be made, the call raises the error of such a frame and writes no movie. -/
theorem C101_failing_frame {α} (env : AnimEnv) (dir : String) (name : Option String) (daName : String) (n : Nat)
    (frame : Nat → Except PlotErr α) (order : Nat → List Nat) (henv : env.ffmpegFound = true ∧ env.dirPossible = true)
    (hord : (order n).Perm (List.range n)) (i : Nat) (hi : i < n) (e : PlotErr) (hfail : frame i = .error e) :
    ∃ j < n, ∃ e', frame j = .error e' ∧ (animate env dir name daName (.ok (n, frame)) order).result = .error e' ∧
      (animate env dir name daName (.ok (n, frame)) order).movie = none := by
  unfold animate
  simp only [henv.1, henv.2, Bool.not_true, Bool.false_eq_true, if_false]
  split
  · next d e' hw =>
    obtain ⟨j, hj, he⟩ := writeFrames_some frame _ _ _ _ hw
    exact ⟨j, by simpa using hord.mem_iff.1 hj, e', he, rfl, rfl⟩
  · next d hw =>
    obtain ⟨a, ha⟩ := writeFrames_none frame _ _ _ hw i (hord.mem_iff.2 (by simpa using hi))
    rw [hfail] at ha
    cases ha

/-- Frames 1 and 2 of 3 cannot be made; frame 2 is tried first. -/
example : (animate (α := Nat) {} "plots" none "sst" (.ok (3, fun i => if i = 0 then .ok 7 else if i = 1 then .error .index else .error .shape))
    (fun _ => [0, 2, 1])).result = .error .shape := rfl

theorem gridFrames_ok (p : Plotter) (da : GridData) (cfg : PlotCfg) (st : PlotState) (n : Nat)
    (frame : Nat → Except PlotErr Drawn) (h : gridFrames p da cfg st = .ok (n, frame)) :
    n = st.steps.length ∧ ∀ i d, frame i = .ok d → d.lon = da.lon ∧ d.lat = da.lat ∧ d.heading = .date i ∧
      (if cfg.plotIDs then keepPositive st.steps else st.steps)[i]? = some d.cols := by
  unfold gridFrames at h
  split at h
  · cases h
  · next s st' hs =>
    have hsteps := setup_steps _ _ _ _ _ hs
    split at h
    · cases h
    · split at h
      · cases h
      · split at h
        · cases h
        · cases h
          refine ⟨?_, ?_⟩
          · rw [hsteps]
            split
            · simp [keepPositive]
            · rfl
          intro i d hd
          dsimp only at hd
          split at hd
          · cases hd
          · next step hst =>
            unfold drawFrame at hd
            split at hd
            · cases hd
            · split at hd
              · cases hd
              · cases hd
                rw [hsteps] at hst
                exact ⟨rfl, rfl, rfl, hst⟩

/-- C101, on a regular grid: a movie whose path is returned has as many pictures as the data have steps; picture `i` shows the values of step `i`
(without the background, if IDs are plotted) at the longitudes and latitudes of the data, under the date of step `i`. -/
theorem C101_grid_movie (env : AnimEnv) (dir : String) (name : Option String) (daName : String) (p : Plotter) (da : GridData) (cfg : PlotCfg)
    (st : PlotState) (order : Nat → List Nat) (hord : ∀ n, (order n).Perm (List.range n)) (path : String)
    (h : (animate env dir name daName (gridFrames p da cfg st) order).result = .ok (some path)) :
    ∃ pics, (animate env dir name daName (gridFrames p da cfg st) order).movie = some (path, pics) ∧ pics.length = st.steps.length ∧
      ∀ (i : Nat) (step : List Column), st.steps[i]? = some step → ∃ d, pics[i]? = some d ∧ d.lon = da.lon ∧ d.lat = da.lat ∧
        d.heading = .date i ∧
        d.cols = (if cfg.plotIDs then step.map (fun col => col.map fun x => x.filter fun v => decide (0 < v)) else step) := by
  obtain ⟨n, frame, pics, h1, h2, h3, h4, h5⟩ := C101_returned_movie env dir name daName _ order hord path h
  obtain ⟨hn, hfr⟩ := gridFrames_ok p da cfg st n frame h1
  refine ⟨pics, h3, h4.trans hn, ?_⟩
  intro i step hst
  have hlt : i < st.steps.length := by
    by_contra hc
    rw [List.getElem?_eq_none (by omega)] at hst
    cases hst
  obtain ⟨d, hd, hp⟩ := h5 i (by omega)
  obtain ⟨a, b, c, e⟩ := hfr i d hd
  refine ⟨d, hp, a, b, c, ?_⟩
  by_cases hid : cfg.plotIDs
  · simp only [hid, if_true, keepPositive, List.getElem?_map, hst, Option.map_some, Option.some.injEq] at e ⊢
    exact e.symm
  · simp only [hid, Bool.false_eq_true, if_false, hst, Option.some.injEq] at e ⊢
    exact e.symm

/-- C101, on a regular grid: whether the frames of a movie can be set up: the colours can be chosen, the configuration names the leading
dimension as time, and the time coordinate it names (by default the dimension) exists, unless there is no step at all. -/
theorem C101_frames_set_up_iff (p : Plotter) (da : GridData) (cfg : PlotCfg) (st : PlotState) :
    (∃ frames, gridFrames p da cfg st = .ok frames) ↔
      (∃ s, setupParams (da.lead == some ((p.dims.lookup "time").getD "time")) cfg st = .ok s) ∧
      ∃ t, cfg.dims.lookup "time" = some t ∧ da.lead = some t ∧
        (st.steps = [] ∨ (cfg.coords.lookup "time").getD t ∈ da.coords) := by
  change (∃ frames, gridFrames p da cfg st = .ok frames) ↔ (∃ s, setupParams (hasTimeDim p.dims da.lead) cfg st = .ok s) ∧ _
  unfold gridFrames
  cases hs : setupParams (hasTimeDim p.dims da.lead) cfg st with
  | error e => simp
  | ok r =>
    obtain ⟨s, st'⟩ := r
    have hlen : st'.steps.length = st.steps.length := by
      rw [setup_steps _ _ _ _ _ hs]
      split <;> simp [keepPositive]
    dsimp only
    cases ht : cfg.dims.lookup "time" with
    | none => simp
    | some t =>
      dsimp only
      by_cases hl : da.lead = some t
      · rw [if_neg (by simp [hl])]
        by_cases h0 : st.steps = []
        · rw [if_neg (by rw [hlen, h0]; simp)]
          exact ⟨fun _ => ⟨⟨_, rfl⟩, t, rfl, hl, .inl h0⟩, fun _ => ⟨_, rfl⟩⟩
        · have h0' : (st'.steps.length == 0) = false := by
            rw [hlen]; simpa using h0
          by_cases hc : (cfg.coords.lookup "time").getD t ∈ da.coords
          · rw [if_neg (by simp [hc])]
            exact ⟨fun _ => ⟨⟨_, rfl⟩, t, rfl, hl, .inr hc⟩, fun _ => ⟨_, rfl⟩⟩
          · rw [if_pos (by simp [hc, h0'])]
            constructor
            · rintro ⟨_, h⟩; cases h
            · rintro ⟨_, u, hu, _, h | h⟩
              · exact absurd h h0
              · cases hu; exact absurd h hc
      · rw [if_pos hl]
        constructor
        · rintro ⟨_, h⟩; cases h
        · rintro ⟨_, u, hu, h, _⟩
          cases hu; exact absurd h hl

/-- A movie of three steps, made in the order 2, 0, 1. -/
example : (match (animate {} "plots" (some "m") "sst" (gridFrames moviePlotter movieData { clim := some (0, 3) } ⟨movieData.steps, (0, 0)⟩)
    (fun _ => [2, 0, 1])).result with | .ok (some s) => s == "plots/m.mp4" | _ => false) = true := by decide +kernel

/-- C101: without ffmpeg nothing is returned and nothing is left behind. -/
theorem C101_no_ffmpeg {α} (env : AnimEnv) (dir : String) (name : Option String) (daName : String)
    (prepare : Except PlotErr (Nat × (Nat → Except PlotErr α))) (order : Nat → List Nat) (h : env.ffmpegFound = false) :
    animate env dir name daName prepare order = ⟨.ok none, none, none⟩ := by
  simp [animate, h]

/-- C101: if a path is returned, the movie is there and the temporary files are gone; else no movie has been written. -/
theorem C101_returned_path {α} [DecidableEq α] (env : AnimEnv) (dir : String) (name : Option String) (daName : String)
    (prepare : Except PlotErr (Nat × (Nat → Except PlotErr α))) (order : Nat → List Nat) (path : String) :
    ((animate env dir name daName prepare order).result = .ok (some path) ↔
      ∃ fs, (animate env dir name daName prepare order).movie = some (path, fs)) ∧
    ((animate env dir name daName prepare order).result = .ok (some path) →
      (animate env dir name daName prepare order).temp = none) := by
  unfold animate
  split
  · simp
  split
  · simp
  split
  · simp
  · split
    · simp
    · split
      · simp
      · split
        · simp [eq_comm]
        · simp

/-- C135 fails: without a name the extension is doubled, and so it is if the name has it already. -/
theorem C135_doubled_extension_fails (dir daName name : String) :
    movieFile dir none daName = dir ++ "/movie_" ++ daName ++ ".mp4.mp4" ∧
    movieFile dir (some (name ++ ".mp4")) daName = dir ++ "/" ++ name ++ ".mp4.mp4" := by
  constructor
  · unfold movieFile
    apply String.toList_injective
    simp [String.toList_append]
  · unfold movieFile
    have : name ++ ".mp4" ≠ "" := by
      intro h
      have := congrArg String.toList h
      simp at this
    simp only [this, if_false]
    apply String.toList_injective
    simp [String.toList_append]

theorem writeFrames_error {α} (frame : Nat → Except PlotErr α) (l : List Nat) (d : Dir α) (i : Nat) (e : PlotErr)
    (hi : i ∈ l) (h : frame i = .error e) : ∃ d' e', writeFrames frame l d = (d', some e') := by
  induction l generalizing d with
  | nil => simp at hi
  | cons j l ih =>
    unfold writeFrames
    cases hj : frame j with
    | error e' => exact ⟨d, e', rfl⟩
    | ok a =>
      dsimp only
      rcases List.mem_cons.1 hi with rfl | h'
      · rw [h] at hj; cases hj
      · exact ih _ h'

/-- C135 fails: whenever the call raises after its first steps — the configuration is refused, a frame cannot be made,
there is no step, or ffmpeg fails — the directory of temporary files stays, with the frames made so far. -/
theorem C135_temp_left_fails {α} (env : AnimEnv) (dir : String) (name : Option String) (daName : String)
    (prepare : Except PlotErr (Nat × (Nat → Except PlotErr α))) (order : Nat → List Nat) (e : PlotErr)
    (hdir : env.dirPossible = true) (h : (animate env dir name daName prepare order).result = .error e) :
    (animate env dir name daName prepare order).temp ≠ none := by
  unfold animate at h ⊢
  split at h
  · cases h
  · next h1 =>
    rw [if_neg h1]
    rw [if_neg (by simp [hdir])] at h ⊢
    split at h
    · simp
    · split at h
      · simp
      · split at h
        · simp
        · split at h
          · cases h
          · next hx => rw [if_neg hx]; simp

/-- A frame that cannot be made meets it. -/
example : (animate {} "plots" (some "m") "x" (.ok (3, fun i => if i = 2 then .error .index else .ok i)) List.range).result = .error .index := by
  decide +kernel

/-- C101: frames have even width and height, at most one pixel smaller than drawn. -/
theorem C101_even_size (w h : Nat) :
    Even (evenSize w h).1 ∧ Even (evenSize w h).2 ∧ (evenSize w h).1 ≤ w ∧ w ≤ (evenSize w h).1 + 1 ∧
    (evenSize w h).2 ≤ h ∧ h ≤ (evenSize w h).2 + 1 := by
  unfold evenSize
  dsimp only
  rw [Nat.even_iff, Nat.even_iff]
  omega

example : evenSize 2101 1500 = (2100, 1500) := by decide

/-! ### C102 -/

/-- C102, partial: on a regional grid with the default names, a frame of a movie shows what the panel of that step shows.
Missing: data all around the globe, other projections, other names (see the `_fails` theorems). -/
theorem C102_frame_is_panel_partial (p : Plotter) (g : GridSpec) (da : GridData) (cfg : PlotCfg) (w : Nat) (st : PlotState)
    (panels : List Drawn) (bar : Option (ColourMap × ColourRange)) (n : Nat) (frame : Nat → Except PlotErr Drawn)
    (hp : multiPlot p g da cfg "time" w st = .ok (panels, bar)) (hf : gridFrames p da cfg st = .ok (n, frame))
    (hproj : cfg.projection = "Robinson") (hreg : ∀ cols : List Column, cols ≠ [] → wrapLon da.lon cols = some (da.lon, cols))
    (i : Nat) (d : Drawn) (hd : frame i = .ok d) : panels[i]? = some d := by
  obtain ⟨s, st', hs, _, _, hk⟩ := C103_panels_share_scale p g da cfg "time" w st panels bar hp
  have hsteps := setup_steps _ _ _ _ _ hs
  change setupParams (hasTimeDim p.dims da.lead) cfg st = .ok (s, st') at hs
  unfold gridFrames at hf
  rw [hs] at hf
  dsimp only at hf
  cases ht : cfg.dims.lookup "time" with
  | none => rw [ht] at hf; cases hf
  | some t =>
    rw [ht] at hf
    dsimp only at hf
    split at hf
    · cases hf
    · next hlead =>
      rw [not_not] at hlead
      split at hf
      · cases hf
      · cases hf
        dsimp only at hd
        split at hd
        · cases hd
        · next step hstep =>
          have hlead2 : da.lead = some "time" := by
            unfold multiPlot at hp
            split at hp
            · cases hp
            · next h => rwa [not_not] at h
          have htt : t = "time" := by rw [hlead] at hlead2; exact Option.some.inj hlead2
          rw [hsteps] at hstep
          obtain ⟨lon, cols, e1, e2⟩ := hk i step hstep
          have hne : step ≠ [] := by
            rintro rfl
            unfold wrapLon at e1
            split at e1
            · next h => cases h
            · cases e1
          rw [hreg step hne] at e1
          simp only [Option.some.injEq, Prod.mk.injEq] at e1
          obtain ⟨rfl, rfl⟩ := e1
          rw [e2]
          unfold drawFrame at hd
          split at hd
          · cases hd
          · split at hd
            · cases hd
            · cases hd
              rw [ht, htt, hproj]
              simp

example : ∀ cols : List Column, cols ≠ [] → wrapLon movieData.lon cols = some (movieData.lon, cols) := by
  intro cols h
  cases cols with
  | nil => exact absurd rfl h
  | cons c cs =>
    unfold wrapLon movieData
    norm_num [abs_of_pos]

example : (match gridFrames moviePlotter movieData { clim := some (0, 3) } ⟨movieData.steps, (0, 0)⟩ with
    | .ok (n, f) => n == 3 && (match f 2 with | .ok d => d.lon == [10, 11, 12] | _ => false) | _ => false) = true := by
  decide +kernel

/-- C102 fails around the globe: where a panel has the extra column that closes the globe, the frame of the same step has
not. -/
theorem C102_global_seam_fails (p : Plotter) (da : GridData) (cfg : PlotCfg) (st : PlotState) (n : Nat)
    (frame : Nat → Except PlotErr Drawn) (hf : gridFrames p da cfg st = .ok (n, frame)) (i : Nat) (d : Drawn)
    (hd : frame i = .ok d) (lon : List ℚ) (cols : List Column)
    (hw : wrapLon da.lon d.cols = some (lon, cols)) (hglobal : cols ≠ d.cols) :
    d.lon.length + 1 = lon.length ∧ d.cols.length + 1 = cols.length ∧ cols.getLast? = d.cols.head? := by
  have hdl : d.lon = da.lon := by
    unfold gridFrames at hf
    split at hf
    · cases hf
    · split at hf
      · cases hf
      · split at hf
        · cases hf
        · split at hf
          · cases hf
          · cases hf
            dsimp only at hd
            split at hd
            · cases hd
            · unfold drawFrame at hd
              split at hd
              · cases hd
              · split at hd
                · cases hd
                · cases hd; rfl
  rw [hdl]
  unfold wrapLon at hw
  split at hw
  · next l0 l1 ls c0 cs h1 h2 =>
    rw [h2] at hglobal
    rw [h1, h2]
    dsimp only at hw
    split at hw
    · cases hw
      refine ⟨by simp, by simp, ?_⟩
      rw [List.getLast?_append]
      simp
    · cases hw
      exact absurd rfl hglobal
  · cases hw

/-- A global grid of four longitudes. -/
example : (match wrapLon [0, 90, 180, 270] [[some (1 : ℚ)], [some 2], [some 3], [some 4]] with
    | some (l, c) => l.length == 5 && c.length == 5 | none => false) = true := by decide +kernel

/-- C102 fails for projections: a frame is drawn under the Robinson projection whatever the configuration says. -/
theorem C102_projection_fails (p : Plotter) (da : GridData) (cfg : PlotCfg) (st : PlotState) (n : Nat)
    (frame : Nat → Except PlotErr Drawn) (hf : gridFrames p da cfg st = .ok (n, frame)) (i : Nat) (d : Drawn)
    (hd : frame i = .ok d) (hp : cfg.projection ≠ "Robinson") : d.projection ≠ cfg.projection := by
  have : d.projection = "Robinson" := by
    unfold gridFrames at hf
    split at hf
    · cases hf
    · split at hf
      · cases hf
      · split at hf
        · cases hf
        · split at hf
          · cases hf
          · cases hf
            dsimp only at hd
            split at hd
            · cases hd
            · unfold drawFrame at hd
              split at hd
              · cases hd
              · split at hd
                · cases hd
                · cases hd; rfl
  rw [this]
  exact fun h => hp h.symm

/-- C102 fails for other names: on data without coordinates called "lat" and "lon" no frame can be made, although single
plots with the right mapping work. -/
theorem C102_names_fails (p : Plotter) (da : GridData) (cfg : PlotCfg) (st : PlotState) (n : Nat)
    (frame : Nat → Except PlotErr Drawn) (hf : gridFrames p da cfg st = .ok (n, frame))
    (h : "lat" ∉ da.coords ∨ "lon" ∉ da.coords) (i : Nat) (hi : i < n) :
    frame i = .error (.attribute "lat") ∨ frame i = .error (.attribute "lon") := by
  unfold gridFrames at hf
  split at hf
  · cases hf
  · split at hf
    · cases hf
    · split at hf
      · cases hf
      · split at hf
        · cases hf
        · cases hf
          dsimp only
          split
          · next hn =>
            rw [List.getElem?_eq_none_iff] at hn
            omega
          · unfold drawFrame
            rcases h with h | h
            · exact .inl (by rw [if_pos (by simpa using h)])
            · split
              · exact .inl rfl
              · exact .inr (by rw [if_pos (by simpa using h)])

/-- Data with names of their own: a single plot of a step works, a frame of it does not. -/
def renamedData (lead : Option String) : GridData :=
  ⟨lead, "latitude", "longitude", ["t", "latitude", "longitude"], [0, 1], [10, 11], [[[some 1, some 2], [none, some 4]]]⟩

def renamedNames : Names := [("time", "t"), ("y", "latitude"), ("x", "longitude")]

example :
    (singlePlot ⟨renamedNames, renamedNames, false, none, none⟩ (renamedData (some "t")) { clim := some (0, 4), dims := renamedNames, coords := renamedNames } ⟨(renamedData none).steps, (0, 0)⟩).isOk = true ∧
    (gridFrames ⟨renamedNames, renamedNames, false, none, none⟩ (renamedData (some "t")) { clim := some (0, 4), dims := renamedNames, coords := renamedNames } ⟨(renamedData none).steps, (0, 0)⟩).isOk = true ∧
    "lat" ∉ (renamedData (some "t")).coords := by decide +kernel

/-- C151, mesh: with the file of nearest cells, frames and single plots show the same: at row `i` and column `j` of a
regular grid the value of the cell named there (counted from the end if the number is negative). -/
theorem C151_mesh_nearest_cells (p : Plotter) (tree : String → Tree) (cb : Bool) (cells : List (Option ℚ)) (path : String)
    (hp : p.ckdtree = some path) :
    meshFrame p tree cb cells = drawMesh p tree false cells ∧
    ∀ r, meshFrame p tree cb cells = .ok (.rows r) → r.length = (tree path).nlat ∧
      ∀ (i j : Nat), i < (tree path).nlat → j < (tree path).nlon →
        ∃ k : Int, (tree path).idx[i * (tree path).nlon + j]? = some k ∧
          ((r[i]?).getD [])[j]? = (if 0 ≤ k then cells[k.toNat]? else cells[((cells.length : Int) + k).toNat]?) := by
  constructor
  · simp [meshFrame, drawMesh, hp]
  · intro r hr
    unfold meshFrame at hr
    rw [hp] at hr
    dsimp only at hr
    split at hr
    · cases hr
    · next r' hg =>
      cases hr
      set t := tree path
      unfold onGrid at hg
      split at hg
      · cases hg
      · next v hv =>
        split at hg
        · next hlen =>
          cases hg
          refine ⟨by simp, ?_⟩
          intro i j hi hj
          have hidx : i * t.nlon + j < t.nlat * t.nlon := by
            have : (i + 1) * t.nlon ≤ t.nlat * t.nlon := Nat.mul_le_mul_right _ hi
            rw [Nat.add_mul] at this
            omega
          obtain ⟨h1, h2⟩ : v.length = t.idx.length ∧ ∀ (m : Nat) (k : Int), t.idx[m]? = some k → v[m]? = npGet cells k := by
            clear hlen
            revert hv
            generalize t.idx = idx
            intro hv
            induction idx generalizing v with
            | nil => rw [List.mapM_nil] at hv; cases hv; exact ⟨rfl, fun m k h => by simp at h⟩
            | cons x idx ih =>
              rw [List.mapM_cons] at hv
              cases hx : npGet cells x with
              | none => rw [hx] at hv; cases hv
              | some a =>
                rw [hx] at hv
                cases hm : idx.mapM (npGet cells) with
                | none => rw [hm] at hv; cases hv
                | some v' =>
                  rw [hm] at hv
                  cases hv
                  obtain ⟨q1, q2⟩ := ih v' hm
                  refine ⟨by simp [q1], ?_⟩
                  intro m k hk
                  cases m with
                  | zero => simp only [List.getElem?_cons_zero, Option.some.injEq] at hk ⊢; rw [← hk, hx]
                  | succ m => simpa using q2 m k (by simpa using hk)
          have hk : i * t.nlon + j < t.idx.length := by omega
          refine ⟨t.idx[i * t.nlon + j], List.getElem?_eq_getElem hk, ?_⟩
          have hv' := h2 _ _ (List.getElem?_eq_getElem hk)
          have hsome : (npGet cells t.idx[i * t.nlon + j]).isSome := by
            rw [← hv', List.getElem?_eq_getElem (by omega)]; rfl
          rw [List.getElem?_map, List.getElem?_range hi]
          simp only [Option.map_some, Option.getD_some]
          rw [List.getElem?_take_of_lt hj, List.getElem?_drop, hv']
          unfold npGet at hsome ⊢
          split
          · rfl
          · next hneg =>
            rw [if_neg hneg] at hsome
            split at hsome
            · cases hsome
            · next h3 => rw [if_neg h3]
        · cases hg

example : (meshFrame ⟨[], [], true, some "g", some "k"⟩ (fun _ => ⟨[0, 2, -1, 1], 2, 2⟩) true [some 5, none, some 7]
    == .ok (.rows [[some 5, some 7], [some 7, none]])) = true := by decide +kernel

theorem npGet_some_iff {α} (l : List α) (k : Int) : (npGet l k).isSome ↔ -(l.length : Int) ≤ k ∧ k < l.length := by
  unfold npGet
  split
  · simp only [Option.isSome_iff_ne_none, ne_eq, List.getElem?_eq_none_iff]; omega
  · split
    · simp; omega
    · simp only [Option.isSome_iff_ne_none, ne_eq, List.getElem?_eq_none_iff]; omega

/-- C151, mesh: a frame or plot with the file of nearest cells is made exactly if the file names a cell for each point of its grid, all of
them cells of the data (counted from the end if negative); otherwise an error is raised. -/
theorem C151_mesh_frame_made_iff (p : Plotter) (tree : String → Tree) (cb : Bool) (cells : List (Option ℚ)) (path : String)
    (hp : p.ckdtree = some path) :
    (∃ d, meshFrame p tree cb cells = .ok d) ↔
      (tree path).idx.length = (tree path).nlat * (tree path).nlon ∧
      ∀ k ∈ (tree path).idx, -(cells.length : Int) ≤ k ∧ k < cells.length := by
  unfold meshFrame
  rw [hp]
  dsimp only
  have hm : ∀ idx : List Int, (∀ v, idx.mapM (npGet cells) = some v → v.length = idx.length) ∧
      ((∃ v, idx.mapM (npGet cells) = some v) ↔ ∀ k ∈ idx, -(cells.length : Int) ≤ k ∧ k < cells.length) := by
    intro idx
    induction idx with
    | nil => simp
    | cons x idx ih =>
      obtain ⟨i1, i2⟩ := ih
      rw [List.mapM_cons]
      cases hx : npGet cells x with
      | none =>
        have := (npGet_some_iff cells x).not.mp (by rw [hx]; simp)
        refine ⟨fun v h => (by cases h), ?_⟩
        simp only [List.mem_cons, forall_eq_or_imp]
        constructor
        · rintro ⟨v, h⟩; cases h
        · intro h; exact absurd h.1 this
      | some y =>
        have := (npGet_some_iff cells x).mp (by rw [hx]; simp)
        cases hv : idx.mapM (npGet cells) with
        | none =>
          rw [hv] at i2
          refine ⟨fun v h => (by cases h), ?_⟩
          simp only [List.mem_cons, forall_eq_or_imp]
          constructor
          · rintro ⟨v, h⟩; cases h
          · intro h; obtain ⟨v, hv'⟩ := i2.mpr h.2; cases hv'
        | some v =>
          refine ⟨fun v' h => (by cases h; simp [i1 v hv]), ?_⟩
          simp only [List.mem_cons, forall_eq_or_imp]
          exact ⟨fun _ => ⟨this, i2.mp ⟨v, hv⟩⟩, fun _ => ⟨_, rfl⟩⟩
  obtain ⟨h1, h2⟩ := hm (tree path).idx
  rw [← h2]
  unfold onGrid
  constructor
  · rintro ⟨d, hd⟩
    split at hd
    · cases hd
    · next r hr =>
      split at hr
      · cases hr
      · next v hv =>
        split at hr
        · next hl => exact ⟨by rw [← h1 v hv, hl], v, hv⟩
        · cases hr
  · rintro ⟨hl, v, hv⟩
    simp only [hv, h1 v hv, hl, if_true]
    exact ⟨_, rfl⟩

example : ∀ k ∈ ([0, 2, -1, 1] : List Int), -(3 : Int) ≤ k ∧ k < 3 := by decide

/-- C102 fails for a mesh with a triangulation only: single plots work, but no frame can be made; and without any grid
file a movie without colour bar is made of empty maps, where a single plot would raise. -/
theorem C102_mesh_frames_fails (p : Plotter) (tree : String → Tree) (cb : Bool) (cells : List (Option ℚ)) (hp : p.ckdtree = none) :
    (∀ path, p.tgrid = some path → drawMesh p tree false cells = .ok (.cells path cells) ∧
      ∃ e, meshFrame p tree cb cells = .error e) ∧
    (p.tgrid = none → drawMesh p tree false cells = .error .noGrid ∧ meshFrame p tree false cells = .ok .nothing) := by
  constructor
  · intro path h
    exact ⟨by simp [drawMesh, hp, h], .shading, by simp [meshFrame, hp, h]⟩
  · intro h
    simp [drawMesh, meshFrame, hp, h]

/-- C102 fails for a single step of a mesh that still has its time dimension: it cannot be plotted with either file
(on a regular grid such a step is plotted). -/
theorem C102_mesh_one_step_fails (p : Plotter) (tree : String → Tree) (cells : List (Option ℚ)) :
    ∃ e, drawMesh p tree true cells = .error e := by
  unfold drawMesh
  split
  · exact ⟨_, rfl⟩
  · split <;> exact ⟨_, rfl⟩

/-! ### C104 -/

/-- C104: if the plotted data are the object field, the markers of a frame are exactly the centroids of the
objects present in it whose centroid is known. -/
theorem C104_markers (data : List (Option ℚ)) (ids : List ℚ) (lat lon : List (Option ℚ)) (hnd : ids.Nodup)
    (x y : ℚ) :
    (x, y) ∈ markers data ids lat lon ↔
      ∃ (k : Nat) (v : ℚ), ids[k]? = some v ∧ 0 < v ∧ some v ∈ data ∧ lat[k]? = some (some y) ∧ lon[k]? = some (some x) := by
  unfold markers
  dsimp only
  rw [List.mem_filterMap]
  have hpres : ∀ v, v ∈ (((data.filterMap id).filter (fun v => decide (0 < v))).dedup).insertionSort (· ≤ ·) ↔
      some v ∈ data ∧ 0 < v := by
    intro v
    rw [List.mem_insertionSort, List.mem_dedup, List.mem_filter, List.mem_filterMap]
    simp
  constructor
  · rintro ⟨v, hv, h⟩
    obtain ⟨hv1, hv2⟩ := (hpres v).1 hv
    split at h
    · cases h
    · next k hk =>
      rw [List.findIdx?_eq_some_iff_getElem] at hk
      obtain ⟨hlt, hkv, _⟩ := hk
      split at h
      · next la lo hla hlo =>
        cases h
        refine ⟨k, v, ?_, hv2, hv1, ?_, ?_⟩
        · rw [List.getElem?_eq_getElem hlt]
          simpa using hkv
        · rwa [Option.join_eq_some_iff] at hla
        · rwa [Option.join_eq_some_iff] at hlo
      · cases h
  · rintro ⟨k, v, hk, hv, hd, hla, hlo⟩
    refine ⟨v, (hpres v).2 ⟨hd, hv⟩, ?_⟩
    have hlt : k < ids.length := (List.getElem?_eq_some_iff.1 hk).1
    have hkv : ids[k] = v := (List.getElem?_eq_some_iff.1 hk).2
    have : ids.findIdx? (fun x => x == v) = some k := by
      rw [List.findIdx?_eq_some_iff_getElem]
      refine ⟨hlt, by simp [hkv], ?_⟩
      intro j hj
      simp only [beq_iff_eq]
      rw [← hkv]
      intro he
      exact absurd ((List.Nodup.getElem_inj_iff hnd).1 he) (by omega)
    rw [this]
    simp [hla, hlo]

/-- C104: no marker is drawn twice for one object: there are at most as many as distinct positive values. -/
theorem C104_marker_count (data : List (Option ℚ)) (ids : List ℚ) (lat lon : List (Option ℚ)) :
    (markers data ids lat lon).length ≤ ((data.filterMap id).filter (fun v => decide (0 < v))).dedup.length := by
  unfold markers
  dsimp only
  exact (List.length_filterMap_le _ _).trans (by simp)

example : markers [some 2, some 0, none, some 5, some 2] [2, 3, 5] [some 10, some 11, none] [some 20, some 21, some 22] = [(20, 10)] := by
  decide +kernel

/-- C137 fails for other data, for example anomalies with the objects drawn on top: the markers depend on the plotted
values only, not on the objects; where no value happens to equal an ID there is no marker. -/
theorem C137_other_data_fails (data : List (Option ℚ)) (ids : List ℚ) (lat lon : List (Option ℚ))
    (h : ∀ v, some v ∈ data → v ∉ ids) : markers data ids lat lon = [] := by
  unfold markers
  dsimp only
  rw [List.filterMap_eq_nil_iff]
  intro v hv
  rw [List.mem_insertionSort, List.mem_dedup, List.mem_filter, List.mem_filterMap] at hv
  obtain ⟨⟨o, ho, hov⟩, _⟩ := hv
  simp only [id_eq] at hov
  subst hov
  have : ids.findIdx? (fun x => x == v) = none := by
    rw [List.findIdx?_eq_none_iff]
    intro x hx
    rw [beq_eq_false_iff_ne]
    rintro rfl
    exact h x ho hx
  rw [this]

example : ∀ v, some v ∈ ([some (3 / 2), some (-1 / 4), none] : List (Option ℚ)) → v ∉ ([1, 2] : List ℚ) := by
  intro v hv
  simp only [List.mem_cons, Option.some.injEq, reduceCtorEq, List.not_mem_nil, or_false] at hv
  rcases hv with rfl | rfl <;> norm_num

/-! ### C105 -/

/-- C105: plots of values change nothing: the data of the plotter and numpy's random generator are as before. -/
theorem C105_plot_pure (p : Plotter) (da : GridData) (cfg : PlotCfg) (st st' : PlotState) (r : Drawn × Bool)
    (hid : cfg.plotIDs = false) (h : singlePlot p da cfg st = .ok (r, st')) : st' = st := by
  obtain ⟨s, step, h1, _⟩ := singlePlot_ok p da cfg st st' r.1 r.2 h
  exact (setup_range_value _ _ _ _ _ hid h1).1

/-- C136 fails for plots of IDs: afterwards the plotter holds no zero or negative value any more, so that a later plot of
values by the same plotter lacks them. -/
theorem C136_ids_change_data_fails (p : Plotter) (da : GridData) (cfg : PlotCfg) (st st' : PlotState) (r : Drawn × Bool)
    (hid : cfg.plotIDs = true) (h : singlePlot p da cfg st = .ok (r, st')) :
    ∀ step ∈ st'.steps, ∀ col ∈ step, ∀ v : ℚ, some v ∈ col → 0 < v := by
  unfold singlePlot at h
  split at h
  · cases h
  · next s st1 hs =>
    dsimp only at h
    split at h
    · cases h
    · cases h
      have := setup_steps _ _ _ _ _ hs
      rw [if_pos hid] at this
      intro step hstep col hcol v hv
      rw [this] at hstep
      unfold keepPositive at hstep
      obtain ⟨step0, _, rfl⟩ := List.mem_map.1 hstep
      obtain ⟨col0, _, rfl⟩ := List.mem_map.1 hcol
      obtain ⟨x, _, hx⟩ := List.mem_map.1 hv
      rw [Option.filter_eq_some_iff] at hx
      simpa using hx.2

/-- Two plots by one plotter: of IDs, then of values; the zero is gone from the second. -/
example :
    let da : GridData := ⟨none, "lat", "lon", ["lat", "lon"], [0, 1], [10, 11], [[[some 0, some 2], [some 1, some 0]]]⟩
    (match singlePlot moviePlotter da { plotIDs := true } ⟨da.steps, (0, 0)⟩ with
      | .ok (_, st) => (match singlePlot moviePlotter da { clim := some (0, 2) } st with
        | .ok ((d, _), _) => d.cols == [[none, some 2], [some 1, none]] | _ => false)
      | _ => false) = true := by decide +kernel

/-- C136 fails for the random generator: a plot of IDs without a colour table of the user puts numpy's global generator
into the state reached from the seed 42 by drawing three numbers for each number up to the largest ID, whatever it was before: random numbers the
user draws afterwards are the same in every run. -/
theorem C136_reseeds_fails (p : Plotter) (da : GridData) (cfg : PlotCfg) (st st' : PlotState) (r : Drawn × Bool)
    (hid : cfg.plotIDs = true) (hc : cfg.cmap = none) (h : singlePlot p da cfg st = .ok (r, st')) :
    ∃ top ∈ allValues st.steps, (∀ x ∈ allValues st.steps, x ≤ top) ∧ st'.rng = (42, 3 * ⌊top⌋.toNat) := by
  obtain ⟨_, _, h1, _⟩ := singlePlot_ok p da cfg _ st' r.1 r.2 h
  unfold setupParams idScale at h1
  simp only [hid, if_true, hc] at h1
  cases hm : maxOf st.steps with
  | none => rw [hm] at h1; cases h1
  | some m =>
    rw [hm] at h1
    dsimp only at h1
    obtain ⟨v, hv, rfl, hmax⟩ := maxOf_largest _ _ hm
    by_cases hf : coloursFit ⌊v⌋.toNat ⌊v⌋.toNat = true
    · rw [if_pos hf] at h1
      cases h1
      exact ⟨v, hv, hmax, rfl⟩
    · rw [if_neg hf] at h1
      cases h1

end MarEx.Props
