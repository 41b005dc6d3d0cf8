import Verif.Props.Preprocess
import Verif.Props.Threshold
import Verif.Lemmas.Quantiles
import Verif.Spec.Extremes
/-! What `identify_extremes` marks, from its arguments to its result: C86. -/
namespace MarEx.Props
open MarEx MarEx.Spec

theorem filterMap_range_window {α : Type} (g : Nat → Option α) (a len B : Nat) (hB : a + len ≤ B) (h : ∀ m, m < a ∨ a + len ≤ m → g m = none) :
    (List.range B).filterMap g = (List.range' a len).filterMap g := by
  have e : List.range B = List.range' 0 a ++ (List.range' a len ++ List.range' (a + len) (B - (a + len))) := by
    rw [List.range_eq_range', List.range'_append_1]
    have h2 := List.range'_append_1 (s := 0) (m := a) (n := len + (B - (a + len)))
    rw [Nat.zero_add] at h2
    rw [h2]
    congr 1
    omega
  rw [e, List.filterMap_append, List.filterMap_append]
  have e1 : (List.range' 0 a).filterMap g = [] := by
    rw [List.filterMap_eq_nil_iff]
    intro m hm
    rw [List.mem_range'_1] at hm
    exact h m (Or.inl (by omega))
  have e2 : (List.range' (a + len) (B - (a + len))).filterMap g = [] := by
    rw [List.filterMap_eq_nil_iff]
    intro m hm
    rw [List.mem_range'_1] at hm
    exact h m (Or.inr hm.1)
  rw [e1, e2, List.nil_append, List.append_nil]

theorem window_values (record : List Sample) (i w : Nat) (hodd : w % 2 = 1) :
    ((List.range w).map fun k => if i + k < w / 2 then none else (record.map Sample.val).getD (i + k - w / 2) none).filterMap id =
      (List.range record.length).filterMap fun j => if i ≤ j + w / 2 ∧ j ≤ i + w / 2 then (record[j]?).bind Sample.val else none := by
  set h := w / 2 with hh
  have hw : w = 2 * h + 1 := by omega
  let F : Nat → Option ℚ := fun m => if i ≤ m ∧ m < i + w then (if m < h then none else (record[m - h]?).bind Sample.val) else none
  have hget : ∀ j, (record.map Sample.val).getD j none = (record[j]?).bind Sample.val := by
    intro j
    rw [List.getD_eq_getElem?_getD, List.getElem?_map]
    cases record[j]? <;> rfl
  have h1 : ((List.range w).map fun k => if i + k < h then none else (record.map Sample.val).getD (i + k - h) none).filterMap id =
      (List.range' i w).filterMap F := by
    rw [List.filterMap_map, List.range'_eq_map_range, List.filterMap_map]
    apply List.filterMap_congr
    intro k hk
    rw [List.mem_range] at hk
    simp only [Function.comp, id, F, hget]
    rw [if_pos (show i ≤ i + k ∧ i + k < i + w by omega)]
  have h2 : ((List.range record.length).filterMap fun j => if i ≤ j + h ∧ j ≤ i + h then (record[j]?).bind Sample.val else none) =
      (List.range' h record.length).filterMap F := by
    rw [List.range'_eq_map_range, List.filterMap_map]
    apply List.filterMap_congr
    intro j hj
    simp only [Function.comp, F]
    by_cases hc : i ≤ j + h ∧ j ≤ i + h
    · rw [if_pos hc, if_pos (show i ≤ h + j ∧ h + j < i + w by omega), if_neg (by omega), Nat.add_sub_cancel_left]
    · rw [if_neg hc, if_neg (show ¬ (i ≤ h + j ∧ h + j < i + w) by omega)]
  rw [h1, h2]
  set B := i + w + h + record.length with hB
  rw [← filterMap_range_window F i w B (by omega) (fun m hm => by simp only [F]; rw [if_neg (by omega)]),
    ← filterMap_range_window F h record.length B (by omega) (fun m hm => by
      simp only [F]
      split
      · split
        · rfl
        · rename_i hnot
          rw [List.getElem?_eq_none (by omega)]; rfl
      · rfl)]

theorem filterMap_flatMap' {α β γ : Type} (l : List α) (f : α → List β) (g : β → Option γ) :
    (l.flatMap f).filterMap g = l.flatMap fun a => (f a).filterMap g := by
  induction l with
  | nil => rfl
  | cons a l ih => rw [List.flatMap_cons, List.filterMap_append, ih, List.flatMap_cons]

/-- The exact threshold of a day is the quantile of the values pooled for it; it is missing iff none are. -/
theorem thresholdExact_spec (q : ℚ) (h0 : 0 ≤ q) (h1 : q ≤ 1) (w : Nat) (hodd : w % 2 = 1) (record : List Sample) (d : Nat) :
    (thresholdExact q w record d = none ↔ stepPool (w / 2) record d = []) ∧
    ∀ t, thresholdExact q w record d = some t ↔
      stepPool (w / 2) record d ≠ [] ∧ IsQuantile (stepPool (w / 2) record d : Multiset ℚ) q t := by
  have hpool : ((List.range record.length).flatMap fun i =>
      if (record.map Sample.doy).getD i 0 = d then
        (List.range w).map fun k => if i + k < w / 2 then none else (record.map Sample.val).getD (i + k - w / 2) none
      else []).filterMap id = stepPool (w / 2) record d := by
    rw [filterMap_flatMap']
    unfold stepPool
    apply List.flatMap_congr
    intro i hi
    rw [List.mem_range] at hi
    rw [List.getElem?_eq_getElem hi]
    have hd : (record.map Sample.doy).getD i 0 = record[i].doy := by
      rw [List.getD_eq_getElem _ _ (by simpa using hi), List.getElem_map]
    rw [hd]
    dsimp only
    by_cases hc : record[i].doy = d
    · rw [if_pos hc, if_pos hc, window_values record i w hodd]
    · rw [if_neg hc, if_neg hc]; rfl
  unfold thresholdExact quantileExact
  dsimp only
  rw [hpool]
  by_cases he : stepPool (w / 2) record d = []
  · simp [he]
  · have hne : (stepPool (w / 2) record d).isEmpty = false := by simpa using he
    rw [hne]
    simp only [Bool.false_eq_true, if_false, reduceCtorEq, Option.some.injEq, he, not_false_eq_true, ne_eq, true_and]
    intro t
    have hq := percentile_isQuantile _ q he h0 h1
    constructor
    · rintro rfl; exact hq
    · intro ht; exact IsQuantile.unique hq ht

theorem quantileExact_spec (q : ℚ) (h0 : 0 ≤ q) (h1 : q ≤ 1) (record : List Sample) :
    (quantileExact q (record.map Sample.val) = none ↔ values record = []) ∧
    ∀ t, quantileExact q (record.map Sample.val) = some t ↔ values record ≠ [] ∧ IsQuantile (values record : Multiset ℚ) q t := by
  have hv : (record.map Sample.val).filterMap id = values record := by
    unfold values; rw [List.filterMap_map]; rfl
  unfold quantileExact
  dsimp only
  rw [hv]
  by_cases he : values record = []
  · simp [he]
  · have hne : (values record).isEmpty = false := by simpa using he
    rw [hne]
    simp only [Bool.false_eq_true, if_false, reduceCtorEq, Option.some.injEq, he, not_false_eq_true, ne_eq, true_and]
    intro t
    have hq := percentile_isQuantile _ q he h0 h1
    constructor
    · rintro rfl; exact hq
    · intro ht; exact IsQuantile.unique hq ht

theorem identify_ok {gridded : Bool} {P : ExtParams} {ny nx : Nat} {recs : Nat → Nat → List Sample} {out : ExtOut}
    (h : identifyExtremes gridded P ny nx recs = .ok out) : ∃ c, checkExtremes gridded P = .ok c ∧ runExtremes P c ny nx recs = .ok out := by
  unfold identifyExtremes at h
  split at h
  · cases h
  · rename_i c hc; exact ⟨c, hc, ite_error_ok h⟩

/-- **C86**, day-of-year thresholds, exact method: whenever `identify_extremes` succeeds, with `h` the half width of the window, a step is extreme iff it
has a value and this is at least the `percentile`-th percentile of the values at most `h` steps from a step on the same day of year. -/
theorem C86_exact_days (gridded : Bool) (P : ExtParams) (ny nx : Nat) (recs : Nat → Nat → List Sample) (out : ExtOut) (h : Nat)
    (hm : P.methodExtreme = "hobday_extreme") (hx : P.methodPercentile = "exact") (hw : P.windowDays = some (2 * (h : Int) + 1))
    (hok : identifyExtremes gridded P ny nx recs = .ok out) (y x i : Nat) (s : Sample) (hs : (recs y x)[i]? = some s)
    (hdoy : 1 ≤ s.doy ∧ s.doy ≤ 366) :
    ∃ e, (out.extremes y x)[i]? = some e ∧
      (e = true ↔ ∃ v t, s.val = some v ∧ t ≤ v ∧ IsQuantile (stepPool h (recs y x) s.doy : Multiset ℚ) (P.percentile / 100) t) := by
  obtain ⟨c, hc, hr⟩ := identify_ok hok
  have hnr : ¬ Rejected (gridded = true) P := by
    intro hrej
    rw [((C45_configuration_error_iff gridded P (by rw [hw]; simp)).1).mpr hrej] at hc
    cases hc
  have hcc : ∃ sp, c = .hobday (2 * (h : Int) + 1) sp := by
    rcases ((C45_configuration_error_iff gridded P (by rw [hw]; simp)).2).mp hnr with ⟨h1, _⟩ | ⟨_, w', h1, h2⟩
    · rw [hm] at h1; simp at h1
    · rw [hw] at h1; cases h1
      rw [hc] at h2; cases h2
      exact ⟨_, rfl⟩
  obtain ⟨sp, rfl⟩ := hcc
  unfold runExtremes at hr
  split at hr
  · cases hr
  · rename_i hrange
    have hpct : 0 ≤ P.percentile / 100 ∧ P.percentile / 100 ≤ 1 := by
      rw [not_and] at hrange
      have := hrange hx
      rw [not_or, not_lt, not_lt] at this
      exact this
    dsimp only at hr
    rw [if_neg (by omega)] at hr
    cases hr
    unfold runExactDays
    dsimp only
    have hW : (2 * (h : Int) + 1).toNat = 2 * h + 1 := by omega
    have hh : (2 * h + 1) / 2 = h := by omega
    rw [hW]
    obtain ⟨_, hall⟩ := C37_extreme_iff_hobday (recs y x) ((List.range 366).map fun d => thresholdExact (P.percentile / 100) (2 * h + 1) (recs y x) (d + 1))
    obtain ⟨e, he, hiff⟩ := hall i s hs
    refine ⟨e, he, ?_⟩
    rw [hiff]
    have hth : ((List.range 366).map fun d => thresholdExact (P.percentile / 100) (2 * h + 1) (recs y x) (d + 1))[s.doy - 1]? =
        some (thresholdExact (P.percentile / 100) (2 * h + 1) (recs y x) s.doy) := by
      rw [List.getElem?_map, List.getElem?_range (by omega), Option.map_some, Nat.sub_add_cancel hdoy.1]
    rw [hth]
    have hspec := (thresholdExact_spec (P.percentile / 100) hpct.1 hpct.2 (2 * h + 1) (by omega) (recs y x) s.doy).2
    rw [hh] at hspec
    constructor
    · rintro ⟨v, t, h1, h2, h3⟩
      exact ⟨v, t, h1, h3, ((hspec t).mp (by simpa using h2)).2⟩
    · rintro ⟨v, t, h1, h3, h4⟩
      refine ⟨v, t, h1, ?_, h3⟩
      rw [(hspec t).mpr ⟨?_, h4⟩]
      intro hnil
      obtain ⟨l, k, _, lo, _, hl, _, _, _, _, hk, _⟩ := h4
      rw [hnil] at hl
      have : l = [] := by simpa using hl
      rw [this] at hk; simp at hk

/-- **C86**, one threshold per cell, exact method: a step is extreme iff it has a value and this is at least the `percentile`-th percentile of all
values of the cell. -/
theorem C86_exact_constant (gridded : Bool) (P : ExtParams) (ny nx : Nat) (recs : Nat → Nat → List Sample) (out : ExtOut)
    (hm : P.methodExtreme = "global_extreme") (hx : P.methodPercentile = "exact") (hw : P.windowDays ≠ none)
    (hok : identifyExtremes gridded P ny nx recs = .ok out) (y x i : Nat) (s : Sample) (hs : (recs y x)[i]? = some s) :
    ∃ e, (out.extremes y x)[i]? = some e ∧
      (e = true ↔ ∃ v t, s.val = some v ∧ t ≤ v ∧ IsQuantile (values (recs y x) : Multiset ℚ) (P.percentile / 100) t) := by
  obtain ⟨c, hc, hr⟩ := identify_ok hok
  have hnr : ¬ Rejected (gridded = true) P := by
    intro hrej
    rw [((C45_configuration_error_iff gridded P hw).1).mpr hrej] at hc
    cases hc
  have hcc : c = .global := by
    rcases ((C45_configuration_error_iff gridded P hw).2).mp hnr with ⟨_, h1⟩ | ⟨h1, _⟩
    · rw [hc] at h1; cases h1; rfl
    · rw [hm] at h1; simp at h1
  subst hcc
  unfold runExtremes at hr
  split at hr
  · cases hr
  · rename_i hrange
    have hpct : 0 ≤ P.percentile / 100 ∧ P.percentile / 100 ≤ 1 := by
      rw [not_and] at hrange
      have := hrange hx
      rw [not_or, not_lt, not_lt] at this
      exact this
    dsimp only at hr
    cases hr
    unfold runGlobal
    dsimp only
    rw [if_pos hx]
    obtain ⟨_, hall⟩ := C37_extreme_iff_constant ((recs y x).map Sample.val) (quantileExact (P.percentile / 100) ((recs y x).map Sample.val))
    obtain ⟨e, he, hiff⟩ := hall i s.val (by rw [List.getElem?_map, hs]; rfl)
    refine ⟨e, he, ?_⟩
    rw [hiff]
    have hspec := (quantileExact_spec (P.percentile / 100) hpct.1 hpct.2 (recs y x)).2
    constructor
    · rintro ⟨v, t, h1, h2, h3⟩
      exact ⟨v, t, h1, h3, ((hspec t).mp h2).2⟩
    · rintro ⟨v, t, h1, h3, h4⟩
      refine ⟨v, t, h1, (hspec t).mpr ⟨?_, h4⟩, h3⟩
      intro hnil
      have : s.val.isSome := by rw [h1]; rfl
      have hmem : v ∈ values (recs y x) := by
        unfold values
        rw [List.mem_filterMap]
        exact ⟨s, List.mem_of_getElem? hs, h1⟩
      rw [hnil] at hmem; simp at hmem

/-- **C116**, day-of-year thresholds, approximate method (the default), on a grid or mesh with the requested odd windows: a step is extreme iff it has a
value and this is at least `t`, where `t` is at most half a bin above and less than one and a half bins below the sample at the requested percentile of
the values in the window around its day and cell (raised to the precision). Missing: agreement to one bin (`C39_hobday_one_bin_fails`), samples at or
beyond `max_anomaly`, percentile 100 and windows of one day or more than two years. -/
theorem C116_approximate_days_partial (gridded : Bool) (P : ExtParams) (ny nx : Nat) (recs : Nat → Nat → List Sample) (out : ExtOut) (h k : Nat)
    (hm : P.methodExtreme = "hobday_extreme") (hx : P.methodPercentile = "approximate") (hw : P.windowDays = some (2 * (h : Int) + 1))
    (hs : (if P.windowSpatial = none ∧ gridded = true then some 5 else P.windowSpatial) = some (2 * (k : Int) + 1) ∨
      (if P.windowSpatial = none ∧ gridded = true then some 5 else P.windowSpatial) = none ∧ k = 0)
    (hp : 0 < P.precision) (hmx : 0 < P.maxAnomaly) (hh : 1 ≤ h) (hh' : h ≤ 366) (hk : k ≤ nx) (hpct : P.percentile < 100)
    (hok : identifyExtremes gridded P ny nx recs = .ok out) (y x : Nat) (hy : y < ny) (hxx : x < nx) (i : Nat) (s : Sample)
    (hsi : (recs y x)[i]? = some s) (hdoy : 1 ≤ s.doy ∧ s.doy ≤ 366) (hfirst : ∀ r, (recs y x)[0]? = some r → r.val ≠ none)
    (hrange : ∀ v, some v ∈ windowSamples (2 * k + 1) ny nx (2 * h + 1) recs y x (s.doy - 1) → v < P.maxAnomaly) (X : ℚ)
    (hX : JustAfter ((windowSamples (2 * k + 1) ny nx (2 * h + 1) recs y x (s.doy - 1)).filterMap id)
      (P.percentile / 100 * (((windowSamples (2 * k + 1) ny nx (2 * h + 1) recs y x (s.doy - 1)).filterMap id).length : ℚ)) X) :
    ∃ e t, (out.extremes y x)[i]? = some e ∧ -(3 / 2) * P.precision < t - max P.precision X ∧ t - max P.precision X ≤ P.precision / 2 ∧
      (e = true ↔ ∃ v, s.val = some v ∧ t ≤ v) := by
  obtain ⟨c, hc, hr⟩ := identify_ok hok
  have h60 : 60 ≤ P.percentile := by
    rcases C75_percentile_range_partial gridded P ny nx recs out hok with ⟨h1, _⟩ | ⟨_, h1⟩
    · rw [hx] at h1; simp at h1
    · exact h1
  have hnr : ¬ Rejected (gridded = true) P := by
    intro hrej
    rw [((C45_configuration_error_iff gridded P (by rw [hw]; simp)).1).mpr hrej] at hc
    cases hc
  have hcc : ∃ sp, c = .hobday (2 * (h : Int) + 1) sp ∧ poolSize sp = 2 * k + 1 := by
    rcases ((C45_configuration_error_iff gridded P (by rw [hw]; simp)).2).mp hnr with ⟨h1, _⟩ | ⟨_, w', h1, h2⟩
    · rw [hm] at h1; simp at h1
    · rw [hw] at h1; cases h1
      rw [hc] at h2; cases h2
      refine ⟨_, rfl, ?_⟩
      rcases hs with hs | ⟨hs, rfl⟩
      · rw [hs]; unfold poolSize; dsimp only; omega
      · rw [hs]; rfl
  obtain ⟨sp, rfl, hsp⟩ := hcc
  have hexact : ¬ P.methodPercentile = "exact" := by rw [hx]; simp
  unfold runExtremes at hr
  rw [if_neg (fun hh => hexact hh.1)] at hr
  dsimp only at hr
  rw [if_neg (by omega), if_neg hexact, hsp] at hr
  unfold runApproxDays at hr
  split at hr
  · cases hr
  · cases hr
    dsimp only
    have hW : (2 * (h : Int) + 1).toNat = 2 * h + 1 := by omega
    rw [hW]
    have hfirst' : ((recs y x).map Sample.val).headD none ≠ none := by
      cases hl : recs y x with
      | nil => rw [hl] at hsi; simp at hsi
      | cons r l => simpa using hfirst r (by rw [hl]; rfl)
    obtain ⟨ts, t, h1, h2, h3, h4⟩ := C39_hobday_partial P.precision P.maxAnomaly hp hmx (2 * h + 1) (2 * k + 1) ny nx (by omega) (by omega) (by omega)
      (by omega) (by omega) recs y x hy hxx (P.percentile / 100) (by linarith) (by linarith) hfirst' (s.doy - 1) (by omega)
      (fun v hv => hrange v (by
        obtain ⟨o, ho, he⟩ := List.mem_filterMap.mp hv
        simp only [id] at he; rw [← he]; exact ho)) X hX
    rw [h1]
    unfold okThresholds
    dsimp only
    obtain ⟨_, hall⟩ := C37_extreme_iff_hobday (recs y x) ts
    obtain ⟨e, he, hiff⟩ := hall i s hsi
    refine ⟨e, t, he, h3, h4, ?_⟩
    rw [hiff, h2]
    constructor
    · rintro ⟨v, t', h5, h6, h7⟩
      cases h6
      exact ⟨v, h5, h7⟩
    · rintro ⟨v, h5, h7⟩
      exact ⟨v, t, h5, rfl, h7⟩

/-- **C86**, the threshold reported with one threshold per cell: one per cell, and the flags of the cell are those of its own values against it, for both
ways of computing it; with the exact method it is missing iff the cell has no value, and else the `percentile`-th percentile of the cell. -/
theorem C86_constant_thresholds (gridded : Bool) (P : ExtParams) (ny nx : Nat) (recs : Nat → Nat → List Sample) (out : ExtOut)
    (hm : P.methodExtreme = "global_extreme") (hw : P.windowDays ≠ none)
    (hok : identifyExtremes gridded P ny nx recs = .ok out) (y x : Nat) :
    ∃ o, out.thresholds y x = [o] ∧
      (∀ (i : Nat) (s : Sample), (recs y x)[i]? = some s → ∃ e, (out.extremes y x)[i]? = some e ∧ (e = true ↔ ∃ v t, s.val = some v ∧ o = some t ∧ t ≤ v)) ∧
      (P.methodPercentile = "exact" → (o = none ↔ values (recs y x) = []) ∧
        ∀ t, o = some t → IsQuantile (values (recs y x) : Multiset ℚ) (P.percentile / 100) t) := by
  obtain ⟨c, hc, hr⟩ := identify_ok hok
  have hnr : ¬ Rejected (gridded = true) P := by
    intro hrej
    rw [((C45_configuration_error_iff gridded P hw).1).mpr hrej] at hc
    cases hc
  have hcc : c = .global := by
    rcases ((C45_configuration_error_iff gridded P hw).2).mp hnr with ⟨_, h1⟩ | ⟨h1, _⟩
    · rw [hc] at h1; cases h1; rfl
    · rw [hm] at h1; simp at h1
  subst hcc
  unfold runExtremes at hr
  split at hr
  · cases hr
  · rename_i hrange
    dsimp only at hr
    cases hr
    unfold runGlobal
    dsimp only
    refine ⟨_, rfl, ?_, ?_⟩
    · intro i s hs
      obtain ⟨_, hall⟩ := C37_extreme_iff_constant ((recs y x).map Sample.val) (if P.methodPercentile = "exact" then
        quantileExact (P.percentile / 100) ((recs y x).map Sample.val)
        else threshold1d P.precision P.maxAnomaly (P.percentile / 100) ((recs y x).map Sample.val))
      exact hall i s.val (by rw [List.getElem?_map, hs]; rfl)
    · intro hx
      rw [if_pos hx]
      rw [not_and] at hrange
      have h2 := hrange hx
      rw [not_or, not_lt, not_lt] at h2
      obtain ⟨h3, h4⟩ := quantileExact_spec (P.percentile / 100) h2.1 h2.2 (recs y x)
      exact ⟨h3, fun t ht => ((h4 t).mp ht).2⟩

/-- **C86**, the thresholds the exact day-of-year method reports: one for each of the 366 days, missing iff no value is pooled for the day, and else the
`percentile`-th percentile of the pooled values. -/
theorem C86_exact_thresholds (gridded : Bool) (P : ExtParams) (ny nx : Nat) (recs : Nat → Nat → List Sample) (out : ExtOut) (h : Nat)
    (hm : P.methodExtreme = "hobday_extreme") (hx : P.methodPercentile = "exact") (hw : P.windowDays = some (2 * (h : Int) + 1))
    (hok : identifyExtremes gridded P ny nx recs = .ok out) (y x : Nat) :
    (out.thresholds y x).length = 366 ∧ ∀ d, d < 366 → ∃ o, (out.thresholds y x)[d]? = some o ∧
      (o = none ↔ stepPool h (recs y x) (d + 1) = []) ∧
      ∀ t, o = some t → IsQuantile (stepPool h (recs y x) (d + 1) : Multiset ℚ) (P.percentile / 100) t := by
  obtain ⟨c, hc, hr⟩ := identify_ok hok
  have hnr : ¬ Rejected (gridded = true) P := by
    intro hrej
    rw [((C45_configuration_error_iff gridded P (by rw [hw]; simp)).1).mpr hrej] at hc
    cases hc
  have hcc : ∃ sp, c = .hobday (2 * (h : Int) + 1) sp := by
    rcases ((C45_configuration_error_iff gridded P (by rw [hw]; simp)).2).mp hnr with ⟨h1, _⟩ | ⟨_, w', h1, h2⟩
    · rw [hm] at h1; simp at h1
    · rw [hw] at h1; cases h1
      rw [hc] at h2; cases h2
      exact ⟨_, rfl⟩
  obtain ⟨sp, rfl⟩ := hcc
  unfold runExtremes at hr
  split at hr
  · cases hr
  · rename_i hrange
    have hpct : 0 ≤ P.percentile / 100 ∧ P.percentile / 100 ≤ 1 := by
      rw [not_and] at hrange
      have := hrange hx
      rw [not_or, not_lt, not_lt] at this
      exact this
    dsimp only at hr
    rw [if_neg (by omega)] at hr
    cases hr
    unfold runExactDays
    dsimp only
    have hW : (2 * (h : Int) + 1).toNat = 2 * h + 1 := by omega
    have hh : (2 * h + 1) / 2 = h := by omega
    rw [hW]
    refine ⟨by simp, fun d hd => ⟨thresholdExact (P.percentile / 100) (2 * h + 1) (recs y x) (d + 1), ?_, ?_⟩⟩
    · rw [List.getElem?_map, List.getElem?_range hd, Option.map_some]
    · have hspec := thresholdExact_spec (P.percentile / 100) hpct.1 hpct.2 (2 * h + 1) (by omega) (recs y x) (d + 1)
      rw [hh] at hspec
      exact ⟨hspec.1, fun t ht => ((hspec.2 t).mp ht).2⟩

/-- **C116**, one threshold per cell, approximate method: when no value of the cell is missing, all are below `max_anomaly` and the sample `X` at the
requested percentile is at least minus one bin, a step is extreme iff its value is at least `t`, with `t` within one and a half bins of `X` (raised to the
precision), and within half a bin when `X` is below the last bin. Missing: cells with other values, where `t` can be far off (`C39_constant_fails`). -/
theorem C116_approximate_constant_partial (gridded : Bool) (P : ExtParams) (ny nx : Nat) (recs : Nat → Nat → List Sample) (out : ExtOut)
    (hm : P.methodExtreme = "global_extreme") (hx : P.methodPercentile = "approximate") (hw : P.windowDays ≠ none)
    (hp : 0 < P.precision) (hmx : P.precision < P.maxAnomaly) (hpct : P.percentile ≤ 100)
    (hok : identifyExtremes gridded P ny nx recs = .ok out) (y x i : Nat) (v : ℚ) (yr dy : Nat) (hsi : (recs y x)[i]? = some ⟨yr, dy, some v⟩)
    (hfull : ∀ s ∈ recs y x, s.val ≠ none) (hn : (recs y x).length ≤ 1000000000) (hrange : ∀ u ∈ values (recs y x), u < P.maxAnomaly) (X : ℚ)
    (hX : AtRank (values (recs y x)) ((P.percentile / 100 - 1 / 10000000000) * (((recs y x).length : ℚ) + 1 / 10000000000)) X)
    (hlow : -P.precision ≤ X) :
    ∃ e t, (out.extremes y x)[i]? = some e ∧ |t - max P.precision X| < 3 / 2 * P.precision ∧
      (X < P.maxAnomaly - P.precision → |t - max P.precision X| ≤ P.precision / 2) ∧ (e = true ↔ t ≤ v) := by
  obtain ⟨c, hc, hr⟩ := identify_ok hok
  have hnr : ¬ Rejected (gridded = true) P := by
    intro hrej
    rw [((C45_configuration_error_iff gridded P hw).1).mpr hrej] at hc
    cases hc
  have hcc : c = .global := by
    rcases ((C45_configuration_error_iff gridded P hw).2).mp hnr with ⟨_, h1⟩ | ⟨h1, _⟩
    · rw [hc] at h1; cases h1; rfl
    · rw [hm] at h1; simp at h1
  subst hcc
  have hexact : ¬ P.methodPercentile = "exact" := by rw [hx]; simp
  unfold runExtremes at hr
  rw [if_neg (fun hh => hexact hh.1)] at hr
  cases hr
  unfold runGlobal
  dsimp only
  rw [if_neg hexact]
  have hvals : ∀ l : List Sample, (∀ s ∈ l, s.val ≠ none) → l.map Sample.val = (values l).map some := by
    intro l hl
    induction l with
    | nil => rfl
    | cons a l ih =>
      obtain ⟨u, hu⟩ := Option.ne_none_iff_exists'.mp (hl a List.mem_cons_self)
      have := ih (fun s hs => hl s (List.mem_cons_of_mem _ hs))
      simp only [values, List.map_cons, List.filterMap_cons, hu] at this ⊢
      rw [this]
  have hlen : (values (recs y x)).length = (recs y x).length := by
    have := congrArg List.length (hvals _ hfull)
    simpa using this.symm
  obtain ⟨t, ht, h3, h4⟩ := C39_constant_partial P.precision P.maxAnomaly hp hmx (values (recs y x)) (by omega) hrange (P.percentile / 100)
    (by linarith) X (by rw [hlen]; exact hX) hlow
  rw [hvals _ hfull, ht, ← hvals _ hfull]
  obtain ⟨_, hall⟩ := C37_extreme_iff_constant ((recs y x).map Sample.val) (some t)
  obtain ⟨e, he, hiff⟩ := hall i (some v) (by rw [List.getElem?_map, hsi]; rfl)
  refine ⟨e, t, he, h3, h4, ?_⟩
  rw [hiff]
  constructor
  · rintro ⟨v', t', h5, h6, h7⟩; cases h5; cases h6; exact h7
  · intro h7; exact ⟨v, t, rfl, rfl, h7⟩

/-- Two years of three days each, one value missing, one large. -/
def sixSteps : List Sample := [⟨2000, 1, some 0⟩, ⟨2000, 2, some 1⟩, ⟨2000, 3, none⟩, ⟨2001, 1, some 2⟩, ⟨2001, 2, some 4⟩, ⟨2001, 3, some 1⟩]

theorem exact_check (m : String) : checkPercentile ⟨m, 90, some 3, none, "exact", 1 / 100, 5⟩ = .ok () := by
  unfold checkPercentile
  norm_num

theorem exact_call (m : String) (c : Chosen) (hc : checkExtremes true ⟨m, 90, some 3, none, "exact", 1 / 100, 5⟩ = .ok c)
    (hw : ∀ w s, c = .hobday w s → 1 ≤ w) :
    ∃ out, identifyExtremes true ⟨m, 90, some 3, none, "exact", 1 / 100, 5⟩ 1 1 (fun _ _ => sixSteps) = .ok out := by
  unfold identifyExtremes
  rw [hc]
  dsimp only
  rw [if_neg (by simp [layoutFails])]
  unfold runExtremes
  rw [if_neg (by norm_num)]
  cases c with
  | global => exact ⟨_, rfl⟩
  | hobday w s =>
    have := hw w s rfl
    dsimp only
    rw [if_neg (by omega), if_pos rfl]
    exact ⟨_, rfl⟩

/-- The hypotheses of `C86_exact_days` and `C86_exact_thresholds` hold of a call, and the pools are not trivial: those of day 2 hold five values. -/
example : (∃ out, identifyExtremes true ⟨"hobday_extreme", 90, some 3, none, "exact", 1 / 100, 5⟩ 1 1 (fun _ _ => sixSteps) = .ok out) ∧
    stepPool 1 sixSteps 2 = [0, 1, 2, 4, 1] ∧ stepPool 1 sixSteps 1 = [0, 1, 2, 4] ∧ stepPool 1 sixSteps 4 = [] := by
  refine ⟨exact_call _ (.hobday 3 (some 5)) (by unfold checkExtremes; rw [exact_check]; rfl) (by rintro w s ⟨⟩; decide), ?_, ?_, ?_⟩ <;> decide +kernel

/-- The maximum of a pool is its 100th percentile, so the fifth step is extreme at percentile 100 and no other step of that day is. -/
example (out : ExtOut)
    (h : identifyExtremes true ⟨"hobday_extreme", 100, some 3, none, "exact", 1 / 100, 5⟩ 1 1 (fun _ _ => sixSteps) = .ok out) :
    (out.extremes 0 0)[4]? = some true := by
  obtain ⟨e, he, hiff⟩ := C86_exact_days true _ 1 1 _ out 1 rfl rfl rfl h 0 0 4 ⟨2001, 2, some 4⟩ rfl (by decide)
  rw [he, hiff.mpr]
  have hp : stepPool 1 sixSteps 2 = [0, 1, 2, 4, 1] := by decide +kernel
  refine ⟨4, 4, rfl, le_refl _, ?_⟩
  dsimp only
  rw [hp]
  refine ⟨[0, 1, 1, 2, 4], 4, 0, 4, 4, ?_, ?_, le_refl _, by norm_num, by norm_num, rfl, Or.inr rfl, by norm_num⟩
  · exact Multiset.coe_eq_coe.mpr (by decide +kernel)
  · decide +kernel

/-- The hypotheses of `C86_exact_constant` and of the approximate theorems hold of calls. -/
example : (∃ out, identifyExtremes true ⟨"global_extreme", 90, some 3, none, "exact", 1 / 100, 5⟩ 1 1 (fun _ _ => sixSteps) = .ok out) ∧
    (∃ out, identifyExtremes true ⟨"global_extreme", 90, some 3, none, "approximate", 1 / 100, 5⟩ 1 1 (fun _ _ => sixSteps) = .ok out) :=
  ⟨exact_call _ .global (by unfold checkExtremes; rw [exact_check]; rfl) (by rintro w s ⟨⟩), ⟨_, rfl⟩⟩

/-- The remaining hypotheses of `C116_approximate_days_partial` hold of the second day of the six steps, with `X = 4`. -/
example : (∃ out, identifyExtremes true ⟨"hobday_extreme", 90, some 3, some 1, "approximate", 1 / 100, 5⟩ 1 1 (fun _ _ => sixSteps) = .ok out) ∧
    (∀ v, some v ∈ windowSamples (2 * 0 + 1) 1 1 (2 * 1 + 1) (fun _ _ => sixSteps) 0 0 1 → v < 5) ∧
    JustAfter ((windowSamples (2 * 0 + 1) 1 1 (2 * 1 + 1) (fun _ _ => sixSteps) 0 0 1).filterMap id)
      (90 / 100 * (((windowSamples (2 * 0 + 1) 1 1 (2 * 1 + 1) (fun _ _ => sixSteps) 0 0 1).filterMap id).length : ℚ)) 4 := by
  have hS : windowSamples (2 * 0 + 1) 1 1 (2 * 1 + 1) (fun _ _ => sixSteps) 0 0 1 = [some 0, some 2, some 1, some 4, none, some 1] := by decide +kernel
  refine ⟨?_, ?_, ?_⟩
  · have hc : checkExtremes true ⟨"hobday_extreme", 90, some 3, some 1, "approximate", 1 / 100, 5⟩ = .ok (.hobday 3 (some 1)) := by
      unfold checkExtremes
      rw [show checkPercentile ⟨"hobday_extreme", 90, some 3, some 1, "approximate", 1 / 100, 5⟩ = .ok () by unfold checkPercentile; norm_num]
      rfl
    unfold identifyExtremes
    rw [hc]
    dsimp only
    rw [if_neg (by simp [layoutFails])]
    unfold runExtremes
    rw [if_neg (by norm_num)]
    dsimp only
    rw [if_neg (by norm_num), if_neg (by decide)]
    unfold runApproxDays
    dsimp only
    obtain ⟨ts, t, h1, _⟩ := C39_hobday_partial (1 / 100) 5 (by norm_num) (by norm_num) 3 1 1 1 (by norm_num) (by norm_num) (by norm_num)
      (by norm_num) (by norm_num) (fun _ _ => sixSteps) 0 0 (by norm_num) (by norm_num) (90 / 100) (by norm_num) (by norm_num) (by simp [sixSteps]) 1
      (by norm_num) (by
        have hS' : windowSamples 1 1 1 3 (fun _ _ => sixSteps) 0 0 1 = [some 0, some 2, some 1, some 4, none, some 1] := hS
        rw [hS']; decide +kernel) 4 (by
        have hS' : windowSamples 1 1 1 3 (fun _ _ => sixSteps) 0 0 1 = [some 0, some 2, some 1, some 4, none, some 1] := hS
        rw [hS']; unfold JustAfter; decide +kernel)
    have h1' : gridThresholds (1 / 100) 5 (90 / 100) (3 : Int).toNat (poolSize (some 1)) 1 1 (fun _ _ => sixSteps) 0 0 = .ok ts := h1
    rw [h1']
    exact ⟨_, rfl⟩
  · rw [hS]; intro v hv; simp at hv; rcases hv with rfl | rfl | rfl | rfl | rfl <;> norm_num
  · rw [hS]; unfold JustAfter; decide +kernel

/-- Nine years of one day, with eight anomalies of zero and one of `K` bins, in the fifth year. -/
def nineYears (p : ℚ) (K : Nat) : List Sample :=
  (List.range 9).map fun k => ⟨2000 + k, 1, some (if k = 4 then (K : ℚ) * p else 0)⟩

theorem nineYears_window (p : ℚ) (K : Nat) : windowSamples 1 1 1 11 (fun _ _ => nineYears p K) 0 0 0 =
    [some 0, some 0, some 0, some 0, some ((K : ℚ) * p), some 0, some 0, some 0, some 0] := by
  rfl

theorem nineYears_threshold (p mx : ℚ) (hp : 0 < p) (K : Nat) (hK : 1 ≤ K) (hmx : ((K : ℚ) + 1) * p ≤ mx) :
    ∃ ts, gridThresholds p mx (95 / 100) 11 1 1 1 (fun _ _ => nineYears p K) 0 0 = .ok ts ∧ ts[0]? = some (some (((K : ℚ) + 1 / 20) * p)) := by
  have hK' : (1 : ℚ) ≤ K := by exact_mod_cast hK
  have hmx' : p < mx := by nlinarith
  have hnb : K + 3 ≤ nBins p mx := by
    have := (nBins_bounds (mx := mx) hp (by linarith)).1
    have h6 : ((K + 3 : Nat) : ℚ) ≤ (nBins p mx : ℚ) := by
      by_contra hc
      push_cast at hc
      have : ((nBins p mx : ℚ) - 2) * p < ((K : ℚ) + 1) * p := by nlinarith
      linarith
    exact_mod_cast h6
  have hbin0 : digitize p mx (some 0) = 2 := by
    obtain ⟨_, hs⟩ := digitize_spec (mx := mx) hp 0
    have a := (hs 1 (by omega)).1 (by push_cast; linarith)
    have b := (hs 2 (by omega)).not.1 (by push_cast; linarith)
    omega
  have hbinx : digitize p mx (some ((K : ℚ) * p)) = K + 2 := by
    obtain ⟨hle, hs⟩ := digitize_spec (mx := mx) hp ((K : ℚ) * p)
    have a := (hs (K + 1) (by omega)).1 (by push_cast; linarith)
    have b := (hs (K + 2) (by omega)).not.1 (by push_cast; linarith)
    omega
  have hcum : ∀ k, k < nBins p mx → cumOf (histCounts p mx (windowSamples 1 1 1 11 (fun _ _ => nineYears p K) 0 0 0)) k =
      if k < 2 then 0 else if k < K + 2 then 8 else 9 := by
    intro k hk
    rw [cumOf_histCounts hk, nineYears_window]
    simp only [List.filter_cons, List.filter_nil, hbin0, hbinx]
    by_cases k2 : k < 2
    · rw [if_pos k2]; simp [show ¬ 2 ≤ k by omega, show ¬ K + 2 ≤ k by omega]
    · by_cases k5 : k < K + 2
      · rw [if_neg k2, if_pos k5]; simp [show 2 ≤ k by omega, show ¬ K + 2 ≤ k by omega]
      · rw [if_neg k2, if_neg k5]; simp [show 2 ≤ k by omega, show K + 2 ≤ k by omega]
  have hsum : (histCounts p mx (windowSamples 1 1 1 11 (fun _ _ => nineYears p K) 0 0 0)).sum = 9 := by
    rw [← cumOf_last _ (k := nBins p mx - 1) (by rw [length_histCounts]; omega), hcum _ (by omega), if_neg (by omega), if_neg (by omega)]
  obtain ⟨t, hv, u, hu, hlt, _, hsm, hbig⟩ := row_final hp (by omega : 3 ≤ nBins p mx) (95 / 100) (by norm_num) (by norm_num)
    (histCounts p mx (windowSamples 1 1 1 11 (fun _ _ => nineYears p K) 0 0 0)) (length_histCounts p mx _) (by omega)
  obtain ⟨hA1, hA2⟩ := hlt (by norm_num)
  rw [hsum] at hA1 hA2
  have hu5 : u = K + 2 := by
    apply Nat.le_antisymm
    · by_contra hc
      have := hA2 (K + 2) (by omega)
      rw [hcum (K + 2) (by omega), if_neg (by omega), if_neg (by omega)] at this
      norm_num at this
    · by_contra hc
      rw [hcum u hu] at hA1
      split at hA1
      · norm_num at hA1
      · rw [if_pos (by omega)] at hA1
        norm_num at hA1
  obtain ⟨f, _, _, hff, _, rfl⟩ := hbig (by omega)
  obtain ⟨_, hfe⟩ := hff (by norm_num)
  subst hu5
  rw [hsum, hcum (K + 2 - 1) (by omega), hcum (K + 2) (by omega), if_neg (by omega), if_pos (by omega), if_neg (by omega), if_neg (by omega)] at hfe
  norm_num at hfe
  subst hfe
  refine ⟨_, gridThresholds_eq p mx (95 / 100) 11 1 1 1 rfl (by norm_num) (by norm_num) rfl (by norm_num) _ 0 0 (by norm_num) (by norm_num), ?_⟩
  rw [List.getElem?_map, List.getElem?_range (by norm_num), Option.map_some,
    if_neg (show ¬ ((nineYears p K).map Sample.val).headD none = none by simp [nineYears, List.range_succ]), hv, applyFloor_some (by omega)]
  rw [centreOf_pos (by omega), max_eq_right (by push_cast [Nat.add_sub_cancel]; nlinarith)]
  congr 2
  push_cast [Nat.add_sub_cancel]; ring

/-- **C116** fails for the default method, by any number of bins: of nine anomalies of a day, eight zero and one of `K` bins, the 95th percentile is
0.6 `K` bins, yet the step with `K` bins is not extreme: its value is 0.4 `K` bins above the percentile and below the histogram's threshold.  With the
default precision of 0.01 and range of 5, `K = 499` gives an anomaly of 4.99 that is not extreme although the percentile is 2.994. -/
theorem C116_missed_extreme_fails (p mx : ℚ) (hp : 0 < p) (K : Nat) (hK : 1 ≤ K) (hmx : ((K : ℚ) + 1) * p ≤ mx) :
    ∃ out, identifyExtremes true ⟨"hobday_extreme", 95, some 11, some 1, "approximate", p, mx⟩ 1 1 (fun _ _ => nineYears p K) = .ok out ∧
      IsQuantile ((windowSamples 1 1 1 11 (fun _ _ => nineYears p K) 0 0 0).filterMap id : List ℚ) (95 / 100) (3 / 5 * ((K : ℚ) * p)) ∧
      (nineYears p K)[4]? = some ⟨2004, 1, some ((K : ℚ) * p)⟩ ∧ (out.extremes 0 0)[4]? = some false := by
  obtain ⟨ts, h1, h2⟩ := nineYears_threshold p mx hp K hK hmx
  have hc : checkExtremes true ⟨"hobday_extreme", 95, some 11, some 1, "approximate", p, mx⟩ = .ok (.hobday 11 (some 1)) := by
    unfold checkExtremes
    rw [show checkPercentile ⟨"hobday_extreme", 95, some 11, some 1, "approximate", p, mx⟩ = .ok () by
      unfold checkPercentile
      simp only [show ¬ ("approximate" = "exact") by decide, false_and, if_false]
      norm_num]
    rfl
  have hE : (extremesHobday (nineYears p K) ts)[4]? = some false := by
    obtain ⟨_, hall⟩ := C37_extreme_iff_hobday (nineYears p K) ts
    obtain ⟨e, he, hiff⟩ := hall 4 ⟨2004, 1, some ((K : ℚ) * p)⟩ (by simp [nineYears, List.range_succ])
    rw [he, Option.some.injEq, Bool.eq_false_iff]
    intro ht
    obtain ⟨v, t, hv, ht', hle⟩ := hiff.mp ht
    have e1 : v = (K : ℚ) * p := by simpa using hv.symm
    have e2 : t = ((K : ℚ) + 1 / 20) * p := by
      have : ts[0]? = some (some t) := ht'
      rw [h2] at this
      simpa using this.symm
    nlinarith
  have h1' : gridThresholds p mx (95 / 100) (11 : Int).toNat (poolSize (some 1)) 1 1 (fun _ _ => nineYears p K) 0 0 = .ok ts := h1
  unfold identifyExtremes
  rw [hc]
  dsimp only
  rw [if_neg (by simp [layoutFails])]
  unfold runExtremes
  rw [if_neg (by norm_num)]
  dsimp only
  rw [if_neg (by norm_num), if_neg (by decide)]
  unfold runApproxDays
  dsimp only
  rw [h1']
  refine ⟨_, rfl, ?_, by simp [nineYears, List.range_succ], ?_⟩
  · rw [nineYears_window]
    have hpos : (0 : ℚ) ≤ (K : ℚ) * p := by positivity
    refine ⟨[0, 0, 0, 0, 0, 0, 0, 0, (K : ℚ) * p], 7, 3 / 5, 0, (K : ℚ) * p, ?_, ?_, by norm_num, by norm_num, by norm_num, rfl, Or.inl rfl, by ring⟩
    · refine Multiset.coe_eq_coe.mpr ?_
      change List.Perm ([0, 0, 0, 0] ++ ([0, 0, 0, 0] ++ [(K : ℚ) * p])) ([0, 0, 0, 0] ++ ([(K : ℚ) * p] ++ [0, 0, 0, 0]))
      exact List.Perm.append_left _ List.perm_append_comm
    · simp [hpos]
  · change (extremesHobday (nineYears p K) (okThresholds (gridThresholds p mx (95 / 100) (11 : Int).toNat (poolSize (some 1)) 1 1
      (fun _ _ => nineYears p K) 0 0)))[4]? = some false
    rw [h1']
    exact hE

/-- The default precision and range, and an anomaly of 4.99. -/
example : ((499 : Nat) + 1 : ℚ) * (1 / 100) ≤ 5 ∧ (499 : ℚ) * (1 / 100) = 499 / 100 := by norm_num

end MarEx.Props
