import Verif.Lemmas.Climatology
/-! C32–C35: the shifting and fixed baselines. -/
namespace MarEx.Props
open MarEx Spec

/-- A record of two years with two days each, used as a non-vacuity witness below. -/
def twoYears : List Sample := [⟨2000, 1, some 3⟩, ⟨2000, 2, none⟩, ⟨2001, 1, some 5⟩, ⟨2001, 2, some 6⟩, ⟨2002, 1, some 1⟩, ⟨2002, 2, some 2⟩]

/-- C32: at every date of a record that starts at least `W` years earlier, the rolling climatology is the mean of the available samples on the
same day of year in the `W` preceding years (missing if none is available); at every other date it is missing. -/
theorem C32_rolling_climatology (W : Nat) (record : List Sample) :
    (rollingClim W record).length = record.length ∧
    ∀ (i : Nat) (s : Sample), record[i]? = some s → ∃ m, (rollingClim W record)[i]? = some m ∧
      ((∃ r ∈ record, r.year + W ≤ s.year) → IsMean (numbers (baseline W s.year s.doy record)) m) ∧
      ((∀ r ∈ record, s.year < r.year + W) → m = none) := by
  refine ⟨by simp [rollingClim], fun i s hs => ⟨_, rollingClim_getElem? W record i s hs, ?_, ?_⟩⟩
  · rintro ⟨r, hr, hry⟩
    rw [if_pos (le_trans (Nat.add_le_add_right (minYear_le hr) W) hry), ← filterMap_id_map_val]
    exact isMean_nanMean _
  · intro h
    obtain ⟨r, hr, hy⟩ := minYear_mem (List.ne_nil_of_mem (List.mem_of_getElem? hs))
    rw [if_neg (by have := h r hr; omega)]

example : (rollingClim 1 twoYears) = [none, none, some 3, none, some 5, some 6] := by decide +kernel
example : (rollingClim 2 twoYears)[4]? = some (some 4) ∧ (rollingClim 2 twoYears)[5]? = some (some 6) := by decide +kernel

/-- C32: samples of year `y` or later have no influence on the climatology of a date in year `y`. -/
theorem C32_no_influence_from_target_year (W : Nat) (a b : List Sample) (hd : SameDates a b) (y : Nat)
    (hv : ∀ (i : Nat) (s t : Sample), a[i]? = some s → b[i]? = some t → s.year < y → s.val = t.val) :
    ∀ (i : Nat) (s : Sample), a[i]? = some s → s.year = y → (rollingClim W a)[i]? = (rollingClim W b)[i]? := by
  intro i s hs hy
  have hlt : i < b.length := by rw [← sameDates_length hd]; exact (List.getElem?_eq_some_iff.1 hs).1
  have hb : b[i]? = some b[i] := List.getElem?_eq_getElem hlt
  have hdate : (s.year, s.doy) = (b[i].year, b[i].doy) := by
    have := congrArg (fun l => l[i]?) hd
    simpa [List.getElem?_map, hs, hb] using this
  simp only [Prod.mk.injEq] at hdate
  rw [rollingClim_getElem? W a i s hs, rollingClim_getElem? W b i _ hb, minYear_congr hd, ← hdate.1, ← hdate.2, hy,
    baseline_congr hd hv]

example : SameDates twoYears (twoYears.map fun s => if s.year = 2002 then { s with val := some 100 } else s) := by
  unfold SameDates; decide +kernel

/-- C126 fails for records with missing years: whatever the window `W`, a record holding only its first year and the year `W` years later gets
a "`W`-year" baseline made of a single sample, although the documentation promises a missing value when there is not enough history. -/
theorem C126_gap_years_fails (W : Nat) (hW : 0 < W) (x y : ℚ) :
    rollingClim W [⟨2000, 1, some x⟩, ⟨2000 + W, 1, some y⟩] = [none, some x] := by
  have hmin : minYear [⟨2000, 1, some x⟩, ⟨2000 + W, 1, some y⟩] = 2000 := by
    obtain ⟨r, hr, hy⟩ := minYear_mem (record := [⟨2000, 1, some x⟩, ⟨2000 + W, 1, some y⟩]) (by simp)
    have := minYear_le (record := [⟨2000, 1, some x⟩, ⟨2000 + W, 1, some y⟩]) (r := ⟨2000, 1, some x⟩) (by simp)
    simp only [List.mem_cons, List.not_mem_nil, or_false] at hr
    dsimp only at this
    rcases hr with rfl | rfl <;> dsimp only at hy <;> omega
  apply List.ext_getElem?
  intro i
  match i with
  | 0 =>
    rw [rollingClim_getElem? W _ 0 ⟨2000, 1, some x⟩ rfl, hmin, if_neg (by dsimp only; omega)]; rfl
  | 1 =>
    rw [rollingClim_getElem? W _ 1 ⟨2000 + W, 1, some y⟩ rfl, hmin, if_pos (by dsimp only; omega)]
    simp [baseline, nanMean, hW]
  | n + 2 =>
    rw [List.getElem?_eq_none (by simp [rollingClim]), List.getElem?_eq_none (by simp)]

/-- The series of the counterexample to C33: `w` days of zeros in year 0, then `w` days of year 1 of which only the first differs from zero. -/
def leakRecord (w : Nat) (x : ℚ) : List Sample :=
  (List.range w).map (fun k => ⟨0, k + 1, some 0⟩) ++ (List.range w).map (fun k => ⟨1, k + 1, some (if k = 0 then x else 0)⟩)

theorem leakRecord_length (w : Nat) (x : ℚ) : (leakRecord w x).length = 2 * w := by simp [leakRecord]; omega

theorem leakRecord_getElem? (w : Nat) (x : ℚ) (i : Nat) (hi : i < 2 * w) :
    (leakRecord w x)[i]? = some (if i < w then ⟨0, i + 1, some 0⟩ else ⟨1, i - w + 1, some (if i = w then x else 0)⟩) := by
  unfold leakRecord
  by_cases h : i < w
  · rw [List.getElem?_append_left (by simpa using h), if_pos h, List.getElem?_map, List.getElem?_range h]; rfl
  · rw [List.getElem?_append_right (by simpa using h), if_neg h, List.getElem?_map,
      List.getElem?_range (by simp; omega)]
    simp only [List.length_map, List.length_range, Option.map_some]
    by_cases hw : i = w
    · subst hw; simp
    · rw [if_neg (by omega), if_neg hw]

theorem sameDates_leakRecord (w : Nat) (x y : ℚ) : SameDates (leakRecord w x) (leakRecord w y) := by
  simp [SameDates, leakRecord, Function.comp_def]

theorem sum_single (n p : Nat) (x : ℚ) (hp : p < n) : ((List.range n).map fun k => if k = p then x else 0).sum = x := by
  induction n with
  | zero => omega
  | succ n ih =>
    rw [List.range_succ, List.map_append, List.sum_append]
    by_cases h : p = n
    · subst h
      have : ((List.range p).map fun k => if k = p then x else 0) = (List.range p).map fun _ => (0 : ℚ) := by
        apply List.map_congr_left
        intro k hk
        rw [if_neg (by have := List.mem_range.1 hk; omega)]
      rw [this]; simp
    · rw [ih (by omega)]
      simp [Ne.symm h]

theorem leak_rollMean (w : Nat) (hw : 3 ≤ w) (x : ℚ) :
    (rollMean w ((leakRecord w x).map Sample.val))[w - 1]? = some (some (x / w)) := by
  rw [rollMean_getElem? (by simp [leakRecord_length]; omega)]
  dsimp only
  have hwin : ((List.range w).map fun k => if w - 1 + k < w / 2 then none else
      ((leakRecord w x).map Sample.val).getD (w - 1 + k - w / 2) none)
      = (List.range w).map fun k => some (if k = w / 2 + 1 then x else 0) := by
    apply List.map_congr_left
    intro k hk
    rw [List.mem_range] at hk
    rw [if_neg (by omega), List.getD_eq_getElem?_getD, List.getElem?_map, leakRecord_getElem? _ _ _ (by omega)]
    by_cases h : w - 1 + k - w / 2 < w
    · rw [if_pos h, if_neg (by omega)]; rfl
    · rw [if_neg h]
      by_cases h' : k = w / 2 + 1
      · rw [if_pos (by omega), if_pos h']; rfl
      · rw [if_neg (by omega), if_neg h']; rfl
  rw [hwin, if_pos (by simp)]
  congr 2
  rw [List.filterMap_map]
  have : (List.range w).filterMap (id ∘ fun k => some (if k = w / 2 + 1 then x else 0))
      = (List.range w).map fun k => if k = w / 2 + 1 then x else 0 := by
    rw [← List.filterMap_eq_map]; rfl
  rw [this, sum_single _ _ _ (by omega)]

/-- C33 fails for every smoothing width of three days or more: changing one sample of the target year (its first day) changes the smoothed
baseline of that same year. -/
theorem C33_smoothing_uses_target_year_fails (w : Nat) (hw : 3 ≤ w) :
    ∃ a b : List Sample, SameDates a b ∧
      (∀ (i : Nat) (s t : Sample), a[i]? = some s → b[i]? = some t → s.year < 1 → s.val = t.val) ∧
      ∃ (i : Nat) (s : Sample), a[i]? = some s ∧ s.year = 1 ∧ (smoothedClim 1 w a)[i]? ≠ (smoothedClim 1 w b)[i]? := by
  refine ⟨leakRecord w 0, leakRecord w 1, sameDates_leakRecord w 0 1, ?_, ?_⟩
  · intro i s t hs ht hy
    have hi : i < 2 * w := by rw [← leakRecord_length w 0]; exact (List.getElem?_eq_some_iff.1 hs).1
    rw [leakRecord_getElem? _ _ _ hi] at hs ht
    rw [Option.some.injEq] at hs ht
    subst hs ht
    by_cases h : i < w
    · rw [if_pos h, if_pos h]
    · rw [if_neg h] at hy; simp at hy
  · have hval : ∀ x : ℚ, (smoothedClim 1 w (leakRecord w x))[2 * w - 1]? = some (some (x / w)) := by
      intro x
      unfold smoothedClim
      have hlen : (rollMean w ((leakRecord w x).map Sample.val)).length = (leakRecord w x).length := by
        rw [length_rollMean, List.length_map]
      obtain ⟨v, hv⟩ : ∃ v, (rollMean w ((leakRecord w x).map Sample.val))[2 * w - 1]? = some v :=
        ⟨_, List.getElem?_eq_getElem (by rw [hlen, leakRecord_length]; omega)⟩
      have hs := withVals_getElem? (leakRecord_getElem? w x (2 * w - 1) (by omega)) hv
      rw [if_neg (by omega)] at hs
      rw [rollingClim_getElem? 1 _ _ _ hs]
      have hmem0 := withVals_getElem? (leakRecord_getElem? w x (w - 1) (by omega)) (leak_rollMean w hw x)
      rw [if_pos (by omega)] at hmem0
      have hmin : minYear (withVals (leakRecord w x) (rollMean w ((leakRecord w x).map Sample.val))) = 0 :=
        Nat.le_zero.1 (minYear_le (List.mem_of_getElem? hmem0))
      rw [hmin, if_pos (by simp)]
      congr 1
      -- the baseline of year 1, day w, is the single smoothed sample of year 0, day w
      have hb : baseline 1 1 (2 * w - 1 - w + 1) (withVals (leakRecord w x) (rollMean w ((leakRecord w x).map Sample.val)))
          = [⟨0, w - 1 + 1, some (x / w)⟩] := by
        generalize hr : withVals (leakRecord w x) (rollMean w ((leakRecord w x).map Sample.val)) = rec
        have hdates : ∀ i s, rec[i]? = some s → s.year < 1 → s.doy = 2 * w - 1 - w + 1 → i = w - 1 := by
          intro i s hs' hy hdo
          have hi : i < 2 * w := by
            rw [← leakRecord_length w x, ← length_withVals hlen, hr]; exact (List.getElem?_eq_some_iff.1 hs').1
          have hsd := sameDates_withVals hlen
          rw [hr] at hsd
          have := congrArg (fun l => l[i]?) hsd
          simp only [List.getElem?_map, hs', leakRecord_getElem? w x i hi, Option.map_some, Option.some.injEq,
            Prod.mk.injEq] at this
          by_cases h : i < w
          · rw [if_pos h] at this; simp only at this; omega
          · rw [if_neg h] at this; simp only at this; omega
        rw [hr] at hmem0
        have hlt : w - 1 < rec.length := (List.getElem?_eq_some_iff.1 hmem0).1
        have hsplit : rec = rec.take (w - 1) ++ (⟨0, w - 1 + 1, some (x / w)⟩ :: rec.drop (w - 1 + 1)) := by
          conv_lhs => rw [← List.take_append_drop (w - 1) rec, List.drop_eq_getElem_cons hlt]
          rw [(List.getElem?_eq_some_iff.1 hmem0).2]
        unfold baseline
        rw [hsplit, List.filter_append, List.filter_cons_of_pos (by simp; omega)]
        have h1 : (rec.take (w - 1)).filter (fun r => decide (r.doy = 2 * w - 1 - w + 1 ∧ 1 ≤ r.year + 1 ∧ r.year < 1)) = [] := by
          rw [List.filter_eq_nil_iff]
          intro r hr' hc
          obtain ⟨j, hj⟩ := List.mem_iff_getElem?.1 hr'
          rw [List.getElem?_take] at hj
          split at hj
          · have := hdates j r hj (by simp at hc; omega) (by simp at hc; omega)
            omega
          · cases hj
        have h2 : (rec.drop (w - 1 + 1)).filter (fun r => decide (r.doy = 2 * w - 1 - w + 1 ∧ 1 ≤ r.year + 1 ∧ r.year < 1)) = [] := by
          rw [List.filter_eq_nil_iff]
          intro r hr' hc
          obtain ⟨j, hj⟩ := List.mem_iff_getElem?.1 hr'
          rw [List.getElem?_drop] at hj
          have := hdates _ r hj (by simp at hc; omega) (by simp at hc; omega)
          omega
        rw [h1, h2]; rfl
      rw [hb]
      simp [nanMean]
    refine ⟨2 * w - 1, _, leakRecord_getElem? w 0 _ (by omega), by rw [if_neg (by omega)], ?_⟩
    rw [hval 0, hval 1]
    have : (w : ℚ) ≠ 0 := by have : w ≠ 0 := by omega
                             exact_mod_cast this
    intro h
    rw [Option.some.injEq, Option.some.injEq] at h
    field_simp at h
    simp at h

/-- C33, the part that holds: the smoothed baseline of a date in year `y` depends only on samples no more than half a smoothing window
after the last sample preceding year `y`.  (Missing: independence from the first half window of year `y` itself.) -/
theorem C33_smoothed_baseline_partial (W w : Nat) (a b : List Sample) (hd : SameDates a b) (y : Nat)
    (hv : ∀ (j k : Nat) (s t r : Sample), a[j]? = some s → b[j]? = some t → a[k]? = some r → r.year < y →
      j ≤ k + (w - 1 - w / 2) → s.val = t.val) :
    ∀ (i : Nat) (s : Sample), a[i]? = some s → s.year = y → (smoothedClim W w a)[i]? = (smoothedClim W w b)[i]? := by
  intro i s hs hy
  have hl := sameDates_length hd
  have hla : (rollMean w (a.map Sample.val)).length = a.length := by rw [length_rollMean, List.length_map]
  have hlb : (rollMean w (b.map Sample.val)).length = b.length := by rw [length_rollMean, List.length_map]
  have hsd : SameDates (withVals a (rollMean w (a.map Sample.val))) (withVals b (rollMean w (b.map Sample.val))) :=
    (sameDates_withVals hla).trans (hd.trans (sameDates_withVals hlb).symm)
  have hi : i < a.length := (List.getElem?_eq_some_iff.1 hs).1
  refine C32_no_influence_from_target_year W _ _ hsd y ?_ i
    { s with val := (rollMean w (a.map Sample.val))[i]'(by omega) }
    (withVals_getElem? hs (List.getElem?_eq_getElem _)) hy
  intro k p q hp hq hpy
  have hk : k < a.length := by rw [← length_withVals hla]; exact (List.getElem?_eq_some_iff.1 hp).1
  have hka : a[k]? = some a[k] := List.getElem?_eq_getElem hk
  have hkb : b[k]? = some (b[k]'(by omega)) := List.getElem?_eq_getElem _
  have hva : (rollMean w (a.map Sample.val))[k]? = some ((rollMean w (a.map Sample.val))[k]'(by omega)) :=
    List.getElem?_eq_getElem _
  have hvb : (rollMean w (b.map Sample.val))[k]? = some ((rollMean w (b.map Sample.val))[k]'(by omega)) :=
    List.getElem?_eq_getElem _
  rw [withVals_getElem? hka hva, Option.some.injEq] at hp
  rw [withVals_getElem? hkb hvb, Option.some.injEq] at hq
  have hpy : a[k].year < y := by rw [← hp] at hpy; exact hpy
  rw [← hp, ← hq]
  dsimp only
  have := rollMean_congr (w := w) (xs := a.map Sample.val) (ys := b.map Sample.val) (i := k) (by simpa using hl) (by simpa using hk) (by
    intro j hj
    rw [List.getElem?_map, List.getElem?_map]
    by_cases hja : j < a.length
    · have h1 : a[j]? = some a[j] := List.getElem?_eq_getElem hja
      have h2 : b[j]? = some (b[j]'(by omega)) := List.getElem?_eq_getElem _
      rw [h1, h2]
      simp only [Option.map_some, Option.some.injEq]
      exact hv j k _ _ _ h1 h2 hka hpy (by omega)
    · rw [List.getElem?_eq_none (by omega), List.getElem?_eq_none (by omega)])
  rw [hva, hvb] at this
  exact Option.some.inj this

example : (smoothedClim 1 3 (leakRecord 3 6))[5]? = some (some 2) ∧ (smoothedClim 1 3 (leakRecord 3 0))[5]? = some (some 0) := by
  decide +kernel

/-- C34: for a non-empty record spanning `n` calendar years (first to last), the shifting-baseline output exists iff `n ≥ W`, and then
consists of exactly the time steps, in order, of years at least `W` after the first year. -/
theorem C34_trimmed_years (W w : Nat) (record : List Sample) (first last : Nat)
    (hf : ∃ r ∈ record, r.year = first) (hf' : ∀ r ∈ record, first ≤ r.year)
    (hl : ∃ r ∈ record, r.year = last) (hl' : ∀ r ∈ record, r.year ≤ last) :
    (last - first + 1 < W → shiftingBaseline W w record = .error .insufficientYears) ∧
    (W ≤ last - first + 1 → ∃ out, shiftingBaseline W w record = .ok out ∧
      out.map (fun s => (s.year, s.doy)) = (record.map fun s => (s.year, s.doy)).filter fun p => first + W ≤ p.1) := by
  have hne : record ≠ [] := by obtain ⟨r, hr, _⟩ := hf; exact List.ne_nil_of_mem hr
  have hlen : (List.zipWith nanSub (record.map Sample.val) (smoothedClim W w record)).length = record.length := by
    simp [smoothedClim, rollingClim, withVals, length_rollMean]
  have hsd : SameDates (shiftingAnomaly W w record) record := sameDates_withVals hlen
  have hmin : minYear record = first := by
    obtain ⟨r, hr, hy⟩ := minYear_mem hne
    obtain ⟨r', hr', hy'⟩ := hf
    have := hf' r hr
    have := minYear_le hr'
    omega
  have hmax : maxYear record = last := by
    obtain ⟨r, hr, hy⟩ := maxYear_mem hne
    obtain ⟨r', hr', hy'⟩ := hl
    have := hl' r hr
    have := le_maxYear hr'
    omega
  unfold shiftingBaseline trimShifting
  simp only [minYear_congr hsd, maxYear_congr hsd, hmin, hmax]
  constructor
  · intro h; rw [if_pos h]
  · intro h
    rw [if_neg (by omega)]
    refine ⟨_, rfl, ?_⟩
    rw [← hsd, List.filter_map]
    rfl

example : shiftingBaseline 1 1 twoYears = .ok [⟨2001, 1, some 2⟩, ⟨2001, 2, none⟩, ⟨2002, 1, some (-4)⟩, ⟨2002, 2, some (-4)⟩] := by
  decide +kernel

/-- C141 fails on the boundary: a record of exactly `W` calendar years passes the length check and leaves an empty data set
instead of the documented error. -/
theorem C141_exact_span_returns_nothing_fails (W w : Nat) (record : List Sample) (first : Nat) (hW : 0 < W)
    (hf : ∃ r ∈ record, r.year = first) (hf' : ∀ r ∈ record, first ≤ r.year)
    (hl : ∃ r ∈ record, r.year = first + W - 1) (hl' : ∀ r ∈ record, r.year ≤ first + W - 1) :
    shiftingBaseline W w record = .ok [] := by
  obtain ⟨out, h1, h2⟩ := (C34_trimmed_years W w record first (first + W - 1) hf hf' hl hl').2 (by omega)
  rw [h1]
  have : (record.map fun s => (s.year, s.doy)).filter (fun p => first + W ≤ p.1) = [] := by
    rw [List.filter_eq_nil_iff]
    intro p hp
    obtain ⟨s, hs, rfl⟩ := List.mem_map.1 hp
    have := hl' s hs
    simp
    omega
  rw [this, List.map_eq_nil_iff] at h2
  rw [h2]

example : shiftingBaseline 3 1 twoYears = .ok [] := by decide +kernel

/-- C141: a record spanning more than `W` calendar years leaves a non-empty output, so together with the error the output is empty only
in the boundary case above. -/
theorem C141_longer_span_partial (W w : Nat) (record : List Sample) (first last : Nat)
    (hf : ∃ r ∈ record, r.year = first) (hf' : ∀ r ∈ record, first ≤ r.year)
    (hl : ∃ r ∈ record, r.year = last) (hl' : ∀ r ∈ record, r.year ≤ last) (h : first + W ≤ last) :
    ∃ out, shiftingBaseline W w record = .ok out ∧ out ≠ [] := by
  obtain ⟨out, h1, h2⟩ := (C34_trimmed_years W w record first last hf hf' hl hl').2 (by omega)
  refine ⟨out, h1, ?_⟩
  rintro rfl
  obtain ⟨r, hr, hy⟩ := hl
  have : (r.year, r.doy) ∈ (record.map fun s => (s.year, s.doy)).filter fun p => first + W ≤ p.1 := by
    rw [List.mem_filter]
    exact ⟨List.mem_map_of_mem (f := fun s : Sample => (s.year, s.doy)) hr, by simp; omega⟩
  rw [← h2] at this
  simp at this

/-- C35: the fixed-baseline anomalies keep the dates, are missing exactly where the data are, average to zero over each day of year, and adding
back the mean of the valid samples of that day of year gives the data. -/
theorem C35_fixed_baseline (record : List Sample) :
    SameDates (fixedAnomaly record) record ∧
    (∀ d, (numbers ((fixedAnomaly record).filter fun s => s.doy = d)).sum = 0) ∧
    (∀ (i : Nat) (s : Sample), record[i]? = some s → ∃ a m, (fixedAnomaly record)[i]? = some a ∧
      IsMean (numbers (record.filter fun r => r.doy = s.doy)) m ∧
      (s.val = none → a.val = none) ∧
      (∀ v, s.val = some v → ∃ c x, m = some c ∧ a.val = some x ∧ x + c = v)) := by
  have hmean : ∀ d, IsMean (numbers (record.filter fun r => r.doy = d)) (dailyClim record d) := by
    intro d
    rw [← filterMap_id_map_val]
    exact isMean_nanMean _
  refine ⟨by simp [SameDates, fixedAnomaly], ?_, ?_⟩
  · intro d
    have hfilter : (fixedAnomaly record).filter (fun s => s.doy = d)
        = (record.filter fun s => s.doy = d).map fun s => { s with val := nanSub s.val (dailyClim record d) } := by
      unfold fixedAnomaly
      rw [List.filter_map]
      apply List.map_congr_left
      intro s hs
      rw [List.mem_filter] at hs
      have : s.doy = d := by simpa using hs.2
      rw [this]
    rw [hfilter]
    have hsub : ∀ (l : List Sample) (c : ℚ),
        (numbers (l.map fun s => { s with val := nanSub s.val (some c) })).sum = (numbers l).sum - (numbers l).length * c := by
      intro l c
      induction l with
      | nil => simp [numbers]
      | cons s t ih =>
        unfold numbers at ih ⊢
        cases hv : s.val with
        | none => simpa [hv, nanSub] using ih
        | some v =>
          have hn : nanSub (some v) (some c) = some (v - c) := rfl
          simp only [List.map_cons, List.filterMap_cons, hv, hn, List.sum_cons, List.length_cons, ih, Nat.cast_add, Nat.cast_one]
          ring
    rcases hmean d with ⟨h1, h2⟩ | ⟨h1, c, h2, h3⟩
    · rw [h2]
      have : ∀ l : List Sample, numbers (l.map fun s => { s with val := nanSub s.val none }) = [] := by
        intro l
        unfold numbers
        rw [List.filterMap_map, List.filterMap_eq_nil_iff]
        intro s _
        simp only [Function.comp_apply]
        cases s.val <;> rfl
      rw [this]; rfl
    · rw [h2, hsub, ← h3]; ring
  · intro i s hs
    refine ⟨{ s with val := nanSub s.val (dailyClim record s.doy) }, dailyClim record s.doy, ?_, hmean s.doy, ?_, ?_⟩
    · unfold fixedAnomaly; rw [List.getElem?_map, hs]; rfl
    · intro h; dsimp only; rw [h]; rfl
    · intro v hv
      rcases hmean s.doy with ⟨h1, _⟩ | ⟨_, c, h2, _⟩
      · exfalso
        have : v ∈ numbers (record.filter fun r => r.doy = s.doy) := by
          unfold numbers
          rw [List.mem_filterMap]
          exact ⟨s, List.mem_filter.2 ⟨List.mem_of_getElem? hs, by simp⟩, hv⟩
        rw [h1] at this
        cases this
      · exact ⟨c, v - c, h2, by dsimp only; rw [hv, h2]; rfl, by ring⟩

example : (fixedAnomaly twoYears).map Sample.val = [some 0, none, some 2, some 2, some (-2), some (-2)] := by decide +kernel

end MarEx.Props
