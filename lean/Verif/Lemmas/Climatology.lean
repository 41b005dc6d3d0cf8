import Verif.Model.Climatology
import Verif.Lemmas.Util
namespace MarEx
open Spec

theorem isMean_nanMean (l : List (Option ℚ)) : IsMean (l.filterMap id) (nanMean l) := by
  unfold nanMean IsMean
  dsimp only
  generalize l.filterMap id = v
  by_cases h : v = []
  · left; simp [h]
  · right
    refine ⟨h, v.sum / (v.length : ℚ), ?_, ?_⟩
    · simp [h]
    · have : (v.length : ℚ) ≠ 0 := by
        simpa [List.length_eq_zero_iff] using h
      field_simp

theorem isMean_unique {l : List ℚ} {m m' : Option ℚ} (h : IsMean l m) (h' : IsMean l m') : m = m' := by
  rcases h with ⟨h1, h2⟩ | ⟨h1, a, h2, h3⟩ <;> rcases h' with ⟨h1', h2'⟩ | ⟨h1', a', h2', h3'⟩
  · rw [h2, h2']
  · exact absurd h1 h1'
  · exact absurd h1' h1
  · have hl : (l.length : ℚ) ≠ 0 := by simpa [List.length_eq_zero_iff] using h1
    rw [h2, h2']
    congr 1
    exact mul_right_cancel₀ hl (h3.trans h3'.symm)

theorem minYear_mem {record : List Sample} (h : record ≠ []) : ∃ r ∈ record, r.year = minYear record := by
  unfold minYear
  obtain ⟨s, t, rfl⟩ := List.exists_cons_of_ne_nil h
  have hs : s.year ∈ npUnique ((s :: t).map Sample.year) := mem_npUnique.2 (by simp)
  cases hu : npUnique ((s :: t).map Sample.year) with
  | nil => rw [hu] at hs; cases hs
  | cons a u =>
    have : a ∈ npUnique ((s :: t).map Sample.year) := by rw [hu]; exact List.mem_cons_self
    rw [mem_npUnique] at this
    obtain ⟨r, hr, rfl⟩ := List.mem_map.1 this
    exact ⟨r, hr, rfl⟩

theorem minYear_le {record : List Sample} {r : Sample} (h : r ∈ record) : minYear record ≤ r.year := by
  unfold minYear
  have hs : r.year ∈ npUnique (record.map Sample.year) := mem_npUnique.2 (List.mem_map_of_mem h)
  have ho := sorted_npUnique (record.map Sample.year)
  cases hu : npUnique (record.map Sample.year) with
  | nil => rw [hu] at hs; cases hs
  | cons a u =>
    rw [hu] at hs ho
    simp only [List.headD_cons]
    rcases List.mem_cons.1 hs with h | h
    · omega
    · exact le_of_lt ((List.pairwise_cons.1 ho).1 _ h)

theorem le_maxYear {record : List Sample} {r : Sample} (h : r ∈ record) : r.year ≤ maxYear record :=
  (foldl_max_ge _ 0).2 _ (List.mem_map_of_mem h)

theorem foldl_maxYear_mem (l : List Nat) (m : Nat) : l.foldl max m = m ∨ l.foldl max m ∈ l := by
  induction l generalizing m with
  | nil => left; rfl
  | cons a t ih =>
    rw [List.foldl_cons]
    rcases ih (max m a) with h | h
    · rcases max_choice m a with h' | h'
      · left; rw [h, h']
      · right; rw [h, h']; exact List.mem_cons_self
    · right; exact List.mem_cons_of_mem _ h

theorem maxYear_mem {record : List Sample} (h : record ≠ []) : ∃ r ∈ record, r.year = maxYear record := by
  rcases foldl_maxYear_mem (record.map Sample.year) 0 with h0 | h0
  · obtain ⟨s, t, rfl⟩ := List.exists_cons_of_ne_nil h
    refine ⟨s, List.mem_cons_self, ?_⟩
    have := le_maxYear (record := s :: t) (r := s) List.mem_cons_self
    unfold maxYear at *
    omega
  · obtain ⟨r, hr, hy⟩ := List.mem_map.1 h0
    exact ⟨r, hr, hy⟩

theorem nodup_filter_eq {l : List Nat} (h : l.Nodup) (y : Nat) :
    l.filter (fun t => t = y) = if y ∈ l then [y] else [] := by
  induction l with
  | nil => simp
  | cons a t ih =>
    rw [List.nodup_cons] at h
    rw [List.filter_cons]
    by_cases hay : a = y
    · subst hay
      simp [ih h.2, h.1]
    · simp [hay, ih h.2, Ne.symm hay]

/-- The entries of one (target year, day of year) group are the values of the baseline samples, once each. -/
theorem contributions_group (W : Nat) (record : List Sample) (y d : Nat) (hy : ∃ s ∈ record, s.year = y) :
    ((contributions W record).filter fun e => e.1 = y ∧ e.2.1 = d).map (fun e => e.2.2)
      = if minYear record + W ≤ y then (baseline W y d record).map Sample.val else [] := by
  have hmem : y ∈ npUnique (record.map Sample.year) := by
    obtain ⟨s, hs, rfl⟩ := hy
    exact mem_npUnique.2 (List.mem_map_of_mem hs)
  unfold contributions baseline
  dsimp only
  rw [List.filter_flatMap, List.map_flatMap]
  have key : ∀ s : Sample,
      (((((npUnique (record.map Sample.year)).filter fun t => s.year < t ∧ t ≤ s.year + W).filter
        fun t => minYear record + W ≤ t).map fun t => (t, s.doy, s.val)).filter
          fun e => e.1 = y ∧ e.2.1 = d).map (fun e => e.2.2)
      = if minYear record + W ≤ y ∧ (s.doy = d ∧ y ≤ s.year + W ∧ s.year < y) then [s.val] else [] := by
    intro s
    rw [List.filter_map, List.map_map, List.filter_filter, List.filter_filter]
    have h1 : (npUnique (record.map Sample.year)).filter (fun t =>
        (((fun e : Nat × Nat × Option ℚ => decide (e.1 = y ∧ e.2.1 = d)) ∘ fun t => (t, s.doy, s.val)) t &&
          decide (minYear record + W ≤ t) && decide (s.year < t ∧ t ≤ s.year + W)))
        = ((npUnique (record.map Sample.year)).filter (fun t => t = y)).filter
            (fun t => decide (minYear record + W ≤ y ∧ (s.doy = d ∧ y ≤ s.year + W ∧ s.year < y))) := by
      rw [List.filter_filter]
      apply List.filter_congr
      intro t _
      rw [Bool.eq_iff_iff]
      simp only [Function.comp_apply, Bool.and_eq_true, decide_eq_true_eq]
      constructor
      · rintro ⟨⟨⟨rfl, h1⟩, h2⟩, h3, h4⟩; exact ⟨⟨h2, h1, h4, h3⟩, rfl⟩
      · rintro ⟨⟨h2, h1, h4, h3⟩, rfl⟩; exact ⟨⟨⟨rfl, h1⟩, h2⟩, h3, h4⟩
    rw [h1, nodup_filter_eq (nodup_npUnique _), if_pos hmem]
    by_cases hc : minYear record + W ≤ y ∧ (s.doy = d ∧ y ≤ s.year + W ∧ s.year < y)
    · rw [if_pos hc]
      simp [hc.1, hc.2.1, hc.2.2.1, hc.2.2.2]
    · rw [if_neg hc]
      rw [List.filter_cons_of_neg (by simpa using hc)]
      rfl
  simp only [key]
  by_cases hW : minYear record + W ≤ y
  · rw [if_pos hW]
    clear key hmem hy
    generalize minYear record = my at hW
    induction record with
    | nil => rfl
    | cons s t ih =>
      rw [List.flatMap_cons, ih, List.filter_cons]
      by_cases hc : s.doy = d ∧ y ≤ s.year + W ∧ s.year < y
      · rw [if_pos ⟨hW, hc⟩, if_pos (by simpa using hc)]; rfl
      · rw [if_neg (fun h => hc h.2), if_neg (by simpa using hc)]; rfl
  · rw [if_neg hW]
    simp [hW]

theorem filterMap_id_map_val (l : List Sample) : (l.map Sample.val).filterMap id = numbers l := by
  unfold numbers
  induction l with
  | nil => rfl
  | cons s t ih => cases hv : s.val <;> simp_all

theorem rollingClim_getElem? (W : Nat) (record : List Sample) (i : Nat) (s : Sample) (hs : record[i]? = some s) :
    (rollingClim W record)[i]? = some (if minYear record + W ≤ s.year then
      nanMean ((baseline W s.year s.doy record).map Sample.val) else none) := by
  unfold rollingClim
  dsimp only
  rw [List.getElem?_map, hs, Option.map_some,
    contributions_group W record s.year s.doy ⟨s, List.mem_of_getElem? hs, rfl⟩]
  by_cases h : minYear record + W ≤ s.year
  · rw [if_pos h, if_pos h]
  · rw [if_neg h, if_neg h]; rfl

theorem length_rollMean (w : Nat) (xs : List (Option ℚ)) : (rollMean w xs).length = xs.length := by simp [rollMean]

theorem length_withVals {record : List Sample} {vs : List (Option ℚ)} (h : vs.length = record.length) :
    (withVals record vs).length = record.length := by simp [withVals, h]

theorem withVals_getElem? {record : List Sample} {vs : List (Option ℚ)} {i : Nat} {s : Sample} {v : Option ℚ}
    (hs : record[i]? = some s) (hv : vs[i]? = some v) : (withVals record vs)[i]? = some { s with val := v } := by
  unfold withVals
  rw [List.getElem?_zipWith, hs, hv]

theorem sameDates_withVals {record : List Sample} {vs : List (Option ℚ)} (h : vs.length = record.length) :
    SameDates (withVals record vs) record := by
  unfold SameDates withVals
  induction record generalizing vs with
  | nil => simp
  | cons s t ih =>
    cases vs with
    | nil => simp at h
    | cons v u => simpa using ih (by simpa using h)

theorem sameDates_years {a b : List Sample} (h : SameDates a b) : a.map Sample.year = b.map Sample.year := by
  have := congrArg (List.map Prod.fst) h
  simpa [SameDates, List.map_map, Function.comp_def] using this

theorem sameDates_length {a b : List Sample} (h : SameDates a b) : a.length = b.length := by
  simpa using congrArg List.length h

theorem minYear_congr {a b : List Sample} (h : SameDates a b) : minYear a = minYear b := by
  unfold minYear; rw [sameDates_years h]

theorem maxYear_congr {a b : List Sample} (h : SameDates a b) : maxYear a = maxYear b := by
  unfold maxYear; rw [sameDates_years h]

/-- Two records on the same dates whose values agree on every sample before year `y` have the same baseline samples. -/
theorem baseline_congr {a b : List Sample} (h : SameDates a b)
    {y : Nat}
    (hv : ∀ (i : Nat) (s t : Sample), a[i]? = some s → b[i]? = some t → s.year < y → s.val = t.val) (W d : Nat) :
    baseline W y d a = baseline W y d b := by
  unfold SameDates at h
  unfold baseline
  induction a generalizing b with
  | nil => cases b with
    | nil => rfl
    | cons t u => simp at h
  | cons s a ih =>
    cases b with
    | nil => simp at h
    | cons t u =>
      simp only [List.map_cons, List.cons.injEq, Prod.mk.injEq] at h
      have hrest := ih h.2 (fun i s' t' hs' ht' => hv (i + 1) s' t' (by simpa using hs') (by simpa using ht'))
      rw [List.filter_cons, List.filter_cons, hrest]
      by_cases hc : s.doy = d ∧ y ≤ s.year + W ∧ s.year < y
      · have hst : s = t := by
          have := hv 0 s t rfl rfl hc.2.2
          cases s; cases t; simp_all
        rw [if_pos (by simpa using hc), if_pos (by rw [← hst]; simpa using hc), hst]
      · rw [if_neg (by simpa using hc), if_neg (by rw [← h.1.1, ← h.1.2]; simpa using hc)]

theorem rollMean_getElem? {w : Nat} {xs : List (Option ℚ)} {i : Nat} (hi : i < xs.length) :
    (rollMean w xs)[i]? = some (
      let window := (List.range w).map fun k => if i + k < w / 2 then none else xs.getD (i + k - w / 2) none
      if window.all Option.isSome then some ((window.filterMap id).sum / (w : ℚ)) else none) := by
  unfold rollMean
  rw [List.getElem?_map, List.getElem?_range hi]
  rfl

/-- The centred rolling mean at position `i` looks no further than `w - 1 - w/2` positions ahead. -/
theorem rollMean_congr {w : Nat} {xs ys : List (Option ℚ)} {i : Nat} (hl : xs.length = ys.length) (hi : i < xs.length)
    (h : ∀ j, j + w / 2 < i + w → xs[j]? = ys[j]?) : (rollMean w xs)[i]? = (rollMean w ys)[i]? := by
  rw [rollMean_getElem? hi, rollMean_getElem? (hl ▸ hi)]
  have : ((List.range w).map fun k => if i + k < w / 2 then none else xs.getD (i + k - w / 2) none)
      = ((List.range w).map fun k => if i + k < w / 2 then none else ys.getD (i + k - w / 2) none) := by
    apply List.map_congr_left
    intro k hk
    rw [List.mem_range] at hk
    by_cases hlt : i + k < w / 2
    · rw [if_pos hlt, if_pos hlt]
    · rw [if_neg hlt, if_neg hlt, List.getD_eq_getElem?_getD, List.getD_eq_getElem?_getD, h _ (by omega)]
  rw [this]

end MarEx
