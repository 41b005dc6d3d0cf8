import Verif.Model.Samples
import Verif.Props.NameUse
/-! C176: thin samples are announced. -/
namespace MarEx.Props
open MarEx Spec

/-- No date occurs twice. -/
def OncePerDate (record : List Sample) : Prop := record.Pairwise fun a b => ¬ (a.year = b.year ∧ a.doy = b.doy)

/-- All cells have the same dates. -/
def SameDates (recs : Nat → Nat → List Sample) : Prop :=
  ∀ y x, (recs y x).map (fun s => (s.year, s.doy)) = (recs 0 0).map fun s => (s.year, s.doy)

/-- The values from which the threshold of a cell and a day of year (from 0) is computed: exact method and approximate method. -/
def samplePool (P : ExtParams) (w s ny nx : Nat) (recs : Nat → Nat → List Sample) (y x d : Nat) : List ℚ :=
  if P.methodPercentile = "exact" then stepPool (w / 2) (recs y x) (d + 1) else (windowSamples s ny nx w recs y x d).filterMap id

theorem steps_per_day (record : List Sample) (h : OncePerDate record) (d : Nat) :
    (record.filter fun r => decide (r.doy = d)).length ≤ (npUnique (record.map Sample.year)).length := by
  have hnd : ((record.filter fun r => decide (r.doy = d)).map Sample.year).Nodup := by
    rw [List.Nodup, List.pairwise_map, List.pairwise_filter]
    refine h.imp ?_
    intro a b hab ha hb e
    simp only [decide_eq_true_eq] at ha hb
    exact hab ⟨e, ha.trans hb.symm⟩
  have hsub : (record.filter fun r => decide (r.doy = d)).map Sample.year ⊆ npUnique (record.map Sample.year) := by
    intro k hk
    obtain ⟨r, hr, rfl⟩ := List.mem_map.mp hk
    exact mem_npUnique.mpr (List.mem_map_of_mem (List.mem_filter.mp hr).1)
  simpa using (List.subperm_of_subset hnd hsub).length_le

theorem same_dates_facts {recs : Nat → Nat → List Sample} (hs : SameDates recs) (h : OncePerDate (recs 0 0)) (y x : Nat) :
    OncePerDate (recs y x) ∧ (recs y x).map Sample.year = (recs 0 0).map Sample.year := by
  have e := hs y x
  constructor
  · have h' : ((recs 0 0).map fun s => (s.year, s.doy)).Pairwise fun a b => ¬ (a.1 = b.1 ∧ a.2 = b.2) := by
      rw [List.pairwise_map]; exact h
    rw [← e, List.pairwise_map] at h'
    exact h'
  · have := congrArg (List.map Prod.fst) e
    simpa [List.map_map, Function.comp_def] using this

theorem flatMap_length_le {α β} (l : List α) (f : α → List β) (k : Nat) (h : ∀ a ∈ l, (f a).length ≤ k) : (l.flatMap f).length ≤ l.length * k := by
  induction l with
  | nil => simp
  | cons a l ih =>
    rw [List.flatMap_cons, List.length_append, List.length_cons]
    have := h a (by simp)
    have := ih fun b hb => h b (by simp [hb])
    linarith [Nat.succ_mul l.length k]

theorem flatMap_filter_eq {α β} (l : List α) (p : α → Bool) (f : α → List β) :
    (l.filter p).flatMap f = l.flatMap fun a => if p a then f a else [] := by
  induction l with
  | nil => rfl
  | cons a l ih =>
    rw [List.filter_cons, List.flatMap_cons, ← ih]
    cases p a <;> simp

theorem filterMap_length_le_filter {α β} (l : List α) (p : α → Prop) [DecidablePred p] (f : α → Option β) :
    (l.filterMap fun a => if p a then f a else none).length ≤ (l.filter fun a => decide (p a)).length := by
  induction l with
  | nil => simp
  | cons a l ih =>
    rw [List.filterMap_cons, List.filter_cons]
    by_cases h : p a
    · simp only [h, if_true, decide_true]
      cases f a <;> simp only [List.length_cons] <;> omega
    · simpa [h] using ih

theorem near_steps (n i h : Nat) : ((List.range n).filter fun j => decide (i ≤ j + h ∧ j ≤ i + h)).length ≤ 2 * h + 1 := by
  have hsub : (List.range n).filter (fun j => decide (i ≤ j + h ∧ j ≤ i + h)) ⊆ (List.range (2 * h + 1)).map fun k => i + k - h := by
    intro j hj
    simp only [List.mem_filter, List.mem_range, decide_eq_true_eq] at hj
    rw [List.mem_map]
    exact ⟨j + h - i, List.mem_range.mpr (by omega), by omega⟩
  simpa using (List.subperm_of_subset (List.nodup_range.filter _) hsub).length_le

theorem stepPool_length (h : Nat) (record : List Sample) (hr : OncePerDate record) (d : Nat) :
    (stepPool h record d).length ≤ (npUnique (record.map Sample.year)).length * (2 * h + 1) := by
  have e : stepPool h record d = ((List.range record.length).filter fun i => decide ((record.map Sample.doy)[i]? = some d)).flatMap fun i =>
      (List.range record.length).filterMap fun j => if i ≤ j + h ∧ j ≤ i + h then (record[j]?).bind Sample.val else none := by
    unfold stepPool
    rw [flatMap_filter_eq]
    congr 1
    funext i
    cases hi : record[i]? with
    | none => simp [hi]
    | some s =>
      by_cases hd : s.doy = d <;> simp [hi, hd]
  have hcount : ((List.range record.length).filter fun i => decide ((record.map Sample.doy)[i]? = some d)).length =
      (record.filter fun r => decide (r.doy = d)).length := by
    clear e hr
    induction record using List.reverseRecOn with
    | nil => rfl
    | append_singleton l a ih =>
      rw [List.length_append, List.length_singleton, List.range_succ, List.filter_append, List.filter_append, List.length_append, List.length_append, ← ih]
      congr 1
      · congr 1
        apply List.filter_congr
        intro i hi
        rw [List.mem_range] at hi
        rw [List.map_append, List.getElem?_append_left (by simpa using hi)]
      · have : ((l ++ [a]).map Sample.doy)[l.length]? = some a.doy := by simp
        simp only [List.filter_cons, this, List.filter_nil, Option.some.injEq]
        by_cases ha : a.doy = d <;> simp [ha]
  rw [e]
  refine (flatMap_length_le _ _ (2 * h + 1) ?_).trans ?_
  · intro i _
    refine le_trans ?_ (near_steps record.length i h)
    exact filterMap_length_le_filter _ _ _
  · rw [hcount]
    exact Nat.mul_le_mul_right _ (steps_per_day record hr d)

theorem windowSamples_length (s ny nx w : Nat) (recs : Nat → Nat → List Sample) (hs : SameDates recs) (h : OncePerDate (recs 0 0)) (y x d : Nat) :
    (windowSamples s ny nx w recs y x d).length ≤ w * (s * s * (npUnique ((recs 0 0).map Sample.year)).length) := by
  unfold windowSamples
  have hd : (dayWindow w d).length = w := by simp [dayWindow]
  have hc : (cellWindow s ny nx y x).length ≤ s * s := by
    unfold cellWindow
    have h1 : (latWindow s ny y).length ≤ s := by
      unfold latWindow
      exact (List.length_filterMap_le _ _).trans (by simp)
    refine (flatMap_length_le _ _ s (fun a _ => by simp [lonWindow])).trans ?_
    exact Nat.mul_le_mul_right _ h1
  refine (flatMap_length_le _ _ (s * s * (npUnique ((recs 0 0).map Sample.year)).length) ?_).trans (by rw [hd])
  intro k _
  refine (flatMap_length_le _ _ (npUnique ((recs 0 0).map Sample.year)).length ?_).trans (Nat.mul_le_mul_right _ hc)
  intro c _
  rw [List.length_map]
  obtain ⟨h1, h2⟩ := same_dates_facts hs h c.1 c.2
  have := steps_per_day _ h1 (k + 1)
  rwa [h2] at this

/-- **C176**, half of it: a warning is never given in vain.  If `identify_extremes` warns, then for every cell and every day of year fewer than 50 of the samples
behind its threshold are expected above the percentile.  Missing: that it warns whenever this is so, see below. -/
theorem C176_warning_true_partial (gridded : Bool) (P : ExtParams) (recs : Nat → Nat → List Sample) (hs : SameDates recs)
    (h1 : OncePerDate (recs 0 0)) (hp : P.percentile ≤ 100) (w : Nat) (hw : P.windowDays = some (w : Int)) (s : Nat) (hs1 : 1 ≤ s)
    (hsp : ((if P.windowSpatial = none ∧ gridded = true then some 5 else P.windowSpatial).getD 1) = (s : Int))
    (hwarn : identifyWarns gridded P recs = true) (ny nx y x d : Nat) :
    ((samplePool P w s ny nx recs y x d).length : ℚ) * (1 - P.percentile / 100) < 50 := by
  unfold identifyWarns at hwarn
  split at hwarn
  · rename_i w' s' hc
    have hd : dispatch gridded P = .ok (.hobday w' s') := by
      unfold checkExtremes at hc
      split at hc
      · cases hc
      split at hc
      · cases hc
      split at hc
      · cases hc
      split at hc
      · cases hc
      exact hc
    have hdays : checkDays P = .ok () := by
      unfold checkExtremes at hc
      split at hc
      · cases hc
      split at hc
      · cases hc
      split at hc
      · cases hc
      · assumption
    have hcfg : P.methodExtreme = "hobday_extreme" ∧ w' = w ∧ s' = effectiveSpatial gridded P := by
      unfold dispatch at hd
      split at hd
      · cases hd
      · split at hd
        · rw [hw] at hd
          cases hd
          exact ⟨by assumption, rfl, rfl⟩
        · cases hd
    obtain ⟨hm, rfl, rfl⟩ := hcfg
    have hodd : w % 2 = 1 := by
      unfold checkDays at hdays
      rw [hw] at hdays
      dsimp only at hdays
      split at hdays
      · cases hdays
      · rename_i hn
        rw [not_and] at hn
        have := hn hm
        omega
    have he : (effectiveSpatial gridded P).getD 1 = (s : Int) := by
      rw [← hsp]
      unfold effectiveSpatial
      cases P.windowSpatial with
      | some k => simp
      | none => simp [hm]
    unfold warnsFew at hwarn
    rw [he, decide_eq_true_eq] at hwarn
    have hlen : (samplePool P w s ny nx recs y x d).length ≤ (npUnique ((recs 0 0).map Sample.year)).length * w * (s * s) := by
      unfold samplePool
      obtain ⟨g1, g2⟩ := same_dates_facts hs h1 y x
      split
      · have := stepPool_length (w / 2) _ g1 (d + 1)
        rw [g2] at this
        rw [show 2 * (w / 2) + 1 = w by omega] at this
        exact this.trans (Nat.le_mul_of_pos_right _ (Nat.mul_pos hs1 hs1))
      · refine (List.length_filterMap_le _ _).trans ((windowSamples_length s ny nx w recs hs h1 y x d).trans (le_of_eq ?_))
        ring
    have hq : (0 : ℚ) ≤ 1 - P.percentile / 100 := by linarith
    refine lt_of_le_of_lt (mul_le_mul_of_nonneg_right (Nat.cast_le.mpr hlen) hq) ?_
    push_cast
    push_cast at hwarn
    linarith
  · cases hwarn

/-- **C176 fails** for exact percentiles on every grid: the default spatial window of 5 by 5 cells is counted although no cells are pooled, so there is no
warning with up to 25 times too few samples: at the 95th percentile and with windows of 11 days, for records of 4 to 90 years. -/
theorem C176_exact_silent_fails (P : ExtParams) (recs : Nat → Nat → List Sample) (hs : SameDates recs) (h1 : OncePerDate (recs 0 0))
    (hm : P.methodExtreme = "hobday_extreme") (hx : P.methodPercentile = "exact") (w : Nat) (hw : P.windowDays = some (w : Int)) (hodd : w % 2 = 1)
    (hp : P.percentile ≤ 100) (Y : Nat) (hY : (npUnique ((recs 0 0).map Sample.year)).length = Y)
    (hfew : (Y : ℚ) * w * (1 - P.percentile / 100) < 50) (hmany : 50 ≤ (Y : ℚ) * w * 25 * (1 - P.percentile / 100)) (ny nx : Nat) :
    identifyWarns true P recs = false ∧
    ∀ y x d, ((samplePool P w 1 ny nx recs y x d).length : ℚ) * (1 - P.percentile / 100) < 50 := by
  constructor
  · unfold identifyWarns
    split
    · rename_i w' s' hc
      have hd : dispatch true P = .ok (.hobday w' s') ∧ checkSpatial true P = .ok () := by
        unfold checkExtremes at hc
        split at hc
        · cases hc
        split at hc
        · cases hc
        rename_i hsp
        split at hc
        · cases hc
        split at hc
        · cases hc
        exact ⟨hc, hsp⟩
      have hnone : P.windowSpatial = none := by
        cases hk : P.windowSpatial with
        | none => rfl
        | some k => exfalso; have := hd.2; simp [checkSpatial, hk, hm, hx] at this
      have := hd.1
      simp [dispatch, hm, hw, effectiveSpatial, hnone] at this
      obtain ⟨rfl, rfl⟩ := this
      unfold warnsFew
      rw [hY, decide_eq_false_iff_not, not_lt]
      push_cast
      rw [show ((((some (5 : Int)).getD 1 : Int) : ℚ)) = 5 by norm_num]
      linarith
    · rfl
  · intro y x d
    unfold samplePool
    rw [if_pos hx]
    obtain ⟨g1, g2⟩ := same_dates_facts hs h1 y x
    have := stepPool_length (w / 2) _ g1 (d + 1)
    rw [g2, show 2 * (w / 2) + 1 = w by omega, hY] at this
    have hq : (0 : ℚ) ≤ 1 - P.percentile / 100 := by linarith
    refine lt_of_le_of_lt (mul_le_mul_of_nonneg_right (Nat.cast_le.mpr this) hq) ?_
    push_cast
    exact hfew

/-- Four years, one step per year and cell. -/
def fourYears : Nat → Nat → List Sample := fun _ _ => (List.range 4).map fun k => ⟨2000 + k, 1, some k⟩

example : SameDates fourYears ∧ OncePerDate (fourYears 0 0) ∧ (npUnique ((fourYears 0 0).map Sample.year)).length = 4 := by
  refine ⟨fun _ _ => rfl, ?_, by decide +kernel⟩
  unfold OncePerDate fourYears
  rw [List.pairwise_map]
  exact List.nodup_range.imp fun h => by simpa using h

/-- The numbers of the fails theorem for these four years, and a warning for a mesh. -/
example : (4 : ℚ) * (11 : ℕ) * (1 - 95 / 100) < 50 ∧ 50 ≤ (4 : ℚ) * (11 : ℕ) * 25 * (1 - 95 / 100) := by norm_num
example : identifyWarns false ⟨"hobday_extreme", 95, some 11, none, "approximate", 1 / 100, 5⟩ fourYears = true ∧
    identifyWarns true ⟨"hobday_extreme", 95, some 11, none, "exact", 1 / 100, 5⟩ fourYears = false := by decide +kernel

end MarEx.Props
