import Verif.Props.Detrend
/-! C88: detrending followed by a daily climatology (`method_anomaly="detrend_fixed_baseline"`). -/
namespace MarEx.Props
open MarEx Spec

theorem dayMean_congr {n : Nat} (doy : Fin n → Nat) (v : Fin n → ℝ) {s t : Fin n} (h : doy s = doy t) : dayMean doy v s = dayMean doy v t := by
  unfold dayMean; rw [h]

theorem sum_dayMean {n : Nat} (doy : Fin n → Nat) (v : Fin n → ℝ) (day : Nat) :
    ∑ t with doy t = day, dayMean doy v t = ∑ t with doy t = day, v t := by
  have h1 : ∀ t ∈ Finset.univ.filter (fun t => doy t = day), dayMean doy v t =
      (∑ s with doy s = day, v s) / ((Finset.univ.filter fun s => doy s = day).card : ℝ) := by
    intro t ht
    rw [Finset.mem_filter] at ht
    unfold dayMean; rw [ht.2]
  rw [Finset.sum_congr rfl h1, Finset.sum_const, nsmul_eq_mul]
  by_cases hc : (Finset.univ.filter fun s => doy s = day).card = 0
  · rw [Finset.card_eq_zero] at hc
    simp [hc]
  · have : ((Finset.univ.filter fun s => doy s = day).card : ℝ) ≠ 0 := by exact_mod_cast hc
    field_simp

/-- C88: the anomalies average to zero over every day of year. -/
theorem C88_day_means_zero {n : Nat} (orders : List Nat) (forceZeroMean : Bool) (dy : Fin n → ℝ) (doy : Fin n → Nat)
    (P : Matrix (Fin n) (Fin (modelRows orders false dy).length) ℝ) (d : Fin n → ℝ) (day : Nat) :
    ∑ t with doy t = day, detrendFixed orders forceZeroMean dy doy P d t = 0 := by
  unfold detrendFixed
  rw [Finset.sum_sub_distrib, sum_dayMean, sub_self]

/-- C88: what is removed from the data is a combination of the constant and the requested powers of time, plus a value for each day of year. -/
theorem C88_removed {n : Nat} (orders : List Nat) (forceZeroMean : Bool) (dy : Fin n → ℝ) (doy : Fin n → Nat)
    (P : Matrix (Fin n) (Fin (modelRows orders false dy).length) ℝ) (hP : IsPinv (modelMatrix orders false dy) P) (d : Fin n → ℝ) :
    ∃ trend ∈ Submodule.span ℝ {c | Fitted orders false dy c}, ∃ cycle : Nat → ℝ,
      ∀ t, detrendFixed orders forceZeroMean dy doy P d t = d t - trend t - cycle (doy t) := by
  have h := C36_least_squares_residual orders false forceZeroMean dy P hP d
  refine ⟨_, h.1, fun day => (∑ s with doy s = day, detrended orders false forceZeroMean dy P d s) /
    ((Finset.univ.filter fun s => doy s = day).card : ℝ), ?_⟩
  intro t
  simp only [detrendFixed, dayMean, Pi.sub_apply]
  ring

/-- C88: adding any combination of the constant and the requested powers of time to the data does not change the anomalies. -/
theorem C88_trend_invariance {n : Nat} (orders : List Nat) (forceZeroMean : Bool) (dy : Fin n → ℝ) (doy : Fin n → Nat)
    (P : Matrix (Fin n) (Fin (modelRows orders false dy).length) ℝ) (hP : IsPinv (modelMatrix orders false dy) P)
    (d e : Fin n → ℝ) (he : e ∈ Submodule.span ℝ {c | Fitted orders false dy c}) :
    detrendFixed orders forceZeroMean dy doy P (d + e) = detrendFixed orders forceZeroMean dy doy P d := by
  unfold detrendFixed
  rw [C36_component_invariance orders false forceZeroMean dy P hP d e he]

/-- C88: force_zero_mean changes nothing. -/
theorem C88_force_zero_mean {n : Nat} (orders : List Nat) (dy : Fin n → ℝ) (doy : Fin n → Nat)
    (P : Matrix (Fin n) (Fin (modelRows orders false dy).length) ℝ) (hP : IsPinv (modelMatrix orders false dy) P) (d : Fin n → ℝ) :
    detrendFixed orders true dy doy P d = detrendFixed orders false dy doy P d := by
  unfold detrendFixed
  rw [(C36_force_zero_mean orders false dy P hP d).2]

/-- The fit of a straight line: constant and slope, with the slope times the variance of time equal to the covariance of time and data. -/
theorem linear_fit {n : Nat} (force : Bool) (dy : Fin n → ℝ) (P : Matrix (Fin n) (Fin (modelRows [1] false dy).length) ℝ)
    (hP : IsPinv (modelMatrix [1] false dy) P) (d : Fin n → ℝ) :
    ∃ a b : ℝ, (∀ t, detrended [1] false force dy P d t = d t - (a + b * (dy t - timeMean dy))) ∧
      b * ∑ t, (dy t - timeMean dy) ^ 2 = ∑ t, (dy t - timeMean dy) * d t := by
  have h := C36_least_squares_residual [1] false force dy P hP d
  have hset : {c | Fitted [1] false dy c} = ({(fun _ => 1), (fun t => dy t - timeMean dy)} : Set (Fin n → ℝ)) := by
    ext c
    simp only [Set.mem_ofPred_eq, Set.mem_insert_iff, Set.mem_singleton_iff]
    constructor
    · intro hc
      cases hc with
      | constant => exact Or.inl rfl
      | trend o ho =>
        simp only [List.mem_singleton] at ho
        subst ho
        right; funext t; simp
      | sine k hh _ => cases hh
      | cosine k hh _ => cases hh
    · rintro (rfl | rfl)
      · exact .constant
      · have := Fitted.trend (orders := [1]) (harmonics := false) (dy := dy) 1 (by simp)
        simpa using this
  rw [hset] at h
  obtain ⟨a, b, hab⟩ := Submodule.mem_span_pair.1 h.1
  have hval : ∀ t, detrended [1] false force dy P d t = d t - (a + b * (dy t - timeMean dy)) := by
    intro t
    have := congrFun hab t
    simp only [Pi.add_apply, Pi.smul_apply, smul_eq_mul, mul_one, Pi.sub_apply] at this
    linarith
  refine ⟨a, b, hval, ?_⟩
  have horth := h.2 (fun t => dy t - timeMean dy) (by simp)
  have hc0 : ∑ t, (dy t - timeMean dy) = 0 := by
    rw [Finset.sum_sub_distrib, Finset.sum_const, nsmul_eq_mul, Finset.card_univ, Fintype.card_fin]
    unfold timeMean
    by_cases hn : (n : ℝ) = 0
    · have : n = 0 := by exact_mod_cast hn
      subst this; simp
    · field_simp; ring
  have : ∑ t, (dy t - timeMean dy) * detrended [1] false force dy P d t =
      ∑ t, (dy t - timeMean dy) * d t - a * ∑ t, (dy t - timeMean dy) - b * ∑ t, (dy t - timeMean dy) ^ 2 := by
    rw [Finset.mul_sum, Finset.mul_sum, ← Finset.sum_sub_distrib, ← Finset.sum_sub_distrib]
    apply Finset.sum_congr rfl
    intro t _
    rw [hval t]; ring
  rw [this, hc0] at horth
  linarith

/-- C140 fails for the seasonal cycle: a series that depends on the day of year only, and correlates with time, does not have zero anomalies. Part of the
cycle is removed as a trend, and the two steps of one day of year keep that difference. -/
theorem C140_seasonal_cycle_fails {n : Nat} (force : Bool) (dy : Fin n → ℝ) (doy : Fin n → Nat)
    (P : Matrix (Fin n) (Fin (modelRows [1] false dy).length) ℝ) (hP : IsPinv (modelMatrix [1] false dy) P) (cycle : Nat → ℝ)
    (hcorr : ∑ t, (dy t - timeMean dy) * cycle (doy t) ≠ 0) (s t : Fin n) (hday : doy s = doy t) (hst : dy s ≠ dy t) :
    detrendFixed [1] force dy doy P (fun t => cycle (doy t)) s ≠ detrendFixed [1] force dy doy P (fun t => cycle (doy t)) t := by
  obtain ⟨a, b, hval, hb⟩ := linear_fit force dy P hP (fun t => cycle (doy t))
  have hb0 : b ≠ 0 := by
    rintro rfl
    rw [zero_mul] at hb
    exact hcorr hb.symm
  intro heq
  simp only [detrendFixed] at heq
  rw [dayMean_congr doy _ hday, hval s, hval t, hday] at heq
  have : b * (dy s - dy t) = 0 := by linarith
  rcases mul_eq_zero.1 this with h | h
  · exact hb0 h
  · exact hst (by linarith)

/-- C140 fails for the trend: the anomalies of such a series have a linear trend again, opposite to the one that was removed. -/
theorem C140_trend_left_fails {n : Nat} (force : Bool) (dy : Fin n → ℝ) (doy : Fin n → Nat)
    (P : Matrix (Fin n) (Fin (modelRows [1] false dy).length) ℝ) (hP : IsPinv (modelMatrix [1] false dy) P) (cycle : Nat → ℝ)
    (hcorr : ∑ t, (dy t - timeMean dy) * cycle (doy t) ≠ 0) (s t : Fin n) (hday : doy s = doy t) (hst : dy s ≠ dy t) :
    ∑ t, (dy t - timeMean dy) * detrendFixed [1] force dy doy P (fun t => cycle (doy t)) t ≠ 0 := by
  obtain ⟨a, b, hval, hb⟩ := linear_fit force dy P hP (fun t => cycle (doy t))
  have hb0 : b ≠ 0 := by
    rintro rfl
    rw [zero_mul] at hb
    exact hcorr hb.symm
  have hf : ∀ u, detrendFixed [1] force dy doy P (fun t => cycle (doy t)) u = -b * (dy u - dayMean doy dy u) := by
    intro u
    simp only [detrendFixed]
    have hm : dayMean doy (detrended [1] false force dy P fun t => cycle (doy t)) u =
        cycle (doy u) - (a + b * (dayMean doy dy u - timeMean dy)) := by
      have hpos : ((Finset.univ.filter fun s => doy s = doy u).card : ℝ) ≠ 0 := by
        have : (Finset.univ.filter fun s => doy s = doy u).card ≠ 0 := by
          rw [Finset.card_ne_zero]; exact ⟨u, by simp⟩
        exact_mod_cast this
      unfold dayMean
      have h1 : ∀ w ∈ Finset.univ.filter (fun w => doy w = doy u), detrended [1] false force dy P (fun t => cycle (doy t)) w =
          (cycle (doy u) - a + b * timeMean dy) - b * dy w := by
        intro w hw
        rw [hval w, (Finset.mem_filter.1 hw).2]; ring
      rw [Finset.sum_congr rfl h1, Finset.sum_sub_distrib, Finset.sum_const, nsmul_eq_mul, ← Finset.mul_sum]
      field_simp
      ring
    rw [hm, hval u]; ring
  -- the deviations from the day means are orthogonal to the day means
  have hpart : ∀ g : Fin n → ℝ, (∀ u w, doy u = doy w → g u = g w) → ∑ u, g u * (dy u - dayMean doy dy u) = 0 := by
    intro g hg
    rw [← Finset.sum_fiberwise_of_maps_to (s := Finset.univ) (t := Finset.univ.image doy) (g := doy) (by intro x _; simp)]
    apply Finset.sum_eq_zero
    intro day hday
    obtain ⟨u, _, rfl⟩ := Finset.mem_image.1 hday
    have : ∀ w ∈ Finset.univ.filter (fun w => doy w = doy u), g w * (dy w - dayMean doy dy w) = g u * (dy w - dayMean doy dy w) := by
      intro w hw
      rw [hg w u (Finset.mem_filter.1 hw).2]
    rw [Finset.sum_congr rfl this, ← Finset.mul_sum, Finset.sum_sub_distrib, sum_dayMean, sub_self, mul_zero]
  have hsum : ∑ u, (dy u - timeMean dy) * detrendFixed [1] force dy doy P (fun t => cycle (doy t)) u =
      -b * ∑ u, (dy u - dayMean doy dy u) ^ 2 := by
    have h1 := hpart (fun u => dayMean doy dy u - timeMean dy) (fun u w h => by rw [dayMean_congr doy dy h])
    have : ∀ u, (dy u - timeMean dy) * detrendFixed [1] force dy doy P (fun t => cycle (doy t)) u =
        -b * (dy u - dayMean doy dy u) ^ 2 + -b * ((dayMean doy dy u - timeMean dy) * (dy u - dayMean doy dy u)) := by
      intro u; rw [hf u]; ring
    rw [Finset.sum_congr rfl fun u _ => this u, Finset.sum_add_distrib, ← Finset.mul_sum, ← Finset.mul_sum, h1]
    ring
  rw [hsum]
  refine mul_ne_zero (neg_ne_zero.2 hb0) ?_
  intro h0
  have h1 := (Finset.sum_eq_zero_iff_of_nonneg fun u _ => sq_nonneg (dy u - dayMean doy dy u)).1 h0
  have hs := pow_eq_zero_iff (two_ne_zero) |>.1 (h1 s (Finset.mem_univ s))
  have ht := pow_eq_zero_iff (two_ne_zero) |>.1 (h1 t (Finset.mem_univ t))
  rw [dayMean_congr doy dy hday] at hs
  exact hst (by linarith)

/-- Two years of two days each, warmer on the second day, meet the hypotheses of the two theorems above. -/
example : ∃ (dy : Fin 4 → ℝ) (doy : Fin 4 → Nat) (cycle : Nat → ℝ), ∑ t, (dy t - timeMean dy) * cycle (doy t) ≠ 0 ∧
    doy 0 = doy 2 ∧ dy 0 ≠ dy 2 := by
  refine ⟨fun t => (t.val : ℝ) / 2, fun t => t.val % 2 + 1, fun d => d, ?_, rfl, by norm_num⟩
  unfold timeMean
  norm_num [Fin.sum_univ_four]

end MarEx.Props
