import Verif.Lemmas.Quantile
import Verif.Lemmas.Util
/-! C37–C41, C69–C72: thresholds and extremes. -/
namespace MarEx.Props
open MarEx Spec

/-! ### C37: extremes are anomalies at or above their threshold -/

/-- C37 (day-of-year thresholds): a step is extreme iff its anomaly is a number at least as large as the threshold of its day of year.
In particular missing anomalies are never extreme, and neither is any step on a day without threshold. -/
theorem C37_extreme_iff_hobday (record : List Sample) (ts : List (Option ℚ)) :
    (extremesHobday record ts).length = record.length ∧
    ∀ (i : Nat) (s : Sample), record[i]? = some s → ∃ e, (extremesHobday record ts)[i]? = some e ∧
      (e = true ↔ ∃ v t, s.val = some v ∧ ts[s.doy - 1]? = some (some t) ∧ t ≤ v) := by
  refine ⟨by simp [extremesHobday], fun i s hs => ⟨geNaN s.val (ts.getD (s.doy - 1) none), by simp [extremesHobday, hs], ?_⟩⟩
  rw [List.getD_eq_getElem?_getD]
  cases hv : s.val with
  | none => simp [geNaN]
  | some v =>
    cases ht : ts[s.doy - 1]? with
    | none => simp [geNaN]
    | some t =>
      cases t with
      | none => simp [geNaN]
      | some t => simp [geNaN]

example : extremesHobday [⟨2000, 1, some 3⟩, ⟨2000, 2, some 3⟩, ⟨2001, 1, some 2⟩, ⟨2001, 2, none⟩, ⟨2002, 2, some 4⟩, ⟨2002, 3, some 4⟩]
    [some 3, some 4, none] = [true, false, false, false, true, false] := by decide +kernel

/-- C37 (one threshold per cell). -/
theorem C37_extreme_iff_constant (vs : List (Option ℚ)) (t : Option ℚ) :
    (extremesConstant vs t).length = vs.length ∧
    ∀ (i : Nat) (v : Option ℚ), vs[i]? = some v → ∃ e, (extremesConstant vs t)[i]? = some e ∧
      (e = true ↔ ∃ x y, v = some x ∧ t = some y ∧ y ≤ x) := by
  refine ⟨by simp [extremesConstant], fun i v hv => ⟨geNaN v t, by simp [extremesConstant, hv], ?_⟩⟩
  cases v <;> cases t <;> simp [geNaN]

example : extremesConstant [some 1, none, some 2, some 3] (some 2) = [false, false, true, true] := by decide +kernel

/-- C37: raising thresholds never adds extremes. -/
theorem C37_raising_thresholds (record : List Sample) (lower higher : List (Option ℚ))
    (h : ∀ (d : Nat) (t : ℚ), higher[d]? = some (some t) → ∃ t', lower[d]? = some (some t') ∧ t' ≤ t) (i : Nat)
    (he : (extremesHobday record higher)[i]? = some true) : (extremesHobday record lower)[i]? = some true := by
  have hlt : i < record.length := by
    have := (List.getElem?_eq_some_iff.1 he).1
    rwa [(C37_extreme_iff_hobday record higher).1] at this
  obtain ⟨e, h1, h2⟩ := (C37_extreme_iff_hobday record higher).2 i _ (List.getElem?_eq_getElem hlt)
  obtain ⟨e', h3, h4⟩ := (C37_extreme_iff_hobday record lower).2 i _ (List.getElem?_eq_getElem hlt)
  rw [h1] at he
  obtain ⟨v, t, hv, ht, hle⟩ := h2.1 (Option.some.inj he)
  obtain ⟨t', ht', hle'⟩ := h _ t ht
  rw [h3, h4.2 ⟨v, t', hv, ht', le_trans hle' hle⟩]

example : (extremesHobday [⟨2000, 1, some 3⟩] [some 3])[0]? = some true ∧ (extremesHobday [⟨2000, 1, some 3⟩] [some 2])[0]? = some true := by
  decide +kernel

/-! ### C38: monotone in the percentile, bounded by the bins -/

/-- C38 (day-of-year thresholds): for every data set and every pair of percentiles, the thresholds of the larger percentile are missing on the
same days and otherwise at least as large; all lie between the precision and half a bin above `max_anomaly`. -/
theorem C38_hobday_monotone_bounded (p mx : ℚ) (hp : 0 < p) (hmx : p < mx) (w s ny nx : Nat) (hodd : w % 2 = 1) (h3 : 3 ≤ w) (hw : w ≤ 733)
    (hs : s % 2 = 1) (hnx : s / 2 ≤ nx) (recs : Nat → Nat → List Sample) (y x : Nat) (hy : y < ny) (hx : x < nx)
    (q₁ q₂ : ℚ) (h0 : 0 ≤ q₁) (h12 : q₁ ≤ q₂) (h1 : q₂ ≤ 1) :
    ∃ a b, gridThresholds p mx q₁ w s ny nx recs y x = .ok a ∧ gridThresholds p mx q₂ w s ny nx recs y x = .ok b ∧
      a.length = 366 ∧ b.length = 366 ∧
      ∀ d, d < 366 → (a[d]? = some none ∧ b[d]? = some none) ∨
        ∃ t₁ t₂, a[d]? = some (some t₁) ∧ b[d]? = some (some t₂) ∧ t₁ ≤ t₂ ∧ p ≤ t₁ ∧ t₂ < mx + p / 2 := by
  have h4 := nBins_ge4 hp hmx
  refine ⟨_, _, gridThresholds_eq p mx q₁ w s ny nx hodd h3 hw hs hnx recs y x hy hx,
    gridThresholds_eq p mx q₂ w s ny nx hodd h3 hw hs hnx recs y x hy hx, by simp, by simp, fun d hd => ?_⟩
  simp only [List.getElem?_map, List.getElem?_range hd, Option.map_some]
  by_cases hn : ((recs y x).map Sample.val).headD none = none
  · left; rw [if_pos hn]; exact ⟨rfl, by rw [if_pos hn]⟩
  rw [if_neg hn, if_neg hn]
  by_cases hz : (histCounts p mx (windowSamples s ny nx w recs y x d)).sum = 0
  · left; rw [rowQuantile_none _ _ _ hz, rowQuantile_none _ _ _ hz]; exact ⟨rfl, rfl⟩
  right
  obtain ⟨t₁, t₂, e1, e2, hle, hlo, hhi⟩ := row_mono hp (by omega : 3 ≤ nBins p mx) h0 h12 h1 _ _ (length_histCounts p mx _)
    (length_histCounts p mx _) rfl (Nat.pos_of_ne_zero hz) (fun k => le_refl (cumOf (histCounts p mx (windowSamples s ny nx w recs y x d)) k)) (fun _ => Or.inr rfl)
  refine ⟨t₁, t₂, by rw [e1], by rw [e2], hle, hlo, lt_of_le_of_lt hhi (max_lt ?_ ?_)⟩
  · linarith
  · rw [centreOf_pos (by omega), Nat.cast_sub (by omega)]
    have := (nBins_bounds (mx := mx) hp (by linarith)).2
    push_cast
    linarith

example : (0 : ℚ) < 1 / 100 ∧ (1 / 100 : ℚ) < 5 ∧ 11 % 2 = 1 ∧ 5 % 2 = 1 ∧ (0 : ℚ) ≤ 9 / 10 ∧ (9 / 10 : ℚ) ≤ 95 / 100 := by norm_num

theorem threshold1d_numbers {p mx : ℚ} (h3 : 3 ≤ nBins p mx) (q : ℚ) (S : List ℚ) :
    threshold1d p mx q (S.map some) = some (max p (quantile1d q (binCentres p mx) (histCounts1d p mx (S.map some)))) := by
  unfold threshold1d
  rw [if_neg (by simp), applyFloor_some h3]

theorem c1_le (p : ℚ) (hp : 0 < p) {k : Nat} (hk : 1 ≤ k) : centreOf p 1 ≤ centreOf p k := centreOf_mono hp (le_refl 1) hk

/-- The one-dimensional quantile, before the lower bound, is bounded by a point of the last bin. -/
theorem quantile1d_le {p mx : ℚ} (hp : 0 < p) (h4 : 4 ≤ nBins p mx) (q : ℚ) (hq : q ≤ 1) (hist : List Nat) (hl : hist.length = nBins p mx)
    (hn : hist.sum ≤ 1000000000) : quantile1d q (binCentres p mx) hist ≤ max 0 (centreOf p (nBins p mx - 2) + 5 / 4 * p) := by
  have hc : ∀ k, 1 ≤ k → k + 2 ≤ nBins p mx → centreOf p k ≤ centreOf p (nBins p mx - 2) := fun k h1 h2 => centreOf_mono hp h1 (by omega)
  rcases quantile1d_cases hp h4 q hq hist hl hn with ⟨h, _⟩ | ⟨u, hu1, hum, _, _, hin, hla⟩ | ⟨_, _, h⟩ | ⟨L, hL1, hLm, hq0, hlt, _, hin, hla⟩
  · exact le_max_of_le_left h
  · apply le_max_of_le_right
    rcases Nat.lt_or_ge (u + 1) (nBins p mx) with h | h
    · rw [hin (by omega)]
      have := hc u hu1 (by omega)
      linarith
    · obtain ⟨f, hf0, hf1, _, hv⟩ := hla (by omega)
      rw [hv]
      have := mul_le_mul_of_nonneg_right hf1 hp.le
      linarith
  · exact le_max_of_le_left h
  · apply le_max_of_le_right
    rcases Nat.lt_or_ge (L + 1) (nBins p mx) with h | h
    · have hcL := hc L hL1 (by omega)
      have hc1 := c1_le p hp hL1
      rcases hin (by omega) with hv | ⟨rfl, hv⟩
      · rw [hv]
        have hstep := cdfOf_step hist hn hlt
        have hr : 0 ≤ (q - cdfOf hist L) / (cdfOf hist 0 - cdfOf hist L) := by
          apply div_nonneg_of_nonpos <;> linarith
        have : (q - cdfOf hist L) / (cdfOf hist 0 - cdfOf hist L) * (centreOf p 1 - centreOf p L) ≤ 0 :=
          mul_nonpos_of_nonneg_of_nonpos hr (by linarith)
        linarith
      · rw [hv]; linarith
    · rw [hla (by omega)]
      have hc1 := c1_le p hp (show 1 ≤ nBins p mx - 2 by omega)
      split <;> linarith

/-- The order of the one-dimensional quantiles of two percentiles.  They can only be in the wrong order when the second percentile sits exactly 10⁻¹⁰
above the fraction of the first bin and all other samples are in the last bin. -/
theorem quantile1d_order {p mx : ℚ} (hp : 0 < p) (h4 : 4 ≤ nBins p mx) {q₁ q₂ : ℚ} (h12 : q₁ ≤ q₂) (h1 : q₂ ≤ 1) (hist : List Nat)
    (hl : hist.length = nBins p mx) (hn' : hist.sum ≤ 1000000000) :
    max p (quantile1d q₁ (binCentres p mx) hist) ≤ max p (quantile1d q₂ (binCentres p mx) hist) ∨
      (q₂ = cdfOf hist 0 + 1 / 10000000000 ∧ (∀ k, k < nBins p mx - 1 → cdfOf hist k = cdfOf hist 0) ∧
        quantile1d q₁ (binCentres p mx) hist ≤ centreOf p (nBins p mx - 2)) := by
  by_cases hexc : q₂ = cdfOf hist 0 + 1 / 10000000000 ∧ (∀ k, k < nBins p mx - 1 → cdfOf hist k = cdfOf hist 0) ∧
        quantile1d q₁ (binCentres p mx) hist ≤ centreOf p (nBins p mx - 2)
  · exact Or.inr hexc
  left
  have hdown : ∀ t, t ≤ 0 → max p t ≤ max p (quantile1d q₂ (binCentres p mx) hist) :=
    fun t ht => max_le (le_max_left _ _) (le_max_of_le_left (by linarith))
  have hc : ∀ i k, 1 ≤ i → i ≤ k → centreOf p i ≤ centreOf p k := fun i k h1 h2 => centreOf_mono hp h1 h2
  rcases quantile1d_cases hp h4 q₁ (le_trans h12 h1) hist hl hn' with ⟨h, _⟩ | ⟨u, hu1, hum, huq, hub, hin, hla⟩ | ⟨_, _, h⟩ | ⟨L, hL1, hLm, hq0, hlt, hbef, hin, hla⟩
  · exact hdown _ h
  · apply max_le_max_left
    rcases quantile1d_cases hp h4 q₂ h1 hist hl hn' with ⟨_, hz⟩ | ⟨u', hu1', hum', huq', hub', hin', hla'⟩ | ⟨hq, hall, _⟩ | ⟨L, hL1, hLm, hq0, hlt, hbef, _, _⟩
    · -- no samples: the first percentile cannot be in a bin above the first
      exfalso
      have hz' : ∀ k, cumOf hist k = 0 := by
        intro k
        rcases Nat.lt_or_ge (k + 1) hist.length with hk | hk
        · have := cumOf_mono hist (i := k) (j := hist.length - 1) (by omega)
          rw [cumOf_last hist (k := hist.length - 1) (by omega)] at this
          omega
        · rw [cumOf_last hist hk, hz]
      have h0 := hub 0 (by omega)
      unfold cdfOf at h0 huq
      rw [hz'] at h0 huq
      simp only [Nat.cast_zero, zero_div] at h0 huq
      linarith
    · have huu : u ≤ u' := by
        by_contra hcon
        have := hub u' (by omega)
        linarith
      rcases Nat.lt_or_ge (u' + 1) (nBins p mx) with h | h
      · rw [hin (by omega), hin' (by omega)]
        exact hc _ _ hu1 huu
      · obtain ⟨f', hf0', _, hfe', hv'⟩ := hla' (by omega)
        rw [hv']
        have hfp := mul_pos hf0' hp
        rcases Nat.lt_or_ge (u + 1) (nBins p mx) with h2 | h2
        · rw [hin (by omega)]
          have := hc u (nBins p mx - 2) hu1 (by omega)
          linarith
        · obtain ⟨f, hf0, _, hfe, hv⟩ := hla (by omega)
          rw [hv]
          have hcl : cdfOf hist (nBins p mx - 2) < cdfOf hist (nBins p mx - 1) := by
            have a1 := hub (nBins p mx - 2) (by omega)
            have : u = nBins p mx - 1 := by omega
            rw [this] at huq
            linarith
          have : f ≤ f' := by
            rw [hfe, hfe']
            apply div_le_div_of_nonneg_right <;> linarith
          have := mul_le_mul_of_nonneg_right this hp.le
          linarith
    · exfalso
      have := hub 0 (by omega)
      linarith
    · exfalso
      have := hub 0 (by omega)
      linarith
  · exact hdown _ h
  · apply max_le_max_left
    rcases quantile1d_cases hp h4 q₂ h1 hist hl hn' with ⟨_, hz⟩ | ⟨u', hu1', hum', huq', hub', hin', hla'⟩ | ⟨hq, hall, _⟩ | ⟨L', hL1', hLm', hq0', hlt', hbef', hin', hla'⟩
    · exfalso
      have h0 : cumOf hist L = 0 := by
        rcases Nat.lt_or_ge (L + 1) hist.length with hk | hk
        · have := cumOf_mono hist (i := L) (j := hist.length - 1) (by omega)
          rw [cumOf_last hist (k := hist.length - 1) (by omega)] at this
          omega
        · rw [cumOf_last hist hk, hz]
      unfold cdfOf at hlt
      rw [h0] at hlt
      have : (0 : ℚ) ≤ (cumOf hist 0 : ℚ) / ((hist.sum : ℚ) + 1 / 10000000000) := by positivity
      simp only [Nat.cast_zero, zero_div] at hlt
      linarith
    · have hLu : L ≤ u' := by
        by_contra hcon
        have := hbef u' (by omega)
        have := hub' 0 (by omega)
        linarith
      have hupper : quantile1d q₁ (binCentres p mx) hist ≤ centreOf p (min L (nBins p mx - 2)) := by
        rcases Nat.lt_or_ge (L + 1) (nBins p mx) with h | h
        · rw [Nat.min_eq_left (by omega)]
          rcases hin (by omega) with hv | ⟨rfl, hv⟩
          · rw [hv]
            have hstep := cdfOf_step hist hn' hlt
            have hr : 0 ≤ (q₁ - cdfOf hist L) / (cdfOf hist 0 - cdfOf hist L) := by
              apply div_nonneg_of_nonpos <;> linarith
            have : (q₁ - cdfOf hist L) / (cdfOf hist 0 - cdfOf hist L) * (centreOf p 1 - centreOf p L) ≤ 0 :=
              mul_nonpos_of_nonneg_of_nonpos hr (by linarith [hc 1 L (le_refl 1) hL1])
            linarith
          · rw [hv]
        · rw [Nat.min_eq_right (by omega), hla (by omega)]
          have := hc 1 (nBins p mx - 2) (le_refl 1) (by omega)
          split <;> linarith
      rcases Nat.lt_or_ge (u' + 1) (nBins p mx) with h | h
      · rw [hin' (by omega)]
        exact le_trans hupper (hc _ _ (by omega) (by omega))
      · obtain ⟨f', hf0', _, _, hv'⟩ := hla' (by omega)
        rw [hv']
        have := hc (min L (nBins p mx - 2)) (nBins p mx - 2) (by omega) (by omega)
        have := mul_pos hf0' hp
        linarith
    · exfalso
      have := hall L hLm
      linarith
    · have hLL : L = L' := by
        rcases Nat.lt_trichotomy L L' with h | h | h
        · have := hbef' L h; linarith
        · exact h
        · have := hbef L' h; linarith
      subst hLL
      have hstep := cdfOf_step hist hn' hlt
      rcases Nat.lt_or_ge (L + 1) (nBins p mx) with h | h
      · rcases hin (by omega) with hv | ⟨rfl, hv⟩ <;> rcases hin' (by omega) with hv' | ⟨hL', hv'⟩
        · rw [hv, hv']
          have : (q₁ - cdfOf hist L) / (cdfOf hist 0 - cdfOf hist L) ≥ (q₂ - cdfOf hist L) / (cdfOf hist 0 - cdfOf hist L) := by
            apply div_le_div_of_nonpos_of_le <;> linarith
          have := mul_le_mul_of_nonpos_right this (by linarith [hc 1 L (le_refl 1) hL1] : centreOf p 1 - centreOf p L ≤ 0)
          linarith
        · subst hL'; rw [hv, hv', sub_self, mul_zero, add_zero]
        · rw [hv, hv', sub_self, mul_zero, add_zero]
        · rw [hv, hv']
      · rw [hla (by omega), hla' (by omega)]
        have hcc := hc 1 (nBins p mx - 2) (le_refl 1) (by omega)
        by_cases e1 : |cdfOf hist 0 - q₁| < 1 / 10000000000
        · -- then the second percentile is still within the tolerance
          have e2 : |cdfOf hist 0 - q₂| < 1 / 10000000000 := by
            rw [abs_lt] at e1 ⊢
            refine ⟨?_, by linarith [e1.2]⟩
            rcases lt_or_eq_of_le hq0' with h | h
            · linarith
            · exact absurd ⟨by linarith, fun k hk => hbef k (by omega), by rw [hla (by omega)]; split <;> linarith⟩ hexc
          rw [if_pos e1, if_pos e2]
        · rw [if_neg e1]
          split <;> linarith

/-- C117 (one threshold per cell), for at most 10⁹ time steps: monotone in the percentile and bounded.
Missing from the full statement: percentiles that sit exactly 10⁻¹⁰ above a cumulative fraction, where the code's comparisons
`>=` and `<` disagree. -/
theorem C117_constant_monotone_bounded_partial (p mx : ℚ) (hp : 0 < p) (hmx : p < mx) (S : List ℚ) (hn : S.length ≤ 1000000000)
    (q₁ q₂ : ℚ) (h12 : q₁ ≤ q₂) (h1 : q₂ ≤ 1)
    (hedge : ∀ k n : Nat, q₁ ≠ (k : ℚ) / ((n : ℚ) + 1 / 10000000000) + 1 / 10000000000 ∧ q₂ ≠ (k : ℚ) / ((n : ℚ) + 1 / 10000000000) + 1 / 10000000000) :
    ∃ t₁ t₂, threshold1d p mx q₁ (S.map some) = some t₁ ∧ threshold1d p mx q₂ (S.map some) = some t₂ ∧ t₁ ≤ t₂ ∧ p ≤ t₁ ∧ t₂ < mx + p := by
  have h4 := nBins_ge4 hp hmx
  refine ⟨_, _, threshold1d_numbers (by omega) _ _, threshold1d_numbers (by omega) _ _, ?_, le_max_left _ _, ?_⟩
  swap
  · have hl := length_histCounts1d (p := p) (mx := mx) (S.map some)
    have hs := sum_le_length (p := p) (mx := mx) (S.map some) (by omega)
    rw [List.length_map] at hs
    have := quantile1d_le hp h4 q₂ h1 _ hl (le_trans hs hn)
    refine max_lt (by linarith) (lt_of_le_of_lt this (max_lt (by linarith) ?_))
    rw [centreOf_pos (by omega), Nat.cast_sub (by omega)]
    have := (nBins_bounds (mx := mx) hp (by linarith)).2
    push_cast
    linarith
  have hl := length_histCounts1d (p := p) (mx := mx) (S.map some)
  have hs := sum_le_length (p := p) (mx := mx) (S.map some) (by omega)
  rw [List.length_map] at hs
  rcases quantile1d_order hp h4 h12 h1 _ hl (le_trans hs hn) with h | ⟨h, _⟩
  · exact h
  · exact absurd h (hedge _ _).2

example : (0 : ℚ) < 1 / 100 ∧ (1 / 100 : ℚ) < 5 ∧ ([1, 2, 3] : List ℚ).length ≤ 1000000000 ∧
    ∀ k n : Nat, (1 : ℚ) / 2 ≠ (k : ℚ) / ((n : ℚ) + 1 / 10000000000) + 1 / 10000000000 := by
  refine ⟨by norm_num, by norm_num, by simp, fun k n h => ?_⟩
  have hN : ((n : ℚ) + 1 / 10000000000) ≠ 0 := by positivity
  have h2 : (k : ℚ) / ((n : ℚ) + 1 / 10000000000) = 4999999999 / 10000000000 := by linarith
  rw [div_eq_iff hN] at h2
  have h3 : (k : ℚ) * 100000000000000000000 = 4999999999 * (10000000000 * (n : ℚ) + 1) := by linarith
  have h4 : k * 100000000000000000000 = 4999999999 * (10000000000 * n + 1) := by exact_mod_cast h3
  omega

/-- Decimal percentiles are never 10⁻¹⁰ above a cumulative fraction. -/
theorem decimal_not_edge {q : ℚ} {Q : Nat} (hq : q = (Q : ℚ) / 10000000000) (hQ : 2 ≤ Q) (hQ1 : Q ≤ 10000000000) (k n : Nat) :
    q ≠ (k : ℚ) / ((n : ℚ) + 1 / 10000000000) + 1 / 10000000000 := by
  intro h
  have hN : ((n : ℚ) + 1 / 10000000000) ≠ 0 := by positivity
  have h2 : (k : ℚ) / ((n : ℚ) + 1 / 10000000000) = ((Q : ℚ) - 1) / 10000000000 := by rw [hq] at h; linarith
  rw [div_eq_iff hN] at h2
  have h3 : (k : ℚ) * 100000000000000000000 = ((Q : ℚ) - 1) * (10000000000 * (n : ℚ) + 1) := by rw [h2]; ring
  obtain ⟨R, rfl⟩ : ∃ R, Q = R + 1 := ⟨Q - 1, by omega⟩
  have h4 : k * 100000000000000000000 = R * (10000000000 * n + 1) := by
    have : (k : ℚ) * 100000000000000000000 = (R : ℚ) * (10000000000 * (n : ℚ) + 1) := by rw [h3]; push_cast; ring
    exact_mod_cast this
  have h5 : k * 100000000000000000000 = 10000000000 * (R * n) + R := by rw [h4]; ring
  have h6 : R % 10000000000 = 0 := by omega
  omega

/-- **C117** for all percentiles that can be written with eight decimals (identify_extremes accepts none below 60): the approximate threshold of
`global_extreme` is monotone in the percentile, at least the precision and less than one bin above `max_anomaly`. -/
theorem C117_decimal_percentiles (p mx : ℚ) (hp : 0 < p) (hmx : p < mx) (S : List ℚ) (hn : S.length ≤ 1000000000)
    (P₁ P₂ : ℚ) (h60 : 60 ≤ P₁) (h12 : P₁ ≤ P₂) (h100 : P₂ ≤ 100) (d₁ : ∃ a : Nat, P₁ = (a : ℚ) / 10 ^ 8) (d₂ : ∃ a : Nat, P₂ = (a : ℚ) / 10 ^ 8) :
    ∃ t₁ t₂, threshold1d p mx (P₁ / 100) (S.map some) = some t₁ ∧ threshold1d p mx (P₂ / 100) (S.map some) = some t₂ ∧ t₁ ≤ t₂ ∧ p ≤ t₁ ∧ t₂ < mx + p := by
  have key : ∀ P : ℚ, 60 ≤ P → P ≤ 100 → (∃ a : Nat, P = (a : ℚ) / 10 ^ 8) → ∀ k n : Nat,
      P / 100 ≠ (k : ℚ) / ((n : ℚ) + 1 / 10000000000) + 1 / 10000000000 := by
    rintro P h1 h2 ⟨a, rfl⟩ k n
    have h3 : (6000000000 : ℚ) ≤ a := by
      rw [le_div_iff₀ (by norm_num)] at h1; linarith
    have h4 : (a : ℚ) ≤ 10000000000 := by
      rw [div_le_iff₀ (by norm_num)] at h2; linarith
    have h3' : 6000000000 ≤ a := by exact_mod_cast h3
    have h4' : a ≤ 10000000000 := by exact_mod_cast h4
    exact decimal_not_edge (Q := a) (by ring) (by omega) h4' k n
  exact C117_constant_monotone_bounded_partial p mx hp hmx S hn _ _ (by linarith) (by linarith)
    fun k n => ⟨key P₁ h60 (le_trans h12 h100) d₁ k n, key P₂ (le_trans h60 h12) h100 d₂ k n⟩

example : (60 : ℚ) ≤ 905 / 10 ∧ (905 / 10 : ℚ) ≤ 95 ∧ (∃ a : Nat, (905 / 10 : ℚ) = (a : ℚ) / 10 ^ 8) ∧ ∃ a : Nat, (95 : ℚ) = (a : ℚ) / 10 ^ 8 :=
  ⟨by norm_num, by norm_num, ⟨9050000000, by norm_num⟩, ⟨9500000000, by norm_num⟩⟩

/-- **C117** fails for other percentiles: six samples lie below the histogram and four in its last bin.  At the 60th percentile the threshold is 3/2; at
a percentile less than 10⁻⁸ above, which is exactly 10⁻¹⁰ (of a whole) above the fraction of the first bin, it is 1. -/
theorem C117_other_percentiles_fails :
    let S : List (Option ℚ) := [-2, -2, -2, -2, -2, -2, 5 / 2, 5 / 2, 5 / 2, 5 / 2].map some
    ∃ P₁ P₂ : ℚ, 60 ≤ P₁ ∧ P₁ < P₂ ∧ P₂ < P₁ + 1 / 10 ^ 8 ∧
      threshold1d 1 3 (P₁ / 100) S = some (3 / 2) ∧ threshold1d 1 3 (P₂ / 100) S = some 1 := by
  refine ⟨60, 100 * (6 / (10 + 1 / 10000000000) + 1 / 10000000000), by norm_num, by norm_num, by norm_num, ?_, ?_⟩ <;> decide +kernel

/-! ### C39: accuracy of histogram thresholds -/

/-- C39 (day-of-year thresholds): when every anomaly pooled for a day is below `max_anomaly`, the threshold of that day is at most half a bin above
and less than one and a half bins below the exact order statistic (raised to the lower bound).
Missing from the full statement: "within one bin", which is false, see below. -/
theorem C39_hobday_partial (p mx : ℚ) (hp : 0 < p) (hmx : 0 < mx) (w s ny nx : Nat) (hodd : w % 2 = 1) (h3 : 3 ≤ w) (hw : w ≤ 733)
    (hs : s % 2 = 1) (hnx : s / 2 ≤ nx) (recs : Nat → Nat → List Sample) (y x : Nat) (hy : y < ny) (hx : x < nx)
    (q : ℚ) (h0 : 0 ≤ q) (h1 : q < 1) (hfirst : ((recs y x).map Sample.val).headD none ≠ none) (d : Nat) (hd : d < 366)
    (hrange : ∀ v ∈ (windowSamples s ny nx w recs y x d).filterMap id, v < mx) (X : ℚ)
    (hX : JustAfter ((windowSamples s ny nx w recs y x d).filterMap id)
      (q * (((windowSamples s ny nx w recs y x d).filterMap id).length : ℚ)) X) :
    ∃ ts t, gridThresholds p mx q w s ny nx recs y x = .ok ts ∧ ts[d]? = some (some t) ∧
      -(3 / 2) * p < t - max p X ∧ t - max p X ≤ p / 2 := by
  have hb := nBins_ge3 hp hmx
  obtain ⟨t, ht, hlo, hhi⟩ := row_accuracy hp hb h0 h1 (windowSamples s ny nx w recs y x d) (fun v hv => lt_of_lt_of_le (hrange v hv) (by
    rw [lastEdge_eq (by omega)]; exact (nBins_bounds hp hmx).1)) hX
  refine ⟨_, t, gridThresholds_eq p mx q w s ny nx hodd h3 hw hs hnx recs y x hy hx, ?_, hlo, hhi⟩
  rw [List.getElem?_map, List.getElem?_range hd, Option.map_some, if_neg hfirst, ht]

/-- Ten years of one day, with nine anomalies of zero and one of 3.9 bins. -/
def tenYears (p : ℚ) : List Sample :=
  (List.range 10).map fun k => ⟨2000 + k, 1, some (if k = 4 then 39 / 10 * p else 0)⟩

theorem tenYears_window (p : ℚ) : windowSamples 1 1 1 11 (fun _ _ => tenYears p) 0 0 0 =
    [some 0, some 0, some 0, some 0, some (39 / 10 * p), some 0, some 0, some 0, some 0, some 0] := by
  rfl

/-- Non-vacuity of `C39_hobday_partial`. -/
example : JustAfter ((windowSamples 1 1 1 11 (fun _ _ => tenYears 1) 0 0 0).filterMap id)
    (9 / 10 * (((windowSamples 1 1 1 11 (fun _ _ => tenYears 1) 0 0 0).filterMap id).length : ℚ)) (39 / 10) := by
  rw [tenYears_window]
  unfold JustAfter
  decide +kernel

/-- C39 fails as stated: whatever the precision and the binned range, nine anomalies of zero and one of 3.9 bins give, at the 90th percentile, a
threshold of 2.5 bins, more than one bin from every value of the sample (and from every value between the two, in the linear-interpolation sense,
closer to the lower one). -/
theorem C39_hobday_one_bin_fails (p mx : ℚ) (hp : 0 < p) (hmx : 4 * p ≤ mx) :
    ∃ ts, gridThresholds p mx (9 / 10) 11 1 1 1 (fun _ _ => tenYears p) 0 0 = .ok ts ∧ ts[0]? = some (some (5 / 2 * p)) ∧
      ∀ v ∈ (windowSamples 1 1 1 11 (fun _ _ => tenYears p) 0 0 0).filterMap id, p < |5 / 2 * p - v| := by
  have hb := nBins_ge4 hp (by linarith : p < mx)
  have hnb : 6 ≤ nBins p mx := by
    have := (nBins_bounds (mx := mx) hp (by linarith)).1
    have h6 : (6 : ℚ) ≤ (nBins p mx : ℚ) := by
      by_contra hc
      have : ((nBins p mx : ℚ) - 2) * p < 4 * p := by nlinarith
      linarith
    exact_mod_cast h6
  have hbin0 : digitize p mx (some 0) = 2 := by
    obtain ⟨_, hs⟩ := digitize_spec (mx := mx) hp 0
    have a := (hs 1 (by omega)).1 (by push_cast; linarith)
    have b := (hs 2 (by omega)).not.1 (by push_cast; linarith)
    omega
  have hbinx : digitize p mx (some (39 / 10 * p)) = 5 := by
    obtain ⟨_, hs⟩ := digitize_spec (mx := mx) hp (39 / 10 * p)
    have a := (hs 4 (by omega)).1 (by push_cast; linarith)
    have b := (hs 5 (by omega)).not.1 (by push_cast; linarith)
    omega
  have hcum : ∀ k, k < nBins p mx → cumOf (histCounts p mx (windowSamples 1 1 1 11 (fun _ _ => tenYears p) 0 0 0)) k =
      if k < 2 then 0 else if k < 5 then 9 else 10 := by
    intro k hk
    rw [cumOf_histCounts hk, tenYears_window]
    simp only [List.filter_cons, List.filter_nil, hbin0, hbinx]
    by_cases k2 : k < 2
    · rw [if_pos k2]; simp [show ¬ 2 ≤ k by omega, show ¬ 5 ≤ k by omega]
    · by_cases k5 : k < 5
      · rw [if_neg k2, if_pos k5]; simp [show 2 ≤ k by omega, show ¬ 5 ≤ k by omega]
      · rw [if_neg k2, if_neg k5]; simp [show 2 ≤ k by omega, show 5 ≤ k by omega]
  have hsum : (histCounts p mx (windowSamples 1 1 1 11 (fun _ _ => tenYears p) 0 0 0)).sum = 10 := by
    rw [← cumOf_last _ (k := nBins p mx - 1) (by rw [length_histCounts]; omega), hcum _ (by omega), if_neg (by omega), if_neg (by omega)]
  obtain ⟨t, hv, u, hu, hlt, _, hsm, hbig⟩ := row_final hp (by omega : 3 ≤ nBins p mx) (9 / 10) (by norm_num) (by norm_num)
    (histCounts p mx (windowSamples 1 1 1 11 (fun _ _ => tenYears p) 0 0 0)) (length_histCounts p mx _) (by omega)
  obtain ⟨hA1, hA2⟩ := hlt (by norm_num)
  rw [hsum] at hA1 hA2
  have hu5 : u = 5 := by
    apply Nat.le_antisymm
    · by_contra hc
      have := hA2 5 (by omega)
      rw [hcum 5 (by omega)] at this
      norm_num at this
    · by_contra hc
      rw [hcum u hu] at hA1
      split at hA1
      · norm_num at hA1
      · rw [if_pos (by omega)] at hA1
        norm_num at hA1
  obtain ⟨f, _, _, hff, _, rfl⟩ := hbig (by omega)
  obtain ⟨_, hfe⟩ := hff (by norm_num)
  subst hu5
  rw [hsum, hcum 4 (by omega), hcum 5 (by omega)] at hfe
  norm_num at hfe
  subst hfe
  refine ⟨_, gridThresholds_eq p mx (9 / 10) 11 1 1 1 rfl (by norm_num) (by norm_num) rfl (by norm_num) _ 0 0 (by norm_num) (by norm_num), ?_, ?_⟩
  · rw [List.getElem?_map, List.getElem?_range (by norm_num), Option.map_some,
      if_neg (show ¬ ((tenYears p).map Sample.val).headD none = none by simp [tenYears, List.range_succ]), hv, applyFloor_some (by omega)]
    rw [centreOf_pos (by norm_num), max_eq_right (by push_cast; linarith)]
    congr 2
    push_cast; ring
  · rw [tenYears_window]
    intro v hv
    have hsub : ∀ o ∈ ([some 0, some 0, some 0, some 0, some (39 / 10 * p), some 0, some 0, some 0, some 0, some 0] : List (Option ℚ)),
        o = some 0 ∨ o = some (39 / 10 * p) := by simp
    obtain ⟨o, ho, e⟩ := List.mem_filterMap.1 hv
    rw [id_eq] at e
    subst e
    have hcase : v = 0 ∨ v = 39 / 10 * p := by simpa using hsub _ ho
    rcases hcase with rfl | rfl
    · rw [sub_zero, abs_of_pos (by linarith)]; linarith
    · rw [abs_sub_comm, abs_of_pos (by linarith)]; linarith

/-- C39 (one threshold per cell): with all anomalies below `max_anomaly` and at most 10⁹ of them, if the sample at the percentile's rank (up to the
code's tolerance of 10⁻¹⁰) is at least minus one bin, the threshold is within half a bin of it (raised to the lower bound) below the last bin, and
within one and a half bins in the last bin.  Missing: ranks that fall among the anomalies below minus one bin, where the claim is false, see below. -/
theorem C39_constant_partial (p mx : ℚ) (hp : 0 < p) (hmx : p < mx) (S : List ℚ) (hn : S.length ≤ 1000000000)
    (hrange : ∀ v ∈ S, v < mx) (q : ℚ) (h1 : q ≤ 1) (X : ℚ)
    (hX : AtRank S ((q - 1 / 10000000000) * ((S.length : ℚ) + 1 / 10000000000)) X) (hlow : -p ≤ X) :
    ∃ t, threshold1d p mx q (S.map some) = some t ∧ |t - max p X| < 3 / 2 * p ∧ (X < mx - p → |t - max p X| ≤ p / 2) := by
  have h4 := nBins_ge4 hp hmx
  refine ⟨_, threshold1d_numbers (by omega) _ _, ?_⟩
  obtain ⟨hmem, hlo, hup⟩ := hX
  have hedge : ∀ v ∈ S, v < lastEdge p mx := fun v hv => lt_of_lt_of_le (hrange v hv) (by
    rw [lastEdge_eq (by omega)]; exact (nBins_bounds hp (by linarith)).1)
  have hl := length_histCounts1d (p := p) (mx := mx) (S.map some)
  have hcum : ∀ k, k < nBins p mx → cumOf (histCounts1d p mx (S.map some)) k = (S.filter fun v => digitize p mx (some v) ≤ k).length := by
    intro k hk
    rw [cumOf_histCounts1d hk, List.filter_map, List.length_map]
    congr 1
    apply List.filter_congr
    intro v hv
    simp only [Function.comp, bin1_of_lt (hedge v hv)]
  have hdl : ∀ v ∈ S, digitize p mx (some v) < nBins p mx := fun v hv => (digitize_lt_iff hp (by omega) v).2 (hedge v hv)
  have hsum : (histCounts1d p mx (S.map some)).sum = S.length := by
    rw [← cumOf_last _ (k := nBins p mx - 1) (by rw [hl]; omega), hcum _ (by omega), List.filter_eq_self.2]
    intro v hv
    have := hdl v hv
    simp only [decide_eq_true_eq]; omega
  have hN : (0 : ℚ) < (S.length : ℚ) + 1 / 10000000000 := by positivity
  have hge : q - 1 / 10000000000 ≤ cdfOf (histCounts1d p mx (S.map some)) (digitize p mx (some X)) := by
    unfold cdfOf
    rw [hsum, le_div_iff₀ hN, hcum _ (hdl X hmem)]
    refine le_trans hup ?_
    have : atMost S X ≤ (S.filter fun v => digitize p mx (some v) ≤ digitize p mx (some X)).length := by
      unfold atMost
      apply List.Sublist.length_le
      apply List.monotone_filter_right
      intro v hv
      simp only [decide_eq_true_eq] at hv ⊢
      exact digitize_mono hp hv
    exact_mod_cast this
  have hlt : ∀ j, j < digitize p mx (some X) → cdfOf (histCounts1d p mx (S.map some)) j < q - 1 / 10000000000 := by
    intro j hj
    unfold cdfOf
    rw [hsum, div_lt_iff₀ hN, hcum j (by have := hdl X hmem; omega)]
    refine lt_of_le_of_lt ?_ hlo
    have : (S.filter fun v => digitize p mx (some v) ≤ j).length ≤ below S X := by
      unfold below
      apply List.Sublist.length_le
      apply List.monotone_filter_right
      intro v hv
      simp only [decide_eq_true_eq] at hv ⊢
      by_contra hge
      have := digitize_mono (mx := mx) hp (not_lt.1 hge)
      omega
    exact_mod_cast this
  have hu1 : 1 ≤ digitize p mx (some X) := by
    have := ((digitize_spec (mx := mx) hp X).2 0 (by omega)).1 (by push_cast; linarith)
    omega
  have hXl := hdl X hmem
  obtain ⟨hb1, hb2⟩ := digitize_bounds hp rfl hXl
  have hb1 := hb1 hu1
  have hlip : ∀ t c : ℚ, |t - X| ≤ c → |max p t - max p X| ≤ c := fun t c h => le_trans (abs_max_sub_max_le_abs t X p |> fun h => by simpa [max_comm] using h) h
  have hlip' : ∀ t c : ℚ, |t - X| < c → |max p t - max p X| < c := fun t c h => lt_of_le_of_lt (abs_max_sub_max_le_abs t X p |> fun h => by simpa [max_comm] using h) h
  rcases Nat.lt_or_ge (digitize p mx (some X) + 1) (nBins p mx) with hin | hla
  · rw [quantile1d_inner _ hu1 (by omega) hge hlt, binCentres_getD hXl, centreOf_pos hu1]
    have : |((digitize p mx (some X) : ℚ) - 3 / 2) * p - X| ≤ p / 2 := by
      rw [abs_le]; constructor <;> linarith
    exact ⟨lt_of_le_of_lt (hlip _ _ this) (by linarith), fun _ => hlip _ _ this⟩
  · have hue : digitize p mx (some X) = nBins p mx - 1 := by omega
    rw [hue] at hge hlt hb1 hb2
    rw [Nat.cast_sub (by omega)] at hb1 hb2
    have hbig : ¬ X < mx - p := by
      have := (nBins_bounds (mx := mx) hp (by linarith)).1
      push_cast at hb1
      intro h
      linarith
    refine ⟨?_, fun h => absurd h hbig⟩
    rcases quantile1d_cases hp h4 q h1 _ hl (by rw [hsum]; exact hn) with ⟨_, h⟩ | ⟨u, hu1', hum, huq, hub, _, hla'⟩ | ⟨h, _, _⟩ | ⟨L, _, _, h, _, _, _, _⟩
    · rw [hsum] at h
      have := List.length_pos_of_mem hmem
      omega
    · have huu : u = nBins p mx - 1 := by
        by_contra hc
        have := hlt u (by omega)
        linarith
      obtain ⟨f, hf0, hf1, _, hv⟩ := hla' huu
      rw [hv]
      apply hlip'
      rw [centreOf_pos (by omega), Nat.cast_sub (by omega), abs_lt]
      have := mul_pos hf0 hp
      have := mul_le_mul_of_nonneg_right hf1 hp.le
      push_cast at hb1 hb2 ⊢
      constructor <;> linarith
    · have := hlt 0 (by omega); linarith
    · have := hlt 0 (by omega); linarith

example : AtRank [1, 2, 3, 4] ((1 / 2 - 1 / 10000000000) * ((4 : ℚ) + 1 / 10000000000)) 2 := by
  unfold AtRank; decide +kernel

/-! A family of samples: `a` of minus two bins, `c` of minus half a bin, `b` at `max_anomaly = N` bins. -/

def family (p : ℚ) (N a c b : Nat) : List ℚ := List.replicate a (-2 * p) ++ List.replicate c (-(1 / 2) * p) ++ List.replicate b ((N : ℚ) * p)

theorem family_cum (p : ℚ) (hp : 0 < p) (N a c b k : Nat) (hN : 2 ≤ N) (hk : k < N + 2) :
    cumOf (histCounts1d p ((N : ℚ) * p) ((family p N a c b).map some)) k = a + (if 1 ≤ k then c else 0) + (if N + 1 ≤ k then b else 0) := by
  have hnb := nBins_exact hp N
  rw [cumOf_histCounts1d (by omega)]
  have hle : lastEdge p ((N : ℚ) * p) = (N : ℚ) * p := by rw [lastEdge_eq (by omega), hnb]; push_cast; ring
  have hN' : (2 : ℚ) ≤ N := by exact_mod_cast hN
  have b0 : bin1 p ((N : ℚ) * p) (some (-2 * p)) = 0 := by
    rw [bin1_of_lt (by rw [hle]; nlinarith)]
    have := ((digitize_spec (mx := (N : ℚ) * p) hp (-2 * p)).2 0 (by omega)).not.1 (by push_cast; linarith)
    omega
  have b1 : bin1 p ((N : ℚ) * p) (some (-(1 / 2) * p)) = 1 := by
    rw [bin1_of_lt (by rw [hle]; nlinarith)]
    have h1 := ((digitize_spec (mx := (N : ℚ) * p) hp (-(1 / 2) * p)).2 0 (by omega)).1 (by push_cast; linarith)
    have h2 := ((digitize_spec (mx := (N : ℚ) * p) hp (-(1 / 2) * p)).2 1 (by omega)).not.1 (by push_cast; linarith)
    omega
  have b2 : bin1 p ((N : ℚ) * p) (some ((N : ℚ) * p)) = N + 1 := by
    unfold bin1; rw [if_pos (by rw [hle]), hnb]; omega
  unfold family
  simp only [List.map_append, List.map_replicate, List.filter_append, List.length_append]
  have hrep : ∀ (m : Nat) (v : Option ℚ) (j : Nat), bin1 p ((N : ℚ) * p) v = j →
      ((List.replicate m v).filter fun v => decide (bin1 p ((N : ℚ) * p) v ≤ k)).length = if j ≤ k then m else 0 := by
    intro m v j hj
    subst hj
    by_cases h : bin1 p ((N : ℚ) * p) v ≤ k
    · rw [if_pos h, List.filter_eq_self.2, List.length_replicate]
      intro a ha
      rw [List.eq_of_mem_replicate ha]; simpa using h
    · rw [if_neg h, List.filter_eq_nil_iff.2, List.length_nil]
      intro a ha
      rw [List.eq_of_mem_replicate ha]; simpa using h
  rw [hrep a _ 0 b0, hrep c _ 1 b1, hrep b _ (N + 1) b2, if_pos (Nat.zero_le k)]

theorem family_sum (p : ℚ) (hp : 0 < p) (N a c b : Nat) (hN : 2 ≤ N) :
    (histCounts1d p ((N : ℚ) * p) ((family p N a c b).map some)).sum = a + c + b := by
  have hnb := nBins_exact hp N
  rw [← cumOf_last _ (k := N + 1) (by rw [length_histCounts1d, hnb]), family_cum p hp N a c b _ hN (by omega), if_pos (by omega), if_pos (by omega)]

/-- The percentile rank falls well inside the samples of minus two bins. -/
theorem family_low (p : ℚ) (hp : 0 < p) (N a c b : Nat) (hN : 2 ≤ N) (q : ℚ) (hq1 : q ≤ 1)
    (hn : a + c + b ≤ 1000000000) (hq : q * ((a + c + b : Nat) : ℚ) + 1 ≤ (a : ℚ)) :
    q + 1 / 10000000000 ≤ cdfOf (histCounts1d p ((N : ℚ) * p) ((family p N a c b).map some)) 0 := by
  unfold cdfOf
  rw [family_sum p hp N a c b hN, family_cum p hp N a c b 0 hN (by omega), if_neg (by omega), if_neg (by omega), le_div_iff₀ (by positivity)]
  have : ((a + c + b : Nat) : ℚ) ≤ 1000000000 := by exact_mod_cast hn
  push_cast at *
  nlinarith

theorem family_threshold_gap (p : ℚ) (hp : 0 < p) (N a b : Nat) (hN : 4 ≤ N) (hb : 0 < b) (q : ℚ) (hq1 : q ≤ 1)
    (hn : a + b ≤ 1000000000) (hq : q * ((a + b : Nat) : ℚ) + 1 ≤ (a : ℚ)) :
    threshold1d p ((N : ℚ) * p) q ((family p N a 0 b).map some) = some (((N : ℚ) - 2) / 2 * p) := by
  have hnb := nBins_exact hp N
  rw [threshold1d_numbers (by omega)]
  have hl := length_histCounts1d (p := p) (mx := (N : ℚ) * p) ((family p N a 0 b).map some)
  have hlow := family_low p hp N a 0 b (by omega) q hq1 (by omega) (by simpa using hq)
  have hsum := family_sum p hp N a 0 b (by omega)
  have hcum := fun k (hk : k < N + 2) => family_cum p hp N a 0 b k (by omega) hk
  generalize histCounts1d p ((N : ℚ) * p) ((family p N a 0 b).map some) = hist at *
  rw [hnb] at hl
  obtain ⟨_, hB⟩ := quantile1d_first (q := q) (hist := hist) (binCentres p ((N : ℚ) * p)) (by omega) (by omega) (Or.inl (by linarith))
  have hpos : (0 : ℚ) < (hist.sum : ℚ) + 1 / 10000000000 := by positivity
  have hlt : cdfOf hist 0 < cdfOf hist (N + 1) := by
    unfold cdfOf
    rw [div_lt_div_iff_of_pos_right hpos, hcum 0 (by omega), hcum (N + 1) (by omega), if_pos (le_refl (N + 1)), if_neg (by omega : ¬ N + 1 ≤ 0)]
    have : (0 : ℚ) < (b : ℚ) := by exact_mod_cast hb
    simp [hb]
  have hbef : ∀ j, j < N + 1 → cdfOf hist j = cdfOf hist 0 := by
    intro j hj
    unfold cdfOf
    rw [hcum j (by omega), hcum 0 (by omega), if_neg (by omega : ¬ N + 1 ≤ j), if_neg (by omega : ¬ N + 1 ≤ 0)]
    simp
  obtain ⟨_, _, h3⟩ := hB (N + 1) (by omega) hlt hbef (by linarith)
  have hgap : ¬ (|cdfOf hist 0 - q| < 1 / 10000000000) := by
    rw [abs_lt]; intro h; linarith [h.2]
  rw [h3 (by omega), if_neg hgap, hl, binCentres_getD (by omega), binCentres_getD (by omega), centreOf_pos (by omega), centreOf_pos (by omega),
    show N + 2 - 2 = N by omega]
  have hN' : (4 : ℚ) ≤ N := by exact_mod_cast hN
  rw [max_eq_right (by push_cast; nlinarith)]
  congr 1
  push_cast; ring

/-- C39 fails for one threshold per cell: when the percentile falls among anomalies below minus one bin and all larger anomalies are in the last bin,
the threshold is half of `max_anomaly` (minus one bin), however many bins that is, although the sample at the percentile is minus two bins. -/
theorem C39_constant_fails (p : ℚ) (hp : 0 < p) (N a b : Nat) (hN : 4 ≤ N) (hb : 0 < b) (q : ℚ) (hq0 : 0 < q) (hq1 : q ≤ 1)
    (hn : a + b ≤ 1000000000) (hq : q * ((a + b : Nat) : ℚ) + 1 ≤ (a : ℚ)) :
    (∀ v ∈ family p N a 0 b, v ≤ (N : ℚ) * p) ∧ AtRank (family p N a 0 b) (q * ((family p N a 0 b).length : ℚ)) (-2 * p) ∧
    threshold1d p ((N : ℚ) * p) q ((family p N a 0 b).map some) = some (((N : ℚ) - 2) / 2 * p) := by
  have hN' : (4 : ℚ) ≤ N := by exact_mod_cast hN
  have ha : 0 < a := by
    rcases Nat.eq_zero_or_pos a with rfl | h
    · exfalso
      have : (0 : ℚ) ≤ q * ((0 + b : Nat) : ℚ) := by positivity
      push_cast at hq this
      linarith
    · exact h
  have hmemv : ∀ v ∈ family p N a 0 b, v = -2 * p ∨ v = (N : ℚ) * p := by
    intro v hv
    simp only [family, List.replicate_zero, List.append_nil, List.mem_append, List.mem_replicate] at hv
    tauto
  refine ⟨?_, ⟨?_, ?_, ?_⟩, family_threshold_gap p hp N a b hN hb q hq1 hn hq⟩
  · intro v hv
    rcases hmemv v hv with rfl | rfl
    · nlinarith
    · exact le_refl _
  · simp only [family, List.mem_append, List.mem_replicate]
    left; left; exact ⟨by omega, by simp⟩
  · have : below (family p N a 0 b) (-2 * p) = 0 := by
      unfold below
      rw [List.filter_eq_nil_iff.2, List.length_nil]
      intro v hv
      rcases hmemv v hv with rfl | rfl
      · simp
      · simp only [decide_eq_true_eq, not_lt]; nlinarith
    rw [this]
    have : 0 < (family p N a 0 b).length := by simp [family]; omega
    have : (0 : ℚ) < ((family p N a 0 b).length : ℚ) := by exact_mod_cast this
    push_cast
    positivity
  · have hat : a ≤ atMost (family p N a 0 b) (-2 * p) := by
      unfold atMost family
      rw [List.filter_append, List.length_append, List.filter_append, List.length_append]
      have : ((List.replicate a (-2 * p)).filter fun s => decide (s ≤ -2 * p)).length = a := by
        rw [List.filter_eq_self.2, List.length_replicate]
        intro v hv
        rw [List.eq_of_mem_replicate hv]; simp
      omega
    have hlen : (family p N a 0 b).length = a + b := by simp [family]
    rw [hlen]
    have : (a : ℚ) ≤ (atMost (family p N a 0 b) (-2 * p) : ℚ) := by exact_mod_cast hat
    linarith

/-- With the default precision 0.01 and `max_anomaly` 5, 99 anomalies of -0.02 and one of 5 give a 90th percentile of 2.49. -/
example : (9 / 10 : ℚ) * ((99 + 1 : Nat) : ℚ) + 1 ≤ ((99 : Nat) : ℚ) ∧ (((500 : Nat) : ℚ) - 2) / 2 * (1 / 100) = 249 / 100 := by norm_num

/-! ### C40: day windows -/

/-- C40: the histogram behind the threshold of day `d` is the sum of the histograms of the `w` days around `d`, for every odd window of at least
three days and up to two years. -/
theorem C40_windowed_histogram (w m : Nat) (hist : List (List Nat)) (hl : hist.length = 366) (hodd : w % 2 = 1) (h3 : 3 ≤ w) (hw : w ≤ 733) :
    ∃ rows, windowedHist w m hist = .ok rows ∧ rows.length = 366 ∧
      ∀ d b, d < 366 → b < m → (rows.getD d []).getD b 0 = ((dayWindow w d).map fun k => (hist.getD k []).getD b 0).sum := by
  refine ⟨_, windowedHist_ok w m hist hl hodd h3 hw, by simp, fun d b hd hb => ?_⟩
  have hrow : ((List.range 366).map fun d => addRows m ((dayWindow w d).map fun k => hist.getD k [])).getD d [] =
      addRows m ((dayWindow w d).map fun k => hist.getD k []) := by
    rw [List.getD_eq_getElem?_getD, List.getElem?_map, List.getElem?_range hd]; rfl
  rw [hrow]
  unfold addRows
  rw [List.getD_eq_getElem?_getD, List.getElem?_map, List.getElem?_range hb]
  simp only [Option.map_some, Option.getD_some, List.map_map]
  rfl

/-- C40: the days of a window of up to a year are exactly the days at most `w / 2` days before or after, around the end of the year, each once. -/
theorem C40_window_days (w d : Nat) (hodd : w % 2 = 1) (hw : w ≤ 366) (hd : d < 366) :
    (dayWindow w d).Nodup ∧ ∀ k, k ∈ dayWindow w d ↔ k < 366 ∧ ∃ j, j ≤ w / 2 ∧ ((d + j) % 366 = k ∨ (k + j) % 366 = d) := by
  constructor
  · unfold dayWindow
    apply List.Nodup.map_on _ List.nodup_range
    intro i hi j hj h
    rw [List.mem_range] at hi hj
    omega
  · intro k
    unfold dayWindow
    simp only [List.mem_map, List.mem_range]
    constructor
    · rintro ⟨i, hi, rfl⟩
      refine ⟨Nat.mod_lt _ (by norm_num), ?_⟩
      rcases Nat.lt_or_ge i (w / 2) with h | h
      · exact ⟨w / 2 - i, by omega, Or.inr (by omega)⟩
      · exact ⟨i - w / 2, by omega, Or.inl (by omega)⟩
    · rintro ⟨hk, j, hj, h | h⟩
      · exact ⟨w / 2 + j, by omega, by omega⟩
      · exact ⟨w / 2 - j, by omega, by omega⟩

example : dayWindow 5 0 = [364, 365, 0, 1, 2] ∧ dayWindow 3 365 = [364, 365, 0] := by decide

/-- C125 fails for a window of one day (odd, so accepted by the argument checks): the computation raises for every data set. -/
theorem C125_one_day_window_fails (p mx q : ℚ) (s ny nx : Nat) (recs : Nat → Nat → List Sample) (y x : Nat) :
    hobdayApprox p mx q 1 s ny nx recs y x = .error .shape := by
  have hlen : (pooledHist p mx s ny nx recs y x).length = 366 := by simp [pooledHist]
  have : windowedHist 1 (nBins p mx) (pooledHist p mx s ny nx recs y x) = .error .shape := by
    unfold windowedHist
    simp [pyTail, hlen]
  unfold hobdayApprox gridThresholds thresholds2d
  rw [this]

/-! ### C41: the lower bound -/

/-- C41 (day-of-year thresholds): every threshold is at least the precision, so an anomaly below the precision (zero, or negative) is never extreme;
for every window, percentile and data set. -/
theorem C41_hobday_floor (p mx q : ℚ) (hp : 0 < p) (hmx : 0 < mx) (w s ny nx : Nat) (recs : Nat → Nat → List Sample) (y x : Nat)
    (e : List Bool) (ts : List (Option ℚ)) (h : hobdayApprox p mx q w s ny nx recs y x = .ok (e, ts)) :
    (∀ t, some t ∈ ts → p ≤ t) ∧
    ∀ (i : Nat) (s : Sample) (v : ℚ), (recs y x)[i]? = some s → s.val = some v → v < p → e[i]? = some false := by
  have hb := nBins_ge3 hp hmx
  unfold hobdayApprox at h
  cases hg : gridThresholds p mx q w s ny nx recs y x with
  | error => rw [hg] at h; cases h
  | ok ts' =>
    rw [hg] at h
    simp only [Except.ok.injEq, Prod.mk.injEq] at h
    obtain ⟨he, rfl⟩ := h
    have hfl : ∀ t, some t ∈ ts' → p ≤ t := by
      unfold gridThresholds thresholds2d at hg
      split at hg
      · cases hg
      · simp only [Except.ok.injEq] at hg
        subst hg
        intro t ht
        obtain ⟨row, _, hr⟩ := List.mem_map.1 ht
        split at hr
        · cases hr
        · cases hq : rowQuantile q (binCentres p mx) row with
          | none => rw [hq] at hr; cases hr
          | some t' =>
            rw [hq, applyFloor_some hb] at hr
            rw [← Option.some.inj hr]
            exact le_max_left _ _
    refine ⟨hfl, fun i s v hs hv hlt => ?_⟩
    obtain ⟨b, h1, h2⟩ := (C37_extreme_iff_hobday (recs y x) ts').2 i s hs
    rw [← he, h1]
    congr 1
    rw [← Bool.not_eq_true, h2]
    rintro ⟨v', t, hv', ht, hle⟩
    rw [hv] at hv'
    have := hfl t (List.mem_of_getElem? ht)
    rw [Option.some.inj hv'] at hlt
    linarith

/-- Non-vacuity: the computation succeeds for the default windows, every percentile and every data set. -/
example (q : ℚ) (recs : Nat → Nat → List Sample) : ∃ e ts, hobdayApprox (1 / 100) 5 q 11 5 90 180 recs 3 4 = .ok (e, ts) := by
  unfold hobdayApprox
  rw [gridThresholds_eq _ _ q 11 5 90 180 rfl (by norm_num) (by norm_num) rfl (by norm_num) recs 3 4 (by norm_num) (by norm_num)]
  exact ⟨_, _, rfl⟩

/-- C41 (one threshold per cell). -/
theorem C41_constant_floor (p mx q : ℚ) (hp : 0 < p) (hmx : 0 < mx) (vs : List (Option ℚ)) :
    (∀ t, threshold1d p mx q vs = some t → p ≤ t) ∧
    ∀ (i : Nat) (v : ℚ), vs[i]? = some (some v) → v < p → (extremesConstant vs (threshold1d p mx q vs))[i]? = some false := by
  have hb := nBins_ge3 hp hmx
  have hfl : ∀ t, threshold1d p mx q vs = some t → p ≤ t := by
    intro t ht
    unfold threshold1d at ht
    split at ht
    · cases ht
    · rw [applyFloor_some hb] at ht
      rw [← Option.some.inj ht]
      exact le_max_left _ _
  refine ⟨hfl, fun i v hv hlt => ?_⟩
  obtain ⟨b, h1, h2⟩ := (C37_extreme_iff_constant vs (threshold1d p mx q vs)).2 i _ hv
  rw [h1]
  congr 1
  rw [← Bool.not_eq_true, h2]
  rintro ⟨v', t, hv', ht, hle⟩
  have := hfl t ht
  rw [Option.some.inj hv'] at hlt
  linarith

example : ([some (-1), some 0, none] : List (Option ℚ))[1]? = some (some 0) ∧ (0 : ℚ) < 1 / 100 := by constructor <;> norm_num

/-! ### C69: larger anomalies and thresholds -/

/-- C69 (day-of-year thresholds): as long as all anomalies stay below `max_anomaly`, raising anomalies (at any cells and dates, not changing which are
missing) never lowers a threshold, for every percentile below 100.  Missing: anomalies beyond `max_anomaly`, where the claim is false, see below. -/
theorem C69_hobday_data_monotone_partial (p mx : ℚ) (hp : 0 < p) (hmx : 0 < mx) (w s ny nx : Nat) (hodd : w % 2 = 1) (h3 : 3 ≤ w) (hw : w ≤ 733)
    (hs : s % 2 = 1) (hnx : s / 2 ≤ nx) (low high : Nat → Nat → List Sample)
    (hd : ∀ y x, List.Forall₂ (fun r r' => r.year = r'.year ∧ r.doy = r'.doy ∧
      ((r.val = none ∧ r'.val = none) ∨ ∃ v v', r.val = some v ∧ r'.val = some v' ∧ v ≤ v' ∧ v' < mx)) (low y x) (high y x))
    (y x : Nat) (hy : y < ny) (hx : x < nx) (q : ℚ) (h0 : 0 ≤ q) (h1 : q < 1) :
    ∃ a b, gridThresholds p mx q w s ny nx low y x = .ok a ∧ gridThresholds p mx q w s ny nx high y x = .ok b ∧
      ∀ d, d < 366 → (a[d]? = some none ∧ b[d]? = some none) ∨
        ∃ t t', a[d]? = some (some t) ∧ b[d]? = some (some t') ∧ t ≤ t' := by
  have hb := nBins_ge3 hp hmx
  have hedge : mx ≤ lastEdge p mx := by rw [lastEdge_eq (by omega)]; exact (nBins_bounds hp hmx).1
  have hwin : ∀ d, List.Forall₂ (fun v w => (v = none ∧ w = none) ∨ ∃ x y, v = some x ∧ w = some y ∧ x ≤ y ∧ y < lastEdge p mx)
      (windowSamples s ny nx w low y x d) (windowSamples s ny nx w high y x d) := by
    intro d
    have hday : ∀ (k : Nat) (l l' : List Sample), List.Forall₂ (fun r r' => r.year = r'.year ∧ r.doy = r'.doy ∧
        ((r.val = none ∧ r'.val = none) ∨ ∃ v v', r.val = some v ∧ r'.val = some v' ∧ v ≤ v' ∧ v' < mx)) l l' →
        List.Forall₂ (fun v w => (v = none ∧ w = none) ∨ ∃ x y, v = some x ∧ w = some y ∧ x ≤ y ∧ y < lastEdge p mx)
          ((l.filter fun r => r.doy = k + 1).map Sample.val) ((l'.filter fun r => r.doy = k + 1).map Sample.val) := by
      intro k l l' h
      induction h with
      | nil => exact List.Forall₂.nil
      | cons hd _ ih =>
        obtain ⟨_, hdoy, hv⟩ := hd
        rw [List.filter_cons, List.filter_cons, ← hdoy]
        split
        · rw [List.map_cons, List.map_cons]
          refine List.Forall₂.cons ?_ ih
          rcases hv with hv | ⟨v, v', e1, e2, hle, hlt⟩
          · exact Or.inl hv
          · exact Or.inr ⟨v, v', e1, e2, hle, lt_of_lt_of_le hlt hedge⟩
        · exact ih
    unfold windowSamples
    have hflat : ∀ {α : Type} (R : Option ℚ → Option ℚ → Prop) (l : List α) (f g : α → List (Option ℚ)), (∀ a, List.Forall₂ R (f a) (g a)) →
        List.Forall₂ R (l.flatMap f) (l.flatMap g) := by
      intro α R l f g h
      induction l with
      | nil => exact List.Forall₂.nil
      | cons a t ih => rw [List.flatMap_cons, List.flatMap_cons]; exact List.rel_append (h a) ih
    exact hflat _ _ _ _ (fun k => hflat _ _ _ _ (fun c => hday k _ _ (hd c.1 c.2)))
  refine ⟨_, _, gridThresholds_eq p mx q w s ny nx hodd h3 hw hs hnx low y x hy hx,
    gridThresholds_eq p mx q w s ny nx hodd h3 hw hs hnx high y x hy hx, fun d hd' => ?_⟩
  simp only [List.getElem?_map, List.getElem?_range hd', Option.map_some]
  have hfirst : ((low y x).map Sample.val).headD none = none ↔ ((high y x).map Sample.val).headD none = none := by
    have h2 := hd y x
    generalize low y x = l at h2
    generalize high y x = l' at h2
    cases h2 with
    | nil => simp
    | cons hh ht =>
      rcases hh.2.2 with ⟨e1, e2⟩ | ⟨v, v', e1, e2, _, _⟩ <;> simp [e1, e2]
  by_cases hn : ((low y x).map Sample.val).headD none = none
  · left; rw [if_pos hn, if_pos (hfirst.1 hn)]; exact ⟨rfl, rfl⟩
  rw [if_neg hn, if_neg (fun h => hn (hfirst.2 h))]
  obtain ⟨hsum, hdom⟩ := histCounts_dominated hp (by omega : 1 ≤ nBins p mx) (hwin d)
  by_cases hz : (histCounts p mx (windowSamples s ny nx w low y x d)).sum = 0
  · left; rw [rowQuantile_none _ _ _ hz, rowQuantile_none _ _ _ (by rw [← hsum]; exact hz)]; exact ⟨rfl, rfl⟩
  right
  obtain ⟨t₁, t₂, e1, e2, hle, _, _⟩ := row_mono hp hb h0 (le_refl q) h1.le _ _ (length_histCounts p mx _)
    (length_histCounts p mx _) hsum (Nat.pos_of_ne_zero hz) hdom (fun h => absurd h h1.ne)
  exact ⟨t₁, t₂, by rw [e1], by rw [e2], hle⟩

example : List.Forall₂ (fun (r r' : Sample) => r.year = r'.year ∧ r.doy = r'.doy ∧
      ((r.val = none ∧ r'.val = none) ∨ ∃ v v', r.val = some v ∧ r'.val = some v' ∧ v ≤ v' ∧ v' < 5))
    [⟨2000, 1, some 1⟩, ⟨2001, 1, none⟩] [⟨2000, 1, some 2⟩, ⟨2001, 1, none⟩] := by
  refine .cons ⟨rfl, rfl, Or.inr ⟨1, 2, rfl, rfl, by norm_num, by norm_num⟩⟩ (.cons ⟨rfl, rfl, Or.inl ⟨rfl, rfl⟩⟩ .nil)

/-- C69 fails (day-of-year thresholds): if all anomalies reach one bin beyond `max_anomaly` there is no threshold on any day and nothing is extreme,
at any percentile: anomalies beyond the binned range are not counted at all. -/
theorem C69_hobday_beyond_range_fails (p mx : ℚ) (hp : 0 < p) (hmx : 0 < mx) (w s ny nx : Nat) (hodd : w % 2 = 1) (h3 : 3 ≤ w) (hw : w ≤ 733)
    (hs : s % 2 = 1) (hnx : s / 2 ≤ nx) (recs : Nat → Nat → List Sample)
    (hbig : ∀ y x, ∀ r ∈ recs y x, ∀ v, r.val = some v → mx + p ≤ v)
    (y x : Nat) (hy : y < ny) (hx : x < nx) (q : ℚ) :
    ∃ e ts, hobdayApprox p mx q w s ny nx recs y x = .ok (e, ts) ∧ (∀ t ∈ ts, t = none) ∧ e.length = (recs y x).length ∧ ∀ b ∈ e, b = false := by
  have hb := nBins_ge3 hp hmx
  have hts := gridThresholds_eq p mx q w s ny nx hodd h3 hw hs hnx recs y x hy hx
  have hnone : ∀ t ∈ ((List.range 366).map fun d => if ((recs y x).map Sample.val).headD none = none then none
      else applyFloor p mx (rowQuantile q (binCentres p mx) (histCounts p mx (windowSamples s ny nx w recs y x d)))), t = none := by
    intro t ht
    obtain ⟨d, _, rfl⟩ := List.mem_map.1 ht
    split
    · rfl
    · rw [rowQuantile_none]
      · rfl
      · rw [sum_histCounts hp (by omega), List.length_eq_zero_iff, List.filter_eq_nil_iff]
        intro v hv
        obtain ⟨o, ho, e⟩ := List.mem_filterMap.1 hv
        rw [id_eq] at e
        subst e
        unfold windowSamples at ho
        obtain ⟨k, _, ho⟩ := List.mem_flatMap.1 ho
        obtain ⟨c, _, ho⟩ := List.mem_flatMap.1 ho
        obtain ⟨r, hr, hrv⟩ := List.mem_map.1 ho
        have h1 := hbig _ _ r (List.mem_filter.1 hr).1 v hrv
        rw [lastEdge_eq (by omega)]
        have := (nBins_bounds (mx := mx) hp hmx).2
        simp only [decide_eq_true_eq, not_lt]
        linarith
  refine ⟨_, _, by unfold hobdayApprox; rw [hts], hnone, by simp [extremesHobday], ?_⟩
  intro b hb'
  obtain ⟨s', _, rfl⟩ := List.mem_map.1 hb'
  generalize hL : ((List.range 366).map fun d => if ((recs y x).map Sample.val).headD none = none then none
      else applyFloor p mx (rowQuantile q (binCentres p mx) (histCounts p mx (windowSamples s ny nx w recs y x d)))) = L at hnone ⊢
  have : L.getD (s'.doy - 1) none = none := by
    rw [List.getD_eq_getElem?_getD]
    cases hg : L[s'.doy - 1]? with
    | none => rfl
    | some t => exact hnone t (List.mem_of_getElem? hg)
  rw [this]
  cases s'.val <;> rfl

example : ∀ r ∈ ([⟨2000, 1, some 7⟩, ⟨2001, 1, some 9⟩] : List Sample), ∀ v, r.val = some v → (5 : ℚ) + 1 / 100 ≤ v := by
  intro r hr v hv
  simp only [List.mem_cons, List.not_mem_nil, or_false] at hr
  rcases hr with rfl | rfl <;> (rw [← Option.some.inj hv]; norm_num)

/-- C69 fails (one threshold per cell): if all anomalies exceed `max_anomaly` by more than a bin the threshold is one bin, the smallest possible, and
every time step is extreme. -/
theorem C69_constant_beyond_range_fails (p mx : ℚ) (hp : 0 < p) (hmx : p < mx) (S : List ℚ) (hbig : ∀ v ∈ S, mx + p ≤ v) (q : ℚ) (hq : q ≤ 1) :
    threshold1d p mx q (S.map some) = some p ∧ ∀ b ∈ extremesConstant (S.map some) (threshold1d p mx q (S.map some)), b = true := by
  have h4 := nBins_ge4 hp hmx
  have hl := length_histCounts1d (p := p) (mx := mx) (S.map some)
  have hlast : ∀ v ∈ S, lastEdge p mx < v := by
    intro v hv
    rw [lastEdge_eq (by omega)]
    have := (nBins_bounds (mx := mx) hp (by linarith)).2
    have := hbig v hv
    linarith
  have hsum : (histCounts1d p mx (S.map some)).sum = 0 := by
    rw [← cumOf_last _ (k := nBins p mx - 1) (by rw [hl]; omega), cumOf_histCounts1d (by omega), List.length_eq_zero_iff, List.filter_eq_nil_iff]
    intro o ho
    obtain ⟨v, hv, rfl⟩ := List.mem_map.1 ho
    have hne : ¬ some v = some (lastEdge p mx) := by
      rw [Option.some.injEq]; exact (hlast v hv).ne'
    unfold bin1
    rw [if_neg hne]
    have : ¬ digitize p mx (some v) < nBins p mx := fun h => by
      have := (digitize_lt_iff hp (by omega) v).1 h
      have := hlast v hv
      linarith
    simp only [decide_eq_true_eq]
    omega
  have ht : threshold1d p mx q (S.map some) = some p := by
    rw [threshold1d_numbers (by omega)]
    congr 1
    apply max_eq_left
    have hall : ∀ k, cumOf (histCounts1d p mx (S.map some)) k = 0 := by
      intro k
      rcases Nat.lt_or_ge (k + 1) (nBins p mx) with h | h
      · have := cumOf_mono (histCounts1d p mx (S.map some)) (i := k) (j := nBins p mx - 1) (by omega)
        rw [cumOf_last _ (k := nBins p mx - 1) (by rw [hl]; omega)] at this
        omega
      · rw [cumOf_last _ (by rw [hl]; omega), hsum]
    rcases quantile1d_cases hp h4 q hq _ hl (by omega) with ⟨h, _⟩ | ⟨u, hu1, _, h1, h2, _⟩ | ⟨_, _, h⟩ | ⟨L, _, _, _, h, _⟩
    · linarith
    · have h2 := h2 0 (by omega)
      unfold cdfOf at h1 h2
      rw [hall] at h1 h2
      linarith
    · linarith
    · unfold cdfOf at h
      rw [hall, hall] at h
      exact absurd h (lt_irrefl _)
  refine ⟨ht, fun b hb => ?_⟩
  rw [ht] at hb
  obtain ⟨o, ho, rfl⟩ := List.mem_map.1 hb
  obtain ⟨v, hv, rfl⟩ := List.mem_map.1 ho
  have := hbig v hv
  simp only [geNaN, decide_eq_true_eq]
  linarith

/-- C69 fails (one threshold per cell) even inside the binned range: raising a single anomaly from minus two bins to minus half a bin can lower the
threshold from about half of `max_anomaly` to one bin. -/
theorem C69_constant_within_range_fails (p : ℚ) (hp : 0 < p) (N a b : Nat) (hN : 4 ≤ N) (hb : 0 < b) (q : ℚ) (hq1 : q ≤ 1)
    (hn : a + 1 + b ≤ 1000000000) (hq : q * ((a + 1 + b : Nat) : ℚ) + 1 ≤ (a : ℚ)) :
    threshold1d p ((N : ℚ) * p) q ((family p N (a + 1) 0 b).map some) = some (((N : ℚ) - 2) / 2 * p) ∧
    threshold1d p ((N : ℚ) * p) q ((family p N a 1 b).map some) = some p ∧
    List.Forall₂ (fun v v' => v ≤ v') (family p N (a + 1) 0 b) (family p N a 1 b) := by
  have hnb := nBins_exact hp N
  refine ⟨family_threshold_gap p hp N (a + 1) b hN hb q hq1 (by omega) (by push_cast at hq ⊢; linarith), ?_, ?_⟩
  · rw [threshold1d_numbers (by omega)]
    congr 1
    apply max_eq_left
    have hl := length_histCounts1d (p := p) (mx := (N : ℚ) * p) ((family p N a 1 b).map some)
    have hlow := family_low p hp N a 1 b (by omega) q hq1 (by omega) hq
    have hsum := family_sum p hp N a 1 b (by omega)
    have hcum := fun k (hk : k < N + 2) => family_cum p hp N a 1 b k (by omega) hk
    generalize histCounts1d p ((N : ℚ) * p) ((family p N a 1 b).map some) = hist at *
    rw [hnb] at hl
    obtain ⟨_, hB⟩ := quantile1d_first (q := q) (hist := hist) (binCentres p ((N : ℚ) * p)) (by omega) (by omega) (Or.inl (by linarith))
    have hpos : (0 : ℚ) < (hist.sum : ℚ) + 1 / 10000000000 := by positivity
    have hlt : cdfOf hist 0 < cdfOf hist 1 := by
      unfold cdfOf
      rw [div_lt_div_iff_of_pos_right hpos, hcum 0 (by omega), hcum 1 (by omega), if_pos (by omega : 1 ≤ 1), if_neg (by omega), if_neg (by omega), if_neg (by omega)]
      push_cast; linarith
    obtain ⟨h1, _, _⟩ := hB 1 (by omega) hlt (fun j hj => by rw [show j = 0 by omega]) (by linarith)
    rw [h1 rfl, binCentres_getD (by omega), centreOf_pos (by omega)]
    push_cast; linarith
  · unfold family
    apply List.rel_append
    · rw [List.replicate_succ', List.replicate_zero, List.append_nil]
      apply List.rel_append
      · exact List.forall₂_same.2 fun _ _ => le_refl _
      · exact .cons (by linarith) .nil
    · exact List.forall₂_same.2 fun _ _ => le_refl _

example : (9 / 10 : ℚ) * ((99 + 1 + 1 : Nat) : ℚ) + 1 ≤ ((99 : Nat) : ℚ) := by norm_num

/-! ### C70: spatial pooling -/

/-- C70: the threshold of a cell depends only on the anomalies of the cells at most `s / 2` rows away (cut off at the edges) and `s / 2` columns away
(around the globe). -/
theorem C70_local_influence (p mx q : ℚ) (w s ny nx : Nat) (hodd : w % 2 = 1) (h3 : 3 ≤ w) (hw : w ≤ 733) (hs : s % 2 = 1) (hnx : s / 2 ≤ nx)
    (r₁ r₂ : Nat → Nat → List Sample) (y x : Nat) (hy : y < ny) (hx : x < nx)
    (h : ∀ c ∈ cellWindow s ny nx y x, r₁ c.1 c.2 = r₂ c.1 c.2) :
    gridThresholds p mx q w s ny nx r₁ y x = gridThresholds p mx q w s ny nx r₂ y x := by
  have hself : (y, x) ∈ cellWindow s ny nx y x := by
    unfold cellWindow latWindow lonWindow
    refine List.mem_flatMap.2 ⟨y, List.mem_filterMap.2 ⟨s / 2, List.mem_range.2 (by omega), ?_⟩, List.mem_map.2 ⟨x, List.mem_map.2 ⟨s / 2, List.mem_range.2 (by omega), ?_⟩, rfl⟩⟩
    · rw [if_pos ⟨by omega, by omega⟩]; congr 1; omega
    · rw [show x + nx * s + s / 2 - s / 2 = x + nx * s by omega, Nat.add_mul_mod_self_left, Nat.mod_eq_of_lt hx]
  rw [gridThresholds_eq p mx q w s ny nx hodd h3 hw hs hnx r₁ y x hy hx, gridThresholds_eq p mx q w s ny nx hodd h3 hw hs hnx r₂ y x hy hx]
  have hwin : ∀ d, windowSamples s ny nx w r₁ y x d = windowSamples s ny nx w r₂ y x d := by
    intro d
    unfold windowSamples
    congr 1
    funext k
    apply List.flatMap_congr
    intro c hc
    rw [h c hc]
  rw [h _ hself]
  simp only [hwin]

example : cellWindow 3 4 10 0 0 = [(0, 9), (0, 0), (0, 1), (1, 9), (1, 0), (1, 1)] := by decide

/-- The cells of the window, in words. -/
theorem C70_window_cells (s ny nx y x : Nat) (hs : s % 2 = 1) (hsx : s ≤ nx) (hy : y < ny) (hx : x < nx) (y' x' : Nat) :
    (y', x') ∈ cellWindow s ny nx y x ↔ y' < ny ∧ y' ≤ y + s / 2 ∧ y ≤ y' + s / 2 ∧ x' < nx ∧
      ∃ j, j ≤ s / 2 ∧ ((x + j) % nx = x' ∨ (x' + j) % nx = x) := by
  unfold cellWindow
  rw [List.mem_flatMap]
  have hlat : ∀ a, a ∈ latWindow s ny y ↔ a < ny ∧ a ≤ y + s / 2 ∧ y ≤ a + s / 2 := by
    intro a
    unfold latWindow
    rw [List.mem_filterMap]
    constructor
    · rintro ⟨k, hk, h⟩
      rw [List.mem_range] at hk
      split at h
      · have := Option.some.inj h; omega
      · cases h
    · rintro ⟨h1, h2, h3⟩
      refine ⟨a + s / 2 - y, List.mem_range.2 (by omega), ?_⟩
      rw [if_pos ⟨by omega, by omega⟩]; congr 1; omega
  have hmul : nx * s = nx * (s - 1) + nx := by
    obtain ⟨k, rfl⟩ : ∃ k, s = k + 1 := ⟨s - 1, by omega⟩
    rw [Nat.add_sub_cancel, Nat.mul_succ]
  have hred : ∀ k, k < s → (x + nx * s + k - s / 2) % nx = (x + nx + k - s / 2) % nx := by
    intro k hk
    rw [hmul, show x + (nx * (s - 1) + nx) + k - s / 2 = (x + nx + k - s / 2) + nx * (s - 1) by omega, Nat.add_mul_mod_self_left]
  have hlon : ∀ a, a ∈ lonWindow s nx x ↔ a < nx ∧ ∃ j, j ≤ s / 2 ∧ ((x + j) % nx = a ∨ (a + j) % nx = x) := by
    intro a
    unfold lonWindow
    rw [List.mem_map]
    constructor
    · rintro ⟨k, hk, rfl⟩
      rw [List.mem_range] at hk
      refine ⟨Nat.mod_lt _ (by omega), ?_⟩
      rw [hred k hk]
      rcases Nat.lt_or_ge k (s / 2) with h | h
      · refine ⟨s / 2 - k, by omega, Or.inr ?_⟩
        rw [Nat.mod_add_mod, show x + nx + k - s / 2 + (s / 2 - k) = x + nx by omega, Nat.add_mod_right, Nat.mod_eq_of_lt hx]
      · refine ⟨k - s / 2, by omega, Or.inl ?_⟩
        rw [show x + nx + k - s / 2 = x + (k - s / 2) + nx by omega, Nat.add_mod_right]
    · rintro ⟨ha, j, hj, h | h⟩
      · refine ⟨s / 2 + j, List.mem_range.2 (by omega), ?_⟩
        rw [hred _ (by omega), show x + nx + (s / 2 + j) - s / 2 = x + j + nx by omega, Nat.add_mod_right, h]
      · refine ⟨s / 2 - j, List.mem_range.2 (by omega), ?_⟩
        rw [hred _ (by omega), show x + nx + (s / 2 - j) - s / 2 = x + nx - j by omega]
        rcases Nat.lt_or_ge (a + j) nx with h' | h'
        · rw [Nat.mod_eq_of_lt h'] at h
          rw [show x + nx - j = a + nx by omega, Nat.add_mod_right, Nat.mod_eq_of_lt ha]
        · rw [Nat.mod_eq_sub_mod h', Nat.mod_eq_of_lt (by omega)] at h
          rw [show x + nx - j = a by omega, Nat.mod_eq_of_lt ha]
  constructor
  · rintro ⟨a, ha, h⟩
    obtain ⟨b, hb, e⟩ := List.mem_map.1 h
    simp only [Prod.mk.injEq] at e
    obtain ⟨rfl, rfl⟩ := e
    obtain ⟨h1, h2, h3⟩ := (hlat _).1 ha
    obtain ⟨h4, h5⟩ := (hlon _).1 hb
    exact ⟨h1, h2, h3, h4, h5⟩
  · rintro ⟨h1, h2, h3, h4, h5⟩
    exact ⟨y', (hlat _).2 ⟨h1, h2, h3⟩, List.mem_map.2 ⟨x', (hlon _).2 ⟨h4, h5⟩, rfl⟩⟩

/-- A regional regionStrip of `nx` cells with a single record of one day everywhere: zero anomaly except for the last column. -/
def regionStrip (nx : Nat) (v : ℚ) : Nat → Nat → List Sample := fun _ x => [⟨2000, 1, some (if x = nx - 1 then v else 0)⟩]

theorem regionStrip_window (nx : Nat) (hnx : 3 ≤ nx) (v : ℚ) : windowSamples 3 1 nx 11 (regionStrip nx v) 0 0 0 = [some v, some 0, some 0] := by
  have hc : cellWindow 3 1 nx 0 0 = [(0, nx - 1), (0, 0), (0, 1)] := by
    have h1 : (0 + nx * 3 + 0 - 3 / 2) % nx = nx - 1 := by
      rw [show 0 + nx * 3 + 0 - 3 / 2 = (nx - 1) + nx * 2 by omega, Nat.add_mul_mod_self_left, Nat.mod_eq_of_lt (by omega)]
    have h2 : (0 + nx * 3 + 1 - 3 / 2) % nx = 0 := by
      rw [show 0 + nx * 3 + 1 - 3 / 2 = nx * 3 by omega, Nat.mul_mod_right]
    have h3 : (0 + nx * 3 + 2 - 3 / 2) % nx = 1 := by
      rw [show 0 + nx * 3 + 2 - 3 / 2 = 1 + nx * 3 by omega, Nat.add_mul_mod_self_left, Nat.mod_eq_of_lt (by omega)]
    have hl : latWindow 3 1 0 = [0] := by decide
    unfold cellWindow
    rw [hl]
    simp only [List.flatMap_cons, List.flatMap_nil, List.append_nil, lonWindow, List.range_succ, List.range_zero, List.nil_append, List.map_append,
      List.map_cons, List.map_nil, h1, h2, h3]
    rfl
  have hd : dayWindow 11 0 = [361, 362, 363, 364, 365, 0, 1, 2, 3, 4, 5] := by decide
  unfold windowSamples
  rw [hd, hc]
  simp [regionStrip, show ¬ 0 = nx - 1 by omega, show ¬ 1 = nx - 1 by omega]

/-- C115 fails on regional grids: the westernmost column takes part of its samples from the easternmost one.  Whatever the width of the region and the
precision, the first column's 70th percentile depends on the anomaly of the last column. -/
theorem C115_regional_wrap_fails (p mx : ℚ) (hp : 0 < p) (hmx : 4 * p < mx) (nx : Nat) (hnx : 3 ≤ nx) :
    gridThresholds p mx (7 / 10) 11 3 1 nx (regionStrip nx 0) 0 0 ≠ gridThresholds p mx (7 / 10) 11 3 1 nx (regionStrip nx (4 * p)) 0 0 := by
  have hnum : ∀ v : ℚ, (windowSamples 3 1 nx 11 (regionStrip nx v) 0 0 0).filterMap id = [v, 0, 0] := by
    intro v; rw [regionStrip_window nx hnx]; rfl
  have key : ∀ v, 0 ≤ v → v < mx → JustAfter [v, 0, 0] (7 / 10 * 3) v → ∃ ts t, gridThresholds p mx (7 / 10) 11 3 1 nx (regionStrip nx v) 0 0 = .ok ts ∧
      ts[0]? = some (some t) ∧ -(3 / 2) * p < t - max p v ∧ t - max p v ≤ p / 2 := by
    intro v hv0 hv hj
    apply C39_hobday_partial p mx hp (by linarith) 11 3 1 nx rfl (by norm_num) (by norm_num) rfl (by omega) (regionStrip nx v) 0 0 (by norm_num) (by omega)
      (7 / 10) (by norm_num) (by norm_num) (by simp [regionStrip]) 0 (by norm_num)
    · rw [hnum]
      intro a ha
      simp only [List.mem_cons, List.not_mem_nil, or_false] at ha
      rcases ha with rfl | rfl | rfl
      · exact hv
      · linarith
      · linarith
    · rw [hnum]; exact hj
  obtain ⟨ts0, t0, e0, g0, _, hi⟩ := key 0 (le_refl 0) (by linarith) ⟨by simp, by simp [below], by simp [atMost]; norm_num⟩
  obtain ⟨ts4, t4, e4, g4, lo, _⟩ := key (4 * p) (by linarith) hmx ⟨by simp, by
      have : (0 : ℚ) < 4 * p := by linarith
      simp [below, this]; norm_num, by
      have : (0 : ℚ) ≤ 4 * p := by linarith
      simp [atMost, this]; norm_num⟩
  rw [e0, e4]
  intro h
  have hts : ts0 = ts4 := Except.ok.inj h
  rw [hts, g4] at g0
  have ht : t4 = t0 := Option.some.inj (Option.some.inj g0)
  rw [max_eq_left hp.le] at hi
  rw [max_eq_right (by linarith)] at lo
  linarith

/-! ### C71: constant anomalies -/

/-- C71: with the approximate method a cell whose anomaly is always zero (for example under permanent ice) is never extreme, for both definitions.
Missing: the exact method, where the claim is false, see below. -/
theorem C71_zero_anomaly_partial (p mx q : ℚ) (hp : 0 < p) (hmx : 0 < mx) (w s ny nx : Nat) (recs : Nat → Nat → List Sample) (y x : Nat)
    (hz : ∀ r ∈ recs y x, r.val = some 0) :
    (∀ e ts, hobdayApprox p mx q w s ny nx recs y x = .ok (e, ts) → ∀ b ∈ e, b = false) ∧
    ∀ b ∈ extremesConstant ((recs y x).map Sample.val) (threshold1d p mx q ((recs y x).map Sample.val)), b = false := by
  constructor
  · intro e ts h b hb
    obtain ⟨_, hf⟩ := C41_hobday_floor p mx q hp hmx w s ny nx recs y x e ts h
    obtain ⟨i, hi⟩ := List.getElem?_of_mem hb
    have hlen : e.length = (recs y x).length := by
      unfold hobdayApprox at h
      split at h
      · cases h
      · simp only [Except.ok.injEq, Prod.mk.injEq] at h
        rw [← h.1]; simp [extremesHobday]
    have hlt : i < (recs y x).length := by rw [← hlen]; exact (List.getElem?_eq_some_iff.1 hi).1
    have hr := List.getElem?_eq_getElem hlt
    have := hf i _ 0 hr (hz _ (List.mem_of_getElem? hr)) hp
    rw [this] at hi
    exact (Option.some.inj hi).symm
  · intro b hb
    obtain ⟨_, hf⟩ := C41_constant_floor p mx q hp hmx ((recs y x).map Sample.val)
    obtain ⟨i, hi⟩ := List.getElem?_of_mem hb
    have hlt : i < ((recs y x).map Sample.val).length := by
      rw [← (C37_extreme_iff_constant ((recs y x).map Sample.val) (threshold1d p mx q ((recs y x).map Sample.val))).1]
      exact (List.getElem?_eq_some_iff.1 hi).1
    have hlt' : i < (recs y x).length := by simpa using hlt
    have hr := List.getElem?_eq_getElem hlt'
    have hv : ((recs y x).map Sample.val)[i]? = some (some 0) := by
      rw [List.getElem?_map, hr, Option.map_some, hz _ (List.mem_of_getElem? hr)]
    rw [hf i 0 hv hp] at hi
    exact (Option.some.inj hi).symm

example : ∀ r ∈ ([⟨2000, 1, some 0⟩, ⟨2001, 1, some 0⟩] : List Sample), r.val = some 0 := by simp

theorem quantileExact_const (q : ℚ) (h0 : 0 ≤ q) (h1 : q ≤ 1) (c : ℚ) (vs : List (Option ℚ)) (hv : ∀ v ∈ vs, v = none ∨ v = some c) (hne : some c ∈ vs) :
    quantileExact q vs = some c := by
  have hne' : vs.filterMap id ≠ [] := List.ne_nil_of_mem (List.mem_filterMap.2 ⟨some c, hne, rfl⟩)
  have hall : ∀ v ∈ vs.filterMap id, v = c := by
    intro v hv'
    obtain ⟨o, ho, e⟩ := List.mem_filterMap.1 hv'
    rw [id_eq] at e
    subst e
    rcases hv _ ho with h | h
    · cases h
    · exact Option.some.inj h
  unfold quantileExact
  dsimp only
  rw [if_neg (by simpa using hne')]
  obtain ⟨⟨a, ha, hla⟩, ⟨b, hb, hub⟩⟩ := percentile_bounds _ q hne' h0 h1
  rw [hall a ha] at hla
  rw [hall b hb] at hub
  rw [le_antisymm hub hla]

/-- C71 fails with the exact method: a cell with any constant anomaly (zero included) is extreme at every time step, for both definitions, every
percentile and every window. -/
theorem C71_exact_constant_fails (q : ℚ) (h0 : 0 ≤ q) (h1 : q ≤ 1) (c : ℚ) (w : Nat) (hw : 0 < w) (record : List Sample)
    (hz : ∀ r ∈ record, r.val = some c ∧ 1 ≤ r.doy ∧ r.doy ≤ 366) :
    (∀ b ∈ extremesConstant (record.map Sample.val) (quantileExact q (record.map Sample.val)), b = true) ∧
    ∀ b ∈ extremesHobday record ((List.range 366).map fun d => thresholdExact q w record (d + 1)), b = true := by
  constructor
  · intro b hb
    obtain ⟨v, hv, rfl⟩ := List.mem_map.1 hb
    obtain ⟨r, hr, rfl⟩ := List.mem_map.1 hv
    have : quantileExact q (record.map Sample.val) = some c := by
      apply quantileExact_const q h0 h1 c
      · intro v hv
        obtain ⟨r, hr, rfl⟩ := List.mem_map.1 hv
        exact Or.inr (hz r hr).1
      · exact List.mem_map.2 ⟨r, hr, (hz r hr).1⟩
    rw [this, (hz r hr).1]
    simp [geNaN]
  · intro b hb
    obtain ⟨r, hr, rfl⟩ := List.mem_map.1 hb
    obtain ⟨hv, hd1, hd2⟩ := hz r hr
    obtain ⟨i, hi⟩ := List.getElem?_of_mem hr
    have hil : i < record.length := (List.getElem?_eq_some_iff.1 hi).1
    have hth : thresholdExact q w record r.doy = some c := by
      unfold thresholdExact
      apply quantileExact_const q h0 h1 c
      · intro v hv
        obtain ⟨j, _, hj⟩ := List.mem_flatMap.1 hv
        split at hj
        · obtain ⟨k, _, rfl⟩ := List.mem_map.1 hj
          split
          · left; rfl
          · rw [List.getD_eq_getElem?_getD, List.getElem?_map]
            cases hg : record[j + k - w / 2]? with
            | none => left; rfl
            | some r' => right; exact (hz r' (List.mem_of_getElem? hg)).1
        · cases hj
      · refine List.mem_flatMap.2 ⟨i, List.mem_range.2 hil, ?_⟩
        rw [if_pos (by rw [List.getD_eq_getElem?_getD, List.getElem?_map, hi]; rfl)]
        refine List.mem_map.2 ⟨w / 2, List.mem_range.2 (by omega), ?_⟩
        rw [if_neg (by omega), show i + w / 2 - w / 2 = i by omega, List.getD_eq_getElem?_getD, List.getElem?_map, hi]
        exact hv
    have hget : ((List.range 366).map fun d => thresholdExact q w record (d + 1)).getD (r.doy - 1) none = some c := by
      rw [List.getD_eq_getElem?_getD, List.getElem?_map, List.getElem?_range (by omega)]
      simp only [Option.map_some, Option.getD_some]
      rw [show r.doy - 1 + 1 = r.doy by omega, hth]
    rw [hget, hv]
    simp [geNaN]

example : ∀ r ∈ ([⟨2000, 1, some 0⟩, ⟨2001, 2, some 0⟩] : List Sample), r.val = some 0 ∧ 1 ≤ r.doy ∧ r.doy ≤ 366 := by simp

/-! ### C72: missing anomalies -/

/-- C72 (day-of-year thresholds): a cell loses all its thresholds if and only if its first step is missing (or a day has no sample at all below the
last bin edge in its window); other missing steps only remove themselves.  Missing: the first step. -/
theorem C72_hobday_missing_partial (p mx q : ℚ) (hp : 0 < p) (hmx : 0 < mx) (h0 : 0 ≤ q) (h1 : q ≤ 1) (w s ny nx : Nat) (hodd : w % 2 = 1) (h3 : 3 ≤ w)
    (hw : w ≤ 733) (hs : s % 2 = 1) (hnx : s / 2 ≤ nx) (recs : Nat → Nat → List Sample) (y x : Nat) (hy : y < ny) (hx : x < nx) :
    ∃ ts, gridThresholds p mx q w s ny nx recs y x = .ok ts ∧ ∀ d, d < 366 →
      (((recs y x).map Sample.val).headD none ≠ none → (∃ v, some v ∈ windowSamples s ny nx w recs y x d ∧ v < mx) → ∃ t, ts[d]? = some (some t)) ∧
      (((recs y x).map Sample.val).headD none = none → ts[d]? = some none) := by
  have hb := nBins_ge3 hp hmx
  refine ⟨_, gridThresholds_eq p mx q w s ny nx hodd h3 hw hs hnx recs y x hy hx, fun d hd => ⟨?_, ?_⟩⟩
  · rintro hf ⟨v, hv, hlt⟩
    rw [List.getElem?_map, List.getElem?_range hd, Option.map_some, if_neg hf]
    have hpos : 0 < (histCounts p mx (windowSamples s ny nx w recs y x d)).sum := by
      rw [sum_histCounts hp (by omega)]
      apply List.length_pos_of_mem (a := v)
      refine List.mem_filter.2 ⟨List.mem_filterMap.2 ⟨some v, hv, rfl⟩, ?_⟩
      rw [lastEdge_eq (by omega)]
      have := (nBins_bounds (mx := mx) hp hmx).1
      simp only [decide_eq_true_eq]; linarith
    obtain ⟨t, ht, _⟩ := row_final hp hb q h0 h1 _ (length_histCounts p mx _) hpos
    exact ⟨_, by rw [ht, applyFloor_some hb]⟩
  · intro hf
    rw [List.getElem?_map, List.getElem?_range hd, Option.map_some, if_pos hf]

/-- C72 fails: one missing anomaly at the first step (day-of-year thresholds) or at any step (one threshold per cell) removes every extreme of the
cell, whatever the rest of the record. -/
theorem C72_missing_removes_all_fails (p mx q : ℚ) (w s ny nx : Nat) (recs : Nat → Nat → List Sample) (y x : Nat) :
    (((recs y x).map Sample.val).headD none = none → ∀ e ts, hobdayApprox p mx q w s ny nx recs y x = .ok (e, ts) → ∀ b ∈ e, b = false) ∧
    ((∃ r ∈ recs y x, r.val = none) →
      ∀ b ∈ extremesConstant ((recs y x).map Sample.val) (threshold1d p mx q ((recs y x).map Sample.val)), b = false) := by
  constructor
  · intro hf e ts h b hb
    unfold hobdayApprox at h
    cases hg : gridThresholds p mx q w s ny nx recs y x with
    | error => rw [hg] at h; cases h
    | ok ts' =>
      rw [hg] at h
      simp only [Except.ok.injEq, Prod.mk.injEq] at h
      obtain ⟨rfl, rfl⟩ := h
      have hnone : ∀ t ∈ ts', t = none := by
        unfold gridThresholds thresholds2d at hg
        split at hg
        · cases hg
        · simp only [Except.ok.injEq] at hg
          subst hg
          intro t ht
          obtain ⟨row, _, hr⟩ := List.mem_map.1 ht
          rw [if_pos (by simpa using hf)] at hr
          exact hr.symm
      obtain ⟨r, _, rfl⟩ := List.mem_map.1 hb
      have : ts'.getD (r.doy - 1) none = none := by
        rw [List.getD_eq_getElem?_getD]
        cases hgt : ts'[r.doy - 1]? with
        | none => rfl
        | some t => exact hnone t (List.mem_of_getElem? hgt)
      rw [this]
      cases r.val <;> rfl
  · rintro ⟨r, hr, hv⟩ b hb
    have : threshold1d p mx q ((recs y x).map Sample.val) = none := by
      unfold threshold1d
      rw [if_pos]
      rw [List.any_eq_true]
      exact ⟨none, List.mem_map.2 ⟨r, hr, hv⟩, by simp⟩
    rw [this] at hb
    obtain ⟨v, _, rfl⟩ := List.mem_map.1 hb
    cases v <;> rfl

example : (([⟨2000, 1, none⟩, ⟨2001, 1, some 4⟩] : List Sample).map Sample.val).headD none = none := rfl

/-! ### C179: 16-bit bin numbers -/

theorem digitize_le (p mx : ℚ) (v : Option ℚ) : digitize p mx v ≤ nBins p mx := by
  cases v with
  | none => exact le_refl _
  | some x =>
    show ((finiteEdges p mx).filter fun e => decide (e ≤ x)).length ≤ _
    refine le_trans (List.length_filter_le _ _) ?_
    simp [finiteEdges]

/-- **C179**, up to 65535 bins: keeping the bin numbers in 16 bits changes no count of the histogram. Missing: finer precisions. -/
theorem C179_counts_partial (p mx : ℚ) (h : (mx + 2 * p) / p ≤ 65535) (vs : List (Option ℚ)) : histCounts16 p mx vs = histCounts p mx vs := by
  have hn : nBins p mx ≤ 65535 := by
    unfold nBins
    have h1 : ⌈(mx + 2 * p) / p⌉ ≤ 65535 := Int.ceil_le.mpr (by exact_mod_cast h)
    omega
  unfold histCounts16 histCounts binNumber16
  refine List.map_congr_left fun b _ => ?_
  congr 1
  refine List.filter_congr fun v _ => ?_
  rw [Nat.mod_eq_of_lt (by have := digitize_le p mx v; omega)]

-- non-vacuity: the default precision 0.01 and max_anomaly 5
example : ((5 : ℚ) + 2 * (1 / 100)) / (1 / 100) ≤ 65535 := by norm_num

/-- **C179** fails with 65536 bins: every missing value and every anomaly at or above the last edge is counted in the lowest bin, which holds the most negative anomalies. -/
theorem C179_counts_fails (p mx : ℚ) (h : nBins p mx = 65536) (vs : List (Option ℚ)) :
    (histCounts16 p mx vs)[0]? = some ((vs.filter fun v => decide (digitize p mx v = 0)).length + (vs.filter fun v => decide (digitize p mx v = nBins p mx)).length) ∧
    (histCounts p mx vs)[0]? = some (vs.filter fun v => decide (digitize p mx v = 0)).length := by
  constructor
  · rw [histCounts16, h, List.getElem?_map, List.getElem?_range (by norm_num), Option.map_some]
    congr 1
    induction vs with
    | nil => rfl
    | cons v vs ih =>
      have hv : digitize p mx v ≤ 65536 := h ▸ digitize_le p mx v
      have key : (binNumber16 p mx v = 0) ↔ (digitize p mx v = 0 ∨ digitize p mx v = 65536) := by unfold binNumber16; omega
      simp only [List.filter_cons, decide_eq_true_eq, key]
      by_cases h0 : digitize p mx v = 0
      · rw [if_pos (Or.inl h0), if_pos h0, if_neg (by omega), List.length_cons, List.length_cons, ih]; omega
      · by_cases h1 : digitize p mx v = 65536
        · rw [if_pos (Or.inr h1), if_neg h0, if_pos h1, List.length_cons, List.length_cons, ih]; omega
        · rw [if_neg (by tauto), if_neg h0, if_neg h1, ih]
  · rw [histCounts, h, List.getElem?_map, List.getElem?_range (by norm_num), Option.map_some]

-- non-vacuity: precision 1, max_anomaly 65534, and a missing value
example : nBins 1 65534 = 65536 ∧ digitize 1 65534 none = nBins 1 65534 := by
  refine ⟨?_, rfl⟩
  unfold nBins
  rw [show ((65534 : ℚ) + 2 * 1) / 1 = ((65536 : Int) : ℚ) by norm_num, Int.ceil_intCast]
  rfl

end MarEx.Props
