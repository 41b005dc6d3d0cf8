import Verif.Lemmas.Threshold
/-! Consequences of the quantile lemmas: monotonicity, bounds and accuracy of thresholds. -/
namespace MarEx
open Spec

section bounds
variable {p mx : ℚ}

theorem nBins_ge4 (hp : 0 < p) (h : p < mx) : 4 ≤ nBins p mx := by
  unfold nBins
  have h1 : (3 : ℚ) < (mx + 2 * p) / p := by rw [lt_div_iff₀ hp]; linarith
  have h2 : (3 : ℤ) < ⌈(mx + 2 * p) / p⌉ := Int.lt_ceil.2 (by exact_mod_cast h1)
  omega

theorem nBins_ge3 (hp : 0 < p) (h : 0 < mx) : 3 ≤ nBins p mx := by
  unfold nBins
  have h1 : (2 : ℚ) < (mx + 2 * p) / p := by rw [lt_div_iff₀ hp]; linarith
  have h2 : (2 : ℤ) < ⌈(mx + 2 * p) / p⌉ := Int.lt_ceil.2 (by exact_mod_cast h1)
  omega

/-- The last edge lies at or beyond `max_anomaly`, by less than one bin. -/
theorem nBins_bounds (hp : 0 < p) (h : 0 < mx) : mx ≤ ((nBins p mx : ℚ) - 2) * p ∧ ((nBins p mx : ℚ) - 2) * p < mx + p := by
  have hpos : (0 : ℚ) < (mx + 2 * p) / p := by positivity
  have hc : ((nBins p mx : ℤ)) = ⌈(mx + 2 * p) / p⌉ := by
    unfold nBins
    rw [Int.toNat_of_nonneg]
    exact (Int.ceil_pos.2 hpos).le
  have h1 := Int.le_ceil ((mx + 2 * p) / p)
  have h2 := Int.ceil_lt_add_one ((mx + 2 * p) / p)
  rw [← hc] at h1 h2
  have e : (((nBins p mx : ℤ)) : ℚ) = (nBins p mx : ℚ) := by push_cast; rfl
  rw [e] at h1 h2
  rw [div_le_iff₀ hp] at h1
  have h2' : (nBins p mx : ℚ) - 1 < (mx + 2 * p) / p := by linarith
  rw [lt_div_iff₀ hp] at h2'
  constructor <;> linarith

theorem nBins_exact (hp : 0 < p) (N : Nat) : nBins p ((N : ℚ) * p) = N + 2 := by
  unfold nBins
  have : ((N : ℚ) * p + 2 * p) / p = ((N + 2 : ℕ) : ℚ) := by
    push_cast; field_simp
  rw [this, Int.ceil_natCast]
  rfl

theorem centreOf_pos {k : Nat} (hk : 1 ≤ k) : centreOf p k = ((k : ℚ) - 3 / 2) * p := by
  unfold centreOf; rw [if_neg (by omega)]

end bounds

section rows
variable {p mx : ℚ}

/-- Row quantiles grow with the percentile and with the (stochastic) order of the rows. -/
theorem row_mono (hp : 0 < p) (h3 : 3 ≤ nBins p mx) {q₁ q₂ : ℚ} (h0 : 0 ≤ q₁) (h12 : q₁ ≤ q₂) (h1 : q₂ ≤ 1)
    (a b : List Nat) (hla : a.length = nBins p mx) (hlb : b.length = nBins p mx) (hs : a.sum = b.sum) (ht : 0 < a.sum)
    (hdom : ∀ k, cumOf b k ≤ cumOf a k) (hone : q₂ = 1 → q₁ < 1 ∨ a = b) :
    ∃ t₁ t₂, applyFloor p mx (rowQuantile q₁ (binCentres p mx) a) = some t₁ ∧
      applyFloor p mx (rowQuantile q₂ (binCentres p mx) b) = some t₂ ∧ t₁ ≤ t₂ ∧ p ≤ t₁ ∧
      t₂ ≤ max p (centreOf p (nBins p mx - 1)) := by
  obtain ⟨t₁, hv1, u₁, hu1, hlt1, heq1, hsm1, hbig1⟩ := row_final hp h3 q₁ h0 (le_trans h12 h1) a hla ht
  obtain ⟨t₂, hv2, u₂, hu2, hlt2, heq2, hsm2, hbig2⟩ := row_final hp h3 q₂ (le_trans h0 h12) h1 b hlb (by omega)
  rw [hv1, hv2, applyFloor_some h3, applyFloor_some h3]
  have hN : (0 : ℚ) ≤ (a.sum : ℚ) := by positivity
  have hpos : q₁ * (a.sum : ℚ) ≤ q₂ * (b.sum : ℚ) := by rw [← hs]; exact mul_le_mul_of_nonneg_right h12 hN
  have hbnd : t₂ ≤ max p (centreOf p (nBins p mx - 1)) := by
    by_cases h2 : 2 ≤ u₂
    · obtain ⟨f, hf0, hf1, _, _, rfl⟩ := hbig2 h2
      have hc := centreOf_mono hp (i := u₂) (j := nBins p mx - 1) (by omega) (by omega)
      refine le_max_of_le_right (le_trans ?_ hc)
      rw [centreOf_pos (by omega), centreOf_pos (by omega), Nat.cast_sub (by omega)]
      push_cast
      nlinarith
    · have := hsm2 (by omega)
      exact le_max_of_le_left (by linarith)
  refine ⟨_, _, rfl, rfl, ?_, le_max_left _ _, max_le (le_max_left _ _) hbnd⟩
  by_cases hu : u₁ ≤ 1
  · have := hsm1 hu
    exact max_le (le_max_left _ _) (le_max_of_le_left (by linarith))
  · refine max_le_max_left p ?_
    -- the same row and quantile
    rcases lt_or_eq_of_le h1 with hq2 | hq2
    · obtain ⟨hA1, hA2⟩ := hlt1 (lt_of_le_of_lt h12 hq2)
      obtain ⟨hB1, hB2⟩ := hlt2 hq2
      have huu : u₁ ≤ u₂ := by
        by_contra hc
        have ha := hA2 u₂ (by omega)
        have hb : (cumOf b u₂ : ℚ) ≤ (cumOf a u₂ : ℚ) := by exact_mod_cast hdom u₂
        linarith
      obtain ⟨f1, hf10, hf11, hfl1, _, rfl⟩ := hbig1 (by omega)
      obtain ⟨f2, hf20, hf21, hfl2, _, rfl⟩ := hbig2 (by omega)
      rcases Nat.lt_or_eq_of_le huu with hlt | heq
      · rw [centreOf_pos (by omega), centreOf_pos (by omega), Nat.cast_sub (by omega), Nat.cast_sub (by omega)]
        have : (u₁ : ℚ) + 1 ≤ (u₂ : ℚ) := by exact_mod_cast hlt
        push_cast
        nlinarith
      · subst heq
        have e1 := (hfl1 (lt_of_le_of_lt h12 hq2)).2
        have e2 := (hfl2 hq2).2
        have hff : f1 ≤ f2 := by
          have hA0 := hA2 (u₁ - 1) (by omega)
          have hB0 := hB2 (u₁ - 1) (by omega)
          have d0 : (cumOf b (u₁ - 1) : ℚ) ≤ (cumOf a (u₁ - 1) : ℚ) := by exact_mod_cast hdom _
          have d1 : (cumOf b u₁ : ℚ) ≤ (cumOf a u₁ : ℚ) := by exact_mod_cast hdom _
          rw [e1, e2, div_le_div_iff₀ (by linarith) (by linarith)]
          nlinarith
        have := mul_le_mul_of_nonneg_right hff hp.le
        linarith
    · rcases hone hq2 with hq1 | hab
      · have hu2 := heq2 hq2
        obtain ⟨hA1, hA2⟩ := hlt1 hq1
        obtain ⟨f1, hf10, hf11, hfl1, _, rfl⟩ := hbig1 (by omega)
        obtain ⟨f2, hf20, hf21, _, hf2, rfl⟩ := hbig2 (by omega)
        rcases Nat.lt_or_eq_of_le (show u₁ ≤ u₂ by omega) with hlt | heq
        · rw [centreOf_pos (by omega), centreOf_pos (by omega), Nat.cast_sub (by omega), Nat.cast_sub (by omega)]
          have : (u₁ : ℚ) + 1 ≤ (u₂ : ℚ) := by exact_mod_cast hlt
          push_cast
          nlinarith
        · subst heq
          rcases hf2 hq2 with rfl | ⟨_, hcum⟩
          · nlinarith
          · exfalso
            have hA0 := hA2 (u₁ - 1) (by omega)
            have d0 : (cumOf b (u₁ - 1) : ℚ) ≤ (cumOf a (u₁ - 1) : ℚ) := by exact_mod_cast hdom _
            have e1 : cumOf a u₁ = a.sum := cumOf_last a (by omega)
            have e2 : cumOf b u₁ = b.sum := cumOf_last b (by omega)
            have : (cumOf b u₁ : ℚ) = (cumOf b (u₁ - 1) : ℚ) := by exact_mod_cast hcum
            rw [e2, ← hs, ← e1] at this
            linarith
      · subst hab
        rcases lt_or_eq_of_le (le_trans h12 h1) with hq1 | hq1
        · have hu2 := heq2 hq2
          obtain ⟨hA1, hA2⟩ := hlt1 hq1
          obtain ⟨f1, hf10, hf11, hfl1, _, rfl⟩ := hbig1 (by omega)
          obtain ⟨f2, hf20, hf21, _, hf2, rfl⟩ := hbig2 (by omega)
          rcases Nat.lt_or_eq_of_le (show u₁ ≤ u₂ by omega) with hlt | heq
          · rw [centreOf_pos (by omega), centreOf_pos (by omega), Nat.cast_sub (by omega), Nat.cast_sub (by omega)]
            have : (u₁ : ℚ) + 1 ≤ (u₂ : ℚ) := by exact_mod_cast hlt
            push_cast
            nlinarith
          · subst heq
            rcases hf2 hq2 with rfl | ⟨_, hcum⟩
            · nlinarith
            · exfalso
              have hA0 := hA2 (u₁ - 1) (by omega)
              have : (cumOf a u₁ : ℚ) = (cumOf a (u₁ - 1) : ℚ) := by exact_mod_cast hcum
              linarith
        · rw [hq1, ← hq2] at hv1
          rw [hv1] at hv2
          exact (Option.some.inj hv2).le

theorem cumOf_numbers {vs : List (Option ℚ)} {k : Nat} (hk : k < nBins p mx) :
    cumOf (histCounts p mx vs) k = ((vs.filterMap id).filter fun v => digitize p mx (some v) ≤ k).length := by
  rw [cumOf_histCounts hk]
  induction vs with
  | nil => rfl
  | cons v t ih =>
    cases v with
    | none =>
      have : ¬ digitize p mx none ≤ k := by show ¬ nBins p mx ≤ _; omega
      rw [List.filter_cons_of_neg (by simpa using this), List.filterMap_cons_none rfl, ih]
    | some v =>
      rw [List.filterMap_cons_some (by rfl)]
      by_cases hc : digitize p mx (some v) ≤ k
      · rw [List.filter_cons_of_pos (by simpa using hc), List.filter_cons_of_pos (by simpa using hc), List.length_cons, List.length_cons, ih]
      · rw [List.filter_cons_of_neg (by simpa using hc), List.filter_cons_of_neg (by simpa using hc), ih]

/-- Accuracy of a row quantile of samples below the last edge. -/
theorem row_accuracy (hp : 0 < p) (h3 : 3 ≤ nBins p mx) {q : ℚ} (h0 : 0 ≤ q) (h1 : q < 1) (vs : List (Option ℚ))
    (hr : ∀ v ∈ vs.filterMap id, v < lastEdge p mx) {x : ℚ} (hx : JustAfter (vs.filterMap id) (q * ((vs.filterMap id).length : ℚ)) x) :
    ∃ t, applyFloor p mx (rowQuantile q (binCentres p mx) (histCounts p mx vs)) = some t ∧
      -(3 / 2) * p < t - max p x ∧ t - max p x ≤ p / 2 := by
  obtain ⟨hmem, hlow, hup⟩ := hx
  have hm1 : 1 ≤ nBins p mx := by omega
  have hsum : (histCounts p mx vs).sum = (vs.filterMap id).length := by
    rw [sum_histCounts hp hm1, List.filter_eq_self.2 (fun a ha => by simpa using hr a ha)]
  have hpos : 0 < (vs.filterMap id).length := List.length_pos_of_mem hmem
  obtain ⟨t, hv, u, hu, hlt, _, hsm, hbig⟩ := row_final hp h3 q h0 h1.le (histCounts p mx vs) (length_histCounts p mx vs) (by omega)
  obtain ⟨hA1, hA2⟩ := hlt h1
  rw [hsum] at hA1 hA2
  rw [hv, applyFloor_some h3]
  have hcum := fun k (hk : k < nBins p mx) => cumOf_numbers (vs := vs) hk
  have hdx : digitize p mx (some x) < nBins p mx := (digitize_lt_iff hp hm1 x).2 (hr x hmem)
  have hbin : digitize p mx (some x) = u := by
    apply Nat.le_antisymm
    · by_contra hc
      rw [not_le] at hc
      -- everything binned up to u lies below x
      have : cumOf (histCounts p mx vs) u ≤ below (vs.filterMap id) x := by
        rw [hcum u hu]
        unfold below
        apply List.Sublist.length_le
        apply List.monotone_filter_right
        intro v hv
        simp only [decide_eq_true_eq] at hv ⊢
        by_contra hge
        have := digitize_mono (mx := mx) hp (not_lt.1 hge)
        omega
      have : (cumOf (histCounts p mx vs) u : ℚ) ≤ (below (vs.filterMap id) x : ℚ) := by exact_mod_cast this
      linarith
    · by_contra hc
      rw [not_le] at hc
      have h := hA2 _ hc
      have : atMost (vs.filterMap id) x ≤ cumOf (histCounts p mx vs) (digitize p mx (some x)) := by
        rw [hcum _ hdx]
        unfold atMost
        apply List.Sublist.length_le
        apply List.monotone_filter_right
        intro v hv
        simp only [decide_eq_true_eq] at hv ⊢
        exact digitize_mono hp hv
      have : (atMost (vs.filterMap id) x : ℚ) ≤ (cumOf (histCounts p mx vs) (digitize p mx (some x)) : ℚ) := by exact_mod_cast this
      linarith
  refine ⟨_, rfl, ?_⟩
  obtain ⟨hb1, hb2⟩ := digitize_bounds hp hbin hu
  by_cases h2 : 2 ≤ u
  · obtain ⟨f, hf0, _, hff, _, rfl⟩ := hbig h2
    have hf1 := (hff h1).1
    have hb1 := hb1 (by omega)
    rw [centreOf_pos (by omega), Nat.cast_sub (by omega)]
    push_cast
    have hlo : -(3 / 2) * p < (((u : ℚ) - 1 - 3 / 2) * p + f * p) - x := by nlinarith
    have hhi : (((u : ℚ) - 1 - 3 / 2) * p + f * p) - x ≤ p / 2 := by nlinarith
    generalize ((u : ℚ) - 1 - 3 / 2) * p + f * p = t at *
    constructor
    · rcases le_total p x with h | h
      · rw [max_eq_right h]; linarith [le_max_right p t]
      · rw [max_eq_left h]; linarith [le_max_left p t]
    · rcases le_total p t with h | h
      · rw [max_eq_right h]; linarith [le_max_right p x]
      · rw [max_eq_left h]; linarith [le_max_left p x]
  · have ht := hsm (by omega)
    have hx0 : x < p := by
      have : (u : ℚ) ≤ 1 := by exact_mod_cast (by omega : u ≤ 1)
      nlinarith
    rw [max_eq_left (by linarith), max_eq_left hx0.le]
    constructor <;> linarith

/-- Histograms of pointwise larger samples are stochastically larger. -/
theorem histCounts_dominated (hp : 0 < p) (hm : 1 ≤ nBins p mx) {a b : List (Option ℚ)}
    (h : List.Forall₂ (fun v w => (v = none ∧ w = none) ∨ ∃ x y, v = some x ∧ w = some y ∧ x ≤ y ∧ y < lastEdge p mx) a b) :
    (histCounts p mx a).sum = (histCounts p mx b).sum ∧ ∀ k, cumOf (histCounts p mx b) k ≤ cumOf (histCounts p mx a) k := by
  have hs : (histCounts p mx a).sum = (histCounts p mx b).sum := by
    rw [sum_histCounts hp hm, sum_histCounts hp hm]
    induction h with
    | nil => rfl
    | cons hd _ ih =>
      rcases hd with ⟨rfl, rfl⟩ | ⟨x, y, rfl, rfl, hxy, hy⟩
      · simpa using ih
      · rw [List.filterMap_cons_some (by rfl), List.filterMap_cons_some (by rfl),
          List.filter_cons_of_pos (by simpa using lt_of_le_of_lt hxy hy), List.filter_cons_of_pos (by simpa using hy),
          List.length_cons, List.length_cons, ih]
  refine ⟨hs, fun k => ?_⟩
  by_cases hk : k < nBins p mx
  · rw [cumOf_histCounts hk, cumOf_histCounts hk]
    clear hs
    induction h with
    | nil => simp
    | cons hd _ ih =>
      rcases hd with ⟨rfl, rfl⟩ | ⟨x, y, rfl, rfl, hxy, hy⟩
      · have : ¬ digitize p mx none ≤ k := by show ¬ nBins p mx ≤ _; omega
        rw [List.filter_cons_of_neg (by simpa using this), List.filter_cons_of_neg (by simpa using this)]
        exact ih
      · have hmono := digitize_mono (mx := mx) hp hxy
        by_cases hc : digitize p mx (some y) ≤ k
        · rw [List.filter_cons_of_pos (by simpa using hc), List.filter_cons_of_pos (by simpa using le_trans hmono hc),
            List.length_cons, List.length_cons]
          omega
        · rw [List.filter_cons_of_neg (by simpa using hc)]
          refine le_trans ih ?_
          apply List.Sublist.length_le
          exact (List.sublist_cons_self _ _).filter _
  · rw [cumOf_last _ (by rw [length_histCounts]; omega), cumOf_last _ (by rw [length_histCounts]; omega), hs]

end rows

section constant
variable {p mx : ℚ}

/-- The bin used by the one-dimensional method: the last edge belongs to the last bin. -/
def bin1 (p mx : ℚ) (v : Option ℚ) : Nat := if v = some (lastEdge p mx) then nBins p mx - 1 else digitize p mx v

theorem length_histCounts1d (vs : List (Option ℚ)) : (histCounts1d p mx vs).length = nBins p mx := by simp [histCounts1d]

theorem cumOf_histCounts1d {vs : List (Option ℚ)} {k : Nat} (hk : k < nBins p mx) :
    cumOf (histCounts1d p mx vs) k = (vs.filter fun v => bin1 p mx v ≤ k).length := by
  unfold cumOf histCounts1d
  rw [take_map_range_sum _ _ _ hk]
  exact sum_counts vs (bin1 p mx) k

theorem bin1_mono (hp : 0 < p) (hm : 1 ≤ nBins p mx) {x y : ℚ} (h : x ≤ y) : bin1 p mx (some x) ≤ bin1 p mx (some y) := by
  have hmono := digitize_mono (mx := mx) hp h
  have hx := digitize_lt_iff (mx := mx) hp hm x
  have hy := digitize_lt_iff (mx := mx) hp hm y
  unfold bin1
  by_cases h1 : some x = some (lastEdge p mx) <;> by_cases h2 : some y = some (lastEdge p mx)
  · rw [if_pos h1, if_pos h2]
  · rw [if_pos h1, if_neg h2]
    rw [Option.some.injEq] at h1 h2
    have : ¬ digitize p mx (some y) < nBins p mx := fun hc => by have := hy.1 hc; linarith
    omega
  · rw [if_neg h1, if_pos h2]
    rw [Option.some.injEq] at h1 h2
    have : digitize p mx (some x) < nBins p mx := hx.2 (lt_of_le_of_ne (by linarith) h1)
    omega
  · rw [if_neg h1, if_neg h2]; exact hmono

theorem bin1_of_lt {x : ℚ} (h : x < lastEdge p mx) : bin1 p mx (some x) = digitize p mx (some x) := by
  unfold bin1; rw [if_neg]; rw [Option.some.injEq]; exact h.ne

theorem sum_le_length (vs : List (Option ℚ)) (hm : 1 ≤ nBins p mx) : (histCounts1d p mx vs).sum ≤ vs.length := by
  rw [← cumOf_last (histCounts1d p mx vs) (k := nBins p mx - 1) (by rw [length_histCounts1d]; omega), cumOf_histCounts1d (by omega)]
  exact List.length_filter_le _ _

/-- The first bin whose cumulative fraction reaches `q`, if any. -/
theorem exists_first (hist : List Nat) (q : ℚ) :
    (∃ u, u < hist.length ∧ q - 1 / 10000000000 ≤ cdfOf hist u ∧ ∀ j, j < u → cdfOf hist j < q - 1 / 10000000000) ∨
    (∀ k, k < hist.length → cdfOf hist k < q - 1 / 10000000000) := by
  by_cases h : ∃ k, k < hist.length ∧ q - 1 / 10000000000 ≤ cdfOf hist k
  · left
    obtain ⟨h1, h2⟩ := Nat.find_spec h
    refine ⟨Nat.find h, h1, h2, fun j hj => ?_⟩
    have := Nat.find_min h hj
    rw [not_and, not_le] at this
    exact this (by omega)
  · right
    intro k hk
    by_contra hc
    exact h ⟨k, hk, not_lt.1 hc⟩

theorem cdf_reaches (hist : List Nat) (q : ℚ) (hq : q ≤ 1) (hpos : 0 < hist.sum) (hm : 1 ≤ hist.length) :
    q - 1 / 10000000000 ≤ cdfOf hist (hist.length - 1) := by
  unfold cdfOf
  rw [cumOf_last hist (by omega)]
  have : (1 : ℚ) ≤ (hist.sum : ℚ) := by exact_mod_cast hpos
  have h : 1 - 1 / 10000000000 ≤ (hist.sum : ℚ) / ((hist.sum : ℚ) + 1 / 10000000000) := by
    rw [le_div_iff₀ (by linarith)]
    linarith
  linarith

/-- Where the one-dimensional quantile lies. -/
theorem quantile1d_cases (hp : 0 < p) (h4 : 4 ≤ nBins p mx) (q : ℚ) (hq : q ≤ 1) (hist : List Nat) (hl : hist.length = nBins p mx)
    (hn : hist.sum ≤ 1000000000) :
    (quantile1d q (binCentres p mx) hist ≤ 0 ∧ hist.sum = 0) ∨
    (∃ u, 1 ≤ u ∧ u < nBins p mx ∧ q - 1 / 10000000000 ≤ cdfOf hist u ∧ (∀ j, j < u → cdfOf hist j < q - 1 / 10000000000) ∧
      (u + 2 ≤ nBins p mx → quantile1d q (binCentres p mx) hist = centreOf p u) ∧
      (u = nBins p mx - 1 → ∃ f, 0 < f ∧ f ≤ 5 / 4 ∧
        f = (q - cdfOf hist (nBins p mx - 2)) / (cdfOf hist (nBins p mx - 1) - cdfOf hist (nBins p mx - 2)) ∧
        quantile1d q (binCentres p mx) hist = centreOf p (nBins p mx - 2) + f * p)) ∨
    (q - 1 / 10000000000 ≤ cdfOf hist 0 ∧ (∀ k, k < nBins p mx → cdfOf hist k = cdfOf hist 0) ∧ quantile1d q (binCentres p mx) hist ≤ 0) ∨
    (∃ L, 1 ≤ L ∧ L < nBins p mx ∧ q - 1 / 10000000000 ≤ cdfOf hist 0 ∧ cdfOf hist 0 < cdfOf hist L ∧ (∀ j, j < L → cdfOf hist j = cdfOf hist 0) ∧
      (L + 2 ≤ nBins p mx → quantile1d q (binCentres p mx) hist = centreOf p L +
        ((q - cdfOf hist L) / (cdfOf hist 0 - cdfOf hist L)) * (centreOf p 1 - centreOf p L) ∨ L = 1 ∧ quantile1d q (binCentres p mx) hist = centreOf p 1) ∧
      (L = nBins p mx - 1 → quantile1d q (binCentres p mx) hist =
        if |cdfOf hist 0 - q| < 1 / 10000000000 then centreOf p (nBins p mx - 2)
        else (centreOf p (nBins p mx - 2) + centreOf p 1) / 2)) := by
  have hc0 : (binCentres p mx).getD 0 0 = 0 := by rw [binCentres_getD (by omega)]; simp [centreOf]
  have hc1 : (binCentres p mx).getD 1 0 = -(1 / 2) * p := by
    rw [binCentres_getD (by omega), centreOf_pos (by omega)]; push_cast; ring
  rcases exists_first hist q with ⟨u, hu, h1, h2⟩ | hnone
  · rcases Nat.eq_zero_or_pos u with rfl | hu0
    · obtain ⟨hA, hB⟩ := quantile1d_first (binCentres p mx) (by omega) hn (Or.inl h1)
      by_cases hall : ∀ k, k < hist.length → cdfOf hist k = cdfOf hist 0
      · right; right; left
        refine ⟨h1, by rw [← hl]; exact hall, ?_⟩
        rcases hA hall with h | h <;> rw [h, hc0]
        rw [hc1]; linarith
      · right; right; right
        have hex : ∃ k, k < hist.length ∧ cdfOf hist k ≠ cdfOf hist 0 := by
          by_contra hc
          apply hall
          intro k hk
          by_contra hne
          exact hc ⟨k, hk, hne⟩
        obtain ⟨hL1, hL2⟩ := Nat.find_spec hex
        have hbefore : ∀ j, j < Nat.find hex → cdfOf hist j = cdfOf hist 0 := by
          intro j hj
          have := Nat.find_min hex hj
          rw [not_and, not_not] at this
          exact this (by omega)
        have hL0 : 1 ≤ Nat.find hex := by
          by_contra hc
          apply hL2
          rw [show Nat.find hex = 0 by omega]
        have hlt : cdfOf hist 0 < cdfOf hist (Nat.find hex) := lt_of_le_of_ne (cdfOf_mono hist (by omega)) (Ne.symm hL2)
        obtain ⟨hB1, hB2, hB3⟩ := hB _ hL1 hlt hbefore h1
        refine ⟨Nat.find hex, hL0, by omega, h1, hlt, hbefore, ?_, ?_⟩
        · intro hL
          rcases Nat.lt_or_ge (Nat.find hex) 2 with hlt2 | hge2
          · right
            have : Nat.find hex = 1 := by omega
            refine ⟨this, ?_⟩
            rw [hB1 this, binCentres_getD (by omega)]
          · left
            rw [hB2 hge2 (by omega), binCentres_getD (by omega), binCentres_getD (by omega)]
        · intro hL
          rw [hB3 (by omega), binCentres_getD (by omega), binCentres_getD (by omega), hl]
    · right; left
      refine ⟨u, hu0, by omega, h1, h2, ?_, ?_⟩
      · intro hum
        rw [quantile1d_inner _ hu0 (by omega) h1 h2, binCentres_getD (by omega)]
      · intro hue
        have hul : u = hist.length - 1 := by omega
        subst hul
        have := quantile1d_last (binCentres p mx) (by omega) hn h1 h2
        rw [binCentres_getD (by omega), binCentres_getD (by omega), hl] at this
        have hd : centreOf p (nBins p mx - 1) - centreOf p (nBins p mx - 2) = p := by
          rw [centreOf_pos (by omega), centreOf_pos (by omega), Nat.cast_sub (by omega), Nat.cast_sub (by omega)]
          push_cast; ring
        rw [hd] at this
        rw [hl] at h1 h2
        have hlt : cdfOf hist (nBins p mx - 2) < cdfOf hist (nBins p mx - 1) := lt_of_lt_of_le (h2 _ (by omega)) h1
        have hstep := cdfOf_step hist hn hlt
        have hlo := h2 (nBins p mx - 2) (by omega)
        refine ⟨_, ?_, ?_, rfl, this⟩
        · apply div_pos <;> linarith
        · rw [div_le_iff₀ (by linarith)]
          linarith
  · left
    have hzero : hist.sum = 0 := by
      by_contra hc
      have := cdf_reaches hist q hq (by omega) (by omega)
      have := hnone (hist.length - 1) (by omega)
      linarith
    refine ⟨?_, hzero⟩
    obtain ⟨hA, _⟩ := quantile1d_first (binCentres p mx) (by omega) hn (Or.inr hnone)
    have hall : ∀ k, k < hist.length → cdfOf hist k = cdfOf hist 0 := by
      intro k hk
      have h0 : ∀ j, cumOf hist j = 0 := by
        intro j
        rcases Nat.lt_or_ge (j + 1) hist.length with h | h
        · have := cumOf_mono hist (i := j) (j := hist.length - 1) (by omega)
          rw [cumOf_last hist (k := hist.length - 1) (by omega)] at this
          omega
        · rw [cumOf_last hist h, hzero]
      unfold cdfOf
      rw [h0, h0]
    rcases hA hall with h | h <;> rw [h, hc0]
    rw [hc1]; linarith

end constant
end MarEx
