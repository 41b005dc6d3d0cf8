import Verif.Model.FloatBins
import Verif.Props.Float
import Verif.Props.Threshold
/-! # C180: thresholds in floating point -/
namespace MarEx.Props
open MarEx MarEx.Spec

variable {p mx : ℚ}

theorem fl_neg (b : Nat) (x : ℚ) (hx : 0 ≤ x) (hb : 2 ≤ b) (h : Representable b x) : fl b (-x) = -x := by
  have h1 := fl_exact b hb x hx h
  unfold fl at h1 ⊢
  have hu : ulp b (-x) = ulp b x := by unfold ulp; rw [abs_neg]
  rw [hu]
  have hpos := ulp_pos b x
  have h2 : x / ulp b x = (roundEven (x / ulp b x) : ℚ) := by
    rw [div_eq_iff hpos.ne']; linarith
  have h3 : -x / ulp b x = ((-(roundEven (x / ulp b x)) : ℤ) : ℚ) := by
    rw [neg_div, Int.cast_neg, ← h2]
  rw [h3, roundEven_int]
  push_cast
  rw [mul_neg, h1]

theorem stepFl_pos (b : Nat) (hb : 1 ≤ b) (hp : 0 < p) : 0 < fl b p := by
  have := le_fl b hb p hp.le
  have h2 : (1 : ℚ) / 2 ^ b < 1 := by
    rw [div_lt_one (by positivity)]
    exact one_lt_pow₀ (by norm_num) (by omega)
  have : 0 < p * (1 - 1 / 2 ^ b) := mul_pos hp (by linarith)
  linarith

/-- The argument of the outer rounding. -/
theorem edge_arg_nonneg (b : Nat) (hb : 2 ≤ b) (hp : 0 < p) (j : Nat) (hj : 1 ≤ j) : 0 ≤ -(fl b p) + fl b ((j : ℚ) * fl b p) := by
  have hd := stepFl_pos b (by omega) hp
  have h1 := fl_exact b hb (fl b p) hd.le (fl_representable b (by omega) p hp.le)
  have h2 : fl b p ≤ (j : ℚ) * fl b p := by
    have : (1 : ℚ) ≤ j := by exact_mod_cast hj
    nlinarith
  have := fl_mono b (by omega) hd.le h2
  rw [h1] at this
  linarith

/-- The general formula holds from the second edge on. -/
theorem edgeFl_eq (b : Nat) (hb : 2 ≤ b) (hp : 0 < p) (j : Nat) (hj : 1 ≤ j) : edgeFl b p j = fl b (-(fl b p) + fl b ((j : ℚ) * fl b p)) := by
  unfold edgeFl
  rw [if_neg (by omega)]
  by_cases h1 : j = 1
  · subst h1
    rw [if_pos rfl, Nat.cast_one, one_mul, fl_exact b hb (fl b p) (stepFl_pos b (by omega) hp).le (fl_representable b (by omega) p hp.le),
      neg_add_cancel, fl_zero]
  · rw [if_neg h1]

theorem edgeFl_nonneg (b : Nat) (hb : 2 ≤ b) (hp : 0 < p) (j : Nat) (hj : 1 ≤ j) : 0 ≤ edgeFl b p j := by
  rw [edgeFl_eq b hb hp j hj]
  exact fl_nonneg b _ (edge_arg_nonneg b hb hp j hj)

theorem edgeFl_representable (b : Nat) (hb : 2 ≤ b) (hp : 0 < p) (j : Nat) (hj : 1 ≤ j) : Representable b (edgeFl b p j) := by
  rw [edgeFl_eq b hb hp j hj]
  exact fl_representable b (by omega) _ (edge_arg_nonneg b hb hp j hj)

/-- Edge `j` is `(j - 1) p` up to one part in `2 ^ (b - 2)` of `j p`. -/
theorem edgeFl_err (b : Nat) (hb : 4 ≤ b) (hp : 0 < p) (j : Nat) (hj : 1 ≤ j) : |edgeFl b p j - ((j : ℚ) - 1) * p| ≤ 4 * (j * p) / 2 ^ b := by
  have hj1 : (1 : ℚ) ≤ j := by exact_mod_cast hj
  rw [edgeFl_eq b (by omega) hp j hj]
  have a0 := edge_arg_nonneg b (by omega) hp j hj
  have a1 := fl_err b (by omega) p hp.le
  have hd := stepFl_pos b (by omega) hp
  have a2 := fl_err b (by omega) ((j : ℚ) * fl b p) (by positivity)
  have a3 := fl_err b (by omega) _ a0
  have hu : (0 : ℚ) < 1 / 2 ^ b := by positivity
  have hu2 : (1 : ℚ) / 2 ^ b ≤ 1 / 16 := by
    apply one_div_le_one_div_of_le (by norm_num)
    calc (16 : ℚ) = 2 ^ 4 := by norm_num
      _ ≤ 2 ^ b := pow_le_pow_right₀ (by norm_num) hb
  rw [div_eq_mul_one_div] at a1 a2 a3 ⊢
  generalize (1 : ℚ) / 2 ^ b = u at *
  generalize hf : fl b (-(fl b p) + fl b ((j : ℚ) * fl b p)) = e at *
  generalize fl b ((j : ℚ) * fl b p) = g at *
  generalize fl b p = δ at *
  rw [abs_le] at *
  have hjp : p ≤ j * p := by nlinarith
  have b1 : (j : ℚ) * δ ≤ j * p + j * p * u := by nlinarith
  have b2 : (j : ℚ) * p - j * p * u ≤ j * δ := by nlinarith
  have b3 : (j : ℚ) * δ * u ≤ j * p * u + j * p * u / 16 := by
    have : (j : ℚ) * δ * u ≤ (j * p + j * p * u) * u := mul_le_mul_of_nonneg_right b1 hu.le
    have h3 : j * p * u * u ≤ j * p * u * (1 / 16) := mul_le_mul_of_nonneg_left hu2 (by positivity)
    linarith
  have c1 : g - δ ≤ (j : ℚ) * p - p + (j - 1) * p * u + (17 / 16) * (j * p * u) := by nlinarith
  have c2 : (j : ℚ) * p - p - (j - 1) * p * u - (17 / 16) * (j * p * u) ≤ g - δ := by nlinarith
  have hju : 0 ≤ (j : ℚ) * p * u := by positivity
  have hpu : 0 ≤ p * u := by positivity
  have h3 : (j : ℚ) * p * u * u ≤ j * p * u * (1 / 16) := mul_le_mul_of_nonneg_left hu2 hju
  have h4 : 0 ≤ p * u * u := by positivity
  have c3 : (-δ + g) * u ≤ (j : ℚ) * p * u * (19 / 16) := by
    have h5 : (-δ + g) * u ≤ ((j : ℚ) * p - p + (j - 1) * p * u + (17 / 16) * (j * p * u)) * u := mul_le_mul_of_nonneg_right (by linarith) hu.le
    have e : ((j : ℚ) * p - p + (j - 1) * p * u + (17 / 16) * (j * p * u)) * u =
        j * p * u - p * u + (j * p * u * u - p * u * u) + 17 / 16 * (j * p * u * u) := by ring
    rw [e] at h5
    linarith
  have e1 : ((j : ℚ) - 1) * p * u = j * p * u - p * u := by ring
  have e2 : ((j : ℚ) - 1) * p = j * p - p := by ring
  rw [e1] at c1 c2
  rw [e2]
  constructor
  · linarith [a3.2]
  · linarith [a3.1]

theorem edgeFl_mono (b : Nat) (hb : 2 ≤ b) (hp : 0 < p) {i j : Nat} (h : i ≤ j) : edgeFl b p i ≤ edgeFl b p j := by
  have hd := stepFl_pos b (by omega) hp
  rcases Nat.eq_zero_or_pos i with rfl | hi
  · rcases Nat.eq_zero_or_pos j with rfl | hj
    · exact le_refl _
    · have := edgeFl_nonneg b hb hp j hj
      have e : edgeFl b p 0 = -(fl b p) := by simp [edgeFl]
      rw [e]
      linarith
  · rw [edgeFl_eq b hb hp i hi, edgeFl_eq b hb hp j (by omega)]
    apply fl_mono b (by omega) (edge_arg_nonneg b hb hp i hi)
    have : (i : ℚ) * fl b p ≤ (j : ℚ) * fl b p := mul_le_mul_of_nonneg_right (by exact_mod_cast h) hd.le
    have := fl_mono b (by omega) (by positivity) this
    linarith

theorem edgeFl_two (b : Nat) (hb : 2 ≤ b) (hp : 0 < p) : edgeFl b p 2 = fl b p := by
  have hd := stepFl_pos b (by omega) hp
  have hr := fl_representable b (by omega) p hp.le
  rw [edgeFl_eq b hb hp 2 (by omega)]
  have h2 : fl b (((2 : Nat) : ℚ) * fl b p) = 2 * fl b p := by
    have := fl_scale b (fl b p) hd.le 1
    rw [fl_exact b hb _ hd.le hr] at this
    simpa using this
  rw [h2, show -(fl b p) + 2 * fl b p = fl b p by ring, fl_exact b hb _ hd.le hr]

theorem digitizeFl_spec (hp : 0 < p) (x : ℚ) :
    digitizeFl p mx (some x) ≤ nBinsFl p mx ∧ ∀ j, j < nBinsFl p mx → (edgeFl 24 p j ≤ x ↔ j < digitizeFl p mx (some x)) := by
  have := filter_range_initial (fun j : Nat => decide (edgeFl 24 p j ≤ x)) (nBinsFl p mx) (by
    intro i j hij _ h
    simp only [decide_eq_true_eq] at h ⊢
    exact le_trans (edgeFl_mono 24 (by norm_num) hp hij) h)
  simp only [decide_eq_true_eq] at this
  exact this

theorem digitizeFl_bounds (hp : 0 < p) {x : ℚ} {k : Nat} (h : digitizeFl p mx (some x) = k) (hk : k < nBinsFl p mx) :
    (1 ≤ k → edgeFl 24 p (k - 1) ≤ x) ∧ x < edgeFl 24 p k := by
  obtain ⟨_, h2⟩ := digitizeFl_spec (mx := mx) hp x
  rw [h] at h2
  refine ⟨fun h1 => (h2 (k - 1) (by omega)).2 (by omega), ?_⟩
  by_contra hc
  have := (h2 k hk).1 (not_lt.1 hc)
  omega

theorem digitizeFl_mono (hp : 0 < p) {x y : ℚ} (h : x ≤ y) : digitizeFl p mx (some x) ≤ digitizeFl p mx (some y) := by
  by_contra hc
  rw [not_le] at hc
  obtain ⟨h1, h2⟩ := digitizeFl_spec (mx := mx) hp x
  obtain ⟨_, h3⟩ := digitizeFl_spec (mx := mx) hp y
  have := (h2 _ (by omega)).2 hc
  have := (h3 _ (by omega)).1 (le_trans this h)
  omega

theorem digitizeFl_lt (hp : 0 < p) {x : ℚ} (hm : 1 ≤ nBinsFl p mx) (h : x < edgeFl 24 p (nBinsFl p mx - 1)) : digitizeFl p mx (some x) < nBinsFl p mx := by
  obtain ⟨h1, h2⟩ := digitizeFl_spec (mx := mx) hp x
  have := (h2 (nBinsFl p mx - 1) (by omega)).not.1 (not_le.2 h)
  omega

theorem length_histCountsFl (vs : List (Option ℚ)) : (histCountsFl p mx vs).length = nBinsFl p mx := by simp [histCountsFl]

theorem digitizeFl_le (v : Option ℚ) : digitizeFl p mx v ≤ nBinsFl p mx := by
  cases v with
  | none => exact le_refl _
  | some x =>
    show (List.filter _ _).length ≤ _
    exact (List.length_filter_le _ _).trans (by rw [List.length_range])

/-- With fewer than 65536 bins the 16-bit bin numbers are the bin numbers. -/
theorem histCountsFl_eq (hN : nBinsFl p mx < 65536) (vs : List (Option ℚ)) :
    histCountsFl p mx vs = (List.range (nBinsFl p mx)).map fun b => (vs.filter fun v => digitizeFl p mx v = b).length := by
  unfold histCountsFl
  have : ∀ v, digitizeFl p mx v % 65536 = digitizeFl p mx v := fun v => Nat.mod_eq_of_lt (lt_of_le_of_lt (digitizeFl_le v) hN)
  simp only [this]

theorem cumOf_histCountsFl (hN : nBinsFl p mx < 65536) {vs : List (Option ℚ)} {k : Nat} (hk : k < nBinsFl p mx) :
    cumOf (histCountsFl p mx vs) k = ((vs.filterMap id).filter fun v => digitizeFl p mx (some v) ≤ k).length := by
  have h : cumOf (histCountsFl p mx vs) k = (vs.filter fun v => digitizeFl p mx v ≤ k).length := by
    rw [histCountsFl_eq hN]
    unfold cumOf
    rw [take_map_range_sum _ _ _ hk, sum_counts]
  rw [h]
  clear h
  induction vs with
  | nil => rfl
  | cons v t ih =>
    cases v with
    | none =>
      have : ¬ digitizeFl p mx none ≤ k := by show ¬ nBinsFl p mx ≤ _; omega
      rw [List.filter_cons_of_neg (by simpa using this), List.filterMap_cons_none rfl, ih]
    | some v =>
      rw [List.filterMap_cons_some (by rfl)]
      by_cases hc : digitizeFl p mx (some v) ≤ k
      · rw [List.filter_cons_of_pos (by simpa using hc), List.filter_cons_of_pos (by simpa using hc), List.length_cons, List.length_cons, ih]
      · rw [List.filter_cons_of_neg (by simpa using hc), List.filter_cons_of_neg (by simpa using hc), ih]

theorem sum_histCountsFl (hN : nBinsFl p mx < 65536) (hp : 0 < p) (hm : 1 ≤ nBinsFl p mx) (vs : List (Option ℚ))
    (hr : ∀ v ∈ vs.filterMap id, v < edgeFl 24 p (nBinsFl p mx - 1)) : (histCountsFl p mx vs).sum = (vs.filterMap id).length := by
  rw [← cumOf_last (histCountsFl p mx vs) (k := nBinsFl p mx - 1) (by rw [length_histCountsFl]; omega), cumOf_histCountsFl hN (by omega),
    List.filter_eq_self.2]
  intro v hv
  have := digitizeFl_lt (mx := mx) hp hm (hr v hv)
  simp only [decide_eq_true_eq]
  omega

/-- What a row threshold is: the bins are those of exact arithmetic, the interpolation weight lies between 0 and 1. -/
theorem rowThresholdFl_spec (P : ℚ) (A B : Nat) (hB : 0 < B) (hP : P / 100 = (A : ℚ) / B) (hAB : A < B)
    (hq : P / 100 * (1 - 1 / 2 ^ 54) < fl 53 (P / 100)) (centre : Nat → ℚ) (row : List Nat) (hm : 1 ≤ row.length) (ht : 0 < row.sum)
    (hN : B * row.sum < 2 ^ 51) :
    ∃ up, up < row.length ∧ P / 100 * (row.sum : ℚ) < (cumOf row up : ℚ) ∧ (∀ j, j < up → (cumOf row j : ℚ) ≤ P / 100 * (row.sum : ℚ)) ∧
      ((up = 0 ∧ rowThresholdFl P centre row = some (fl 24 (centre 0))) ∨
       (0 < up ∧ ∃ f : ℚ, 0 ≤ f ∧ f ≤ 1 ∧
        rowThresholdFl P centre row = some (fl 24 (fl 53 (centre (up - 1) + fl 53 (f * fl 24 (centre up - centre (up - 1)))))))) := by
  have hBN : A * row.sum < 2 ^ 51 := lt_of_le_of_lt (Nat.mul_le_mul_right _ hAB.le) hN
  have hs53 : row.sum ≤ 2 ^ 53 := by
    have : 1 * row.sum ≤ B * row.sum := Nat.mul_le_mul_right _ hB
    omega
  have hcs : ∀ k, cumOf row k ≤ row.sum := fun k => take_sum_le row _
  have hdec : ∀ k, (cumOf row k : ℚ) ≤ quantilePosition P row.sum ↔ (cumOf row k : ℚ) ≤ P / 100 * row.sum := by
    intro k
    unfold quantilePosition
    rw [hP] at hq ⊢
    exact position_decides A B hB hq row.sum _ hBN ((hcs k).trans hs53)
  have htot : cumOf row (row.length - 1) = row.sum := cumOf_last row (by omega)
  have hspec := filter_range_initial (fun k => decide ((cumOf row k : ℚ) ≤ quantilePosition P row.sum)) row.length (by
    intro i j hij _ h
    simp only [decide_eq_true_eq] at h ⊢
    exact le_trans (by exact_mod_cast cumOf_mono row hij) h)
  simp only [decide_eq_true_eq] at hspec
  generalize hidx : ((List.range row.length).filter fun k => decide ((cumOf row k : ℚ) ≤ quantilePosition P row.sum)).length = idx at hspec
  have hq1 : P / 100 < 1 := by
    rw [hP, div_lt_one (by exact_mod_cast hB)]
    exact_mod_cast hAB
  have hpos : P / 100 * (row.sum : ℚ) < (row.sum : ℚ) := by
    have : (0 : ℚ) < row.sum := by exact_mod_cast ht
    nlinarith
  have hlt : idx < row.length := by
    by_contra hc
    have := (hdec _).1 ((hspec.2 (row.length - 1) (by omega)).2 (by omega))
    rw [htot] at this
    linarith
  have hupfl : quantilePosition P row.sum < (cumOf row idx : ℚ) := by
    by_contra hc
    have := (hspec.2 idx hlt).1 (not_lt.1 hc)
    omega
  have hup : P / 100 * (row.sum : ℚ) < (cumOf row idx : ℚ) := by
    by_contra hc
    have := (hspec.2 idx hlt).1 ((hdec _).2 (not_lt.1 hc))
    omega
  have hlow : ∀ j, j < idx → (cumOf row j : ℚ) ≤ P / 100 * (row.sum : ℚ) := fun j hj => (hdec j).1 ((hspec.2 j (by omega)).2 hj)
  refine ⟨idx, hlt, hup, hlow, ?_⟩
  have hval : rowThresholdFl P centre row =
      if idx = 0 then some (fl 24 (centre 0)) else
        some (fl 24 (fl 53 (centre (idx - 1) + fl 53 (
          (if (1 / 10000000000 : ℚ) < (cumOf row idx : ℚ) - (cumOf row (idx - 1) : ℚ)
            then fl 53 (fl 53 (quantilePosition P row.sum - (cumOf row (idx - 1) : ℚ)) / ((cumOf row idx : ℚ) - (cumOf row (idx - 1) : ℚ))) else 1 / 2)
          * fl 24 (centre idx - centre (idx - 1)))))) := by
    have h1 : (row.take (row.length - 1 + 1)).sum = row.sum := htot
    unfold rowThresholdFl
    dsimp only
    simp only [h1]
    rw [if_neg (by omega : ¬ row.sum = 0), if_neg (by omega : ¬ row.sum = 0)]
    have h2 : ((List.range row.length).filter fun k => decide (((row.take (k + 1)).sum : ℚ) ≤ quantilePosition P row.sum)).length = idx := hidx
    rw [h2, Nat.min_eq_left (by omega)]
    rfl
  by_cases h0 : idx = 0
  · left
    rw [hval, if_pos h0]
    exact ⟨h0, rfl⟩
  · right
    have hl := (hdec _).2 (hlow (idx - 1) (by omega))
    have hcl : cumOf row (idx - 1) < cumOf row idx := by exact_mod_cast lt_of_le_of_lt hl hupfl
    have hstep : (cumOf row (idx - 1) : ℚ) + 1 ≤ (cumOf row idx : ℚ) := by exact_mod_cast hcl
    refine ⟨by omega, _, ?_, ?_, by rw [hval, if_neg h0, if_pos (by norm_num; linarith)]⟩
    · exact fl_nonneg 53 _ (div_nonneg (fl_nonneg 53 _ (by linarith)) (by linarith))
    · have hD : (cumOf row idx : ℚ) - (cumOf row (idx - 1) : ℚ) = ((cumOf row idx - cumOf row (idx - 1) : Nat) : ℚ) := by
        rw [Nat.cast_sub hcl.le]
      have h1 : fl 53 (quantilePosition P row.sum - (cumOf row (idx - 1) : ℚ)) ≤ (cumOf row idx : ℚ) - (cumOf row (idx - 1) : ℚ) := by
        rw [hD, ← fl_nat 53 (by norm_num) (cumOf row idx - cumOf row (idx - 1)) (by have := hcs idx; omega), ← hD]
        exact fl_mono 53 (by norm_num) (by linarith) (by linarith)
      have h2 : fl 53 (quantilePosition P row.sum - (cumOf row (idx - 1) : ℚ)) / ((cumOf row idx : ℚ) - (cumOf row (idx - 1) : ℚ)) ≤ 1 := by
        rw [div_le_one (by linarith)]; exact h1
      have h3 := fl_mono 53 (by norm_num) (div_nonneg (fl_nonneg 53 _ (by linarith)) (by linarith)) h2
      have h4 : fl 53 (1 : ℚ) = 1 := by have := fl_nat 53 (by norm_num) 1 (by norm_num); simpa using this
      rwa [h4] at h3

theorem fl_nonpos (b : Nat) (x : ℚ) (hx : x ≤ 0) : fl b x ≤ 0 := by
  unfold fl
  apply mul_nonpos_of_nonneg_of_nonpos (ulp_pos b x).le
  have h : roundEven (x / ulp b x) ≤ roundEven ((0 : ℤ) : ℚ) :=
    roundEven_mono (by rw [Int.cast_zero]; exact div_nonpos_of_nonpos_of_nonneg hx (ulp_pos b x).le)
  rw [roundEven_int] at h
  exact_mod_cast h

/-- Rounding never goes above a representable bound, whatever the sign. -/
theorem fl_le_of_le (b : Nat) (hb : 2 ≤ b) {x y : ℚ} (hy : 0 ≤ y) (hr : Representable b y) (h : x ≤ y) : fl b x ≤ y := by
  rcases le_total x 0 with h0 | h0
  · exact (fl_nonpos b x h0).trans hy
  · have := fl_mono b (by omega) h0 h
    rwa [fl_exact b hb y hy hr] at this

theorem representable_53 {x : ℚ} (h : Representable 24 x) : Representable 53 x := by
  obtain ⟨m, e, hm, rfl⟩ := h
  exact ⟨m, e, lt_trans hm (by norm_num), rfl⟩

theorem representable_half {b : Nat} {x : ℚ} (h : Representable b x) : Representable b (x / 2) := by
  obtain ⟨m, e, hm, rfl⟩ := h
  refine ⟨m, e - 1, hm, ?_⟩
  rw [zpow_sub_one₀ (by norm_num)]
  ring

/-- The centre of a bin from the third on, and its distance to the midpoint of the exact bin. -/
theorem centreFl_bounds (hp : 0 < p) (k : Nat) (hk : 2 ≤ k) :
    0 ≤ centreFl p k ∧ Representable 24 (centreFl p k) ∧
    centreFl p k ≤ ((k : ℚ) - 3 / 2) * p + k * p * (6 / 2 ^ 24) ∧ ((k : ℚ) - 3 / 2) * p - k * p * (6 / 2 ^ 24) ≤ centreFl p k := by
  have e : centreFl p k = fl 24 (edgeFl 24 p k + edgeFl 24 p (k - 1)) / 2 := by unfold centreFl; rw [if_neg (by omega)]
  have h1 := edgeFl_nonneg 24 (by norm_num) hp k (by omega)
  have h2 := edgeFl_nonneg 24 (by norm_num) hp (k - 1) (by omega)
  have a1 := abs_le.1 (edgeFl_err 24 (by norm_num) hp k (by omega))
  have a2 := abs_le.1 (edgeFl_err 24 (by norm_num) hp (k - 1) (by omega))
  have hc : ((k - 1 : Nat) : ℚ) = (k : ℚ) - 1 := by rw [Nat.cast_sub (by omega)]; norm_num
  rw [hc] at a2
  have b1 := fl_le 24 (by norm_num) (edgeFl 24 p k + edgeFl 24 p (k - 1)) (by linarith)
  have b2 := le_fl 24 (by norm_num) (edgeFl 24 p k + edgeFl 24 p (k - 1)) (by linarith)
  have h0 := fl_nonneg 24 (edgeFl 24 p k + edgeFl 24 p (k - 1)) (by linarith)
  rw [e]
  refine ⟨by linarith, representable_half (fl_representable 24 (by norm_num) _ (by linarith)), ?_⟩
  generalize fl 24 (edgeFl 24 p k + edgeFl 24 p (k - 1)) = c at *
  generalize edgeFl 24 p k = x at *
  generalize edgeFl 24 p (k - 1) = y at *
  have hk2 : (2 : ℚ) ≤ k := by exact_mod_cast hk
  have hkp : 0 ≤ (k : ℚ) * p := by positivity
  have e1 : ((k : ℚ) - 1) * p = k * p - p := by ring
  have e2 : ((k : ℚ) - 1 - 1) * p = k * p - 2 * p := by ring
  have e3 : ((k : ℚ) - 3 / 2) * p = k * p - 3 / 2 * p := by ring
  rw [e1, e2] at a2
  rw [e1] at a1
  rw [e3]
  have hkp2 : 2 * p ≤ (k : ℚ) * p := mul_le_mul_of_nonneg_right hk2 hp.le
  generalize (k : ℚ) * p = K at *
  norm_num at a1 a2 b1 b2 ⊢
  constructor <;> linarith [a1.1, a1.2, a2.1, a2.2]

theorem applyFloorFl_some (hp : 0 < p) (t : ℚ) : applyFloorFl p (some t) = some (max (fl 24 p) t) := by
  unfold applyFloorFl
  rw [edgeFl_two 24 (by norm_num) hp]
  simp only [Option.map_some, Option.some.injEq]
  by_cases ht : t < fl 24 p
  · rw [if_pos ht, max_eq_left ht.le]
  · rw [if_neg ht, max_eq_right (not_lt.1 ht)]

/-- Accuracy of the threshold of pooled samples below the last edge. -/
theorem rowFl_accuracy (hM : nBinsFl p mx < 65536) (hp : 0 < p) (h3 : 3 ≤ nBinsFl p mx) (P : ℚ) (A B : Nat) (hB : 0 < B) (hP : P / 100 = (A : ℚ) / B) (hAB : A < B)
    (hq : P / 100 * (1 - 1 / 2 ^ 54) < fl 53 (P / 100)) (vs : List (Option ℚ)) (hr : ∀ v ∈ vs.filterMap id, v < edgeFl 24 p (nBinsFl p mx - 1))
    (hN : B * (vs.filterMap id).length < 2 ^ 51) {x : ℚ} (hx : JustAfter (vs.filterMap id) (P / 100 * ((vs.filterMap id).length : ℚ)) x) :
    ∃ t, applyFloorFl p (rowThresholdFl P (centreFl p) (histCountsFl p mx vs)) = some t ∧ Representable 24 t ∧ fl 24 p ≤ t ∧
      -(3 / 2) * p - nBinsFl p mx * p / 2 ^ 19 < t - max p x ∧ t - max p x ≤ p / 2 + nBinsFl p mx * p / 2 ^ 19 := by
  obtain ⟨hmem, hlow, hup⟩ := hx
  have hm1 : 1 ≤ nBinsFl p mx := by omega
  have hsum : (histCountsFl p mx vs).sum = (vs.filterMap id).length := sum_histCountsFl hM hp hm1 vs hr
  have hpos : 0 < (vs.filterMap id).length := List.length_pos_of_mem hmem
  obtain ⟨u, hu, hA1, hA2, hval⟩ := rowThresholdFl_spec P A B hB hP hAB hq (centreFl p) (histCountsFl p mx vs)
    (by rw [length_histCountsFl]; omega) (by omega) (by rw [hsum]; exact hN)
  rw [length_histCountsFl] at hu
  rw [hsum] at hA1 hA2
  have hcum := fun k (hk : k < nBinsFl p mx) => cumOf_histCountsFl hM (vs := vs) hk
  have hdx : digitizeFl p mx (some x) < nBinsFl p mx := digitizeFl_lt hp hm1 (hr x hmem)
  have hbin : digitizeFl p mx (some x) = u := by
    apply Nat.le_antisymm
    · by_contra hc
      rw [not_le] at hc
      have : cumOf (histCountsFl p mx vs) u ≤ below (vs.filterMap id) x := by
        rw [hcum u hu]
        unfold below
        apply List.Sublist.length_le
        apply List.monotone_filter_right
        intro v hv
        simp only [decide_eq_true_eq] at hv ⊢
        by_contra hge
        have := digitizeFl_mono (mx := mx) hp (not_lt.1 hge)
        omega
      have : (cumOf (histCountsFl p mx vs) u : ℚ) ≤ (below (vs.filterMap id) x : ℚ) := by exact_mod_cast this
      linarith
    · by_contra hc
      rw [not_le] at hc
      have h := hA2 _ hc
      have : atMost (vs.filterMap id) x ≤ cumOf (histCountsFl p mx vs) (digitizeFl p mx (some x)) := by
        rw [hcum _ hdx]
        unfold atMost
        apply List.Sublist.length_le
        apply List.monotone_filter_right
        intro v hv
        simp only [decide_eq_true_eq] at hv ⊢
        exact digitizeFl_mono hp hv
      have : (atMost (vs.filterMap id) x : ℚ) ≤ (cumOf (histCountsFl p mx vs) (digitizeFl p mx (some x)) : ℚ) := by exact_mod_cast this
      linarith
  obtain ⟨hb1, hb2⟩ := digitizeFl_bounds hp hbin hu
  have hd := stepFl_pos 24 (by norm_num) hp
  have hdr := fl_representable 24 (by norm_num) p hp.le
  have hde := abs_le.1 (fl_err 24 (by norm_num) p hp.le)
  have hNu : (u : ℚ) * p ≤ nBinsFl p mx * p := mul_le_mul_of_nonneg_right (by exact_mod_cast hu.le) hp.le
  have hup0 : 0 ≤ (u : ℚ) * p := by positivity
  have hN3 : 3 * p ≤ nBinsFl p mx * p := mul_le_mul_of_nonneg_right (by exact_mod_cast h3) hp.le
  -- the value before the lower bound is applied
  suffices h : ∃ t, rowThresholdFl P (centreFl p) (histCountsFl p mx vs) = some t ∧
      ((t ≤ fl 24 p ∧ x < fl 24 p) ∨
       (Representable 24 t ∧ -(3 / 2) * p - u * p / 2 ^ 19 < t - x ∧ t - x ≤ p / 2 + u * p / 2 ^ 19)) by
    obtain ⟨t, hv, h⟩ := h
    rw [hv, applyFloorFl_some hp]
    refine ⟨_, rfl, ?_, le_max_left _ _, ?_⟩
    · rcases h with ⟨h1, _⟩ | ⟨h1, _⟩
      · rw [max_eq_left h1]; exact hdr
      · rcases max_choice (fl 24 p) t with h | h <;> rw [h] <;> assumption
    · generalize (nBinsFl p mx : ℚ) * p = M at *
      generalize (u : ℚ) * p = U at *
      generalize fl 24 p = δ at *
      norm_num at hde
      have m1 := le_max_left p x
      have m2 := le_max_right p x
      have m3 := le_max_left δ t
      have m4 := le_max_right δ t
      have e19 : (2 : ℚ) ^ 19 = 524288 := by norm_num
      rw [e19]
      rcases h with ⟨h1, h2⟩ | ⟨_, h1, h2⟩
      · rw [max_eq_left h1]
        constructor
        · have : max p x ≤ p + 1 / 16777216 * p := max_le (by linarith) (by linarith [hde.1])
          linarith [hde.1, hde.2]
        · linarith [hde.1, hde.2]
      · rw [e19] at h1 h2
        constructor
        · rcases le_total p x with h | h
          · rw [max_eq_right h]; linarith
          · rw [max_eq_left h]; linarith [hde.1, hde.2]
        · rcases le_total δ t with h | h
          · rw [max_eq_right h]; linarith
          · rw [max_eq_left h]; linarith [hde.1, hde.2]
  by_cases hu2 : u ≤ 2
  · have hxd : x < fl 24 p := by
      have := edgeFl_mono 24 (by norm_num) hp hu2
      rw [edgeFl_two 24 (by norm_num) hp] at this
      linarith
    rcases hval with ⟨_, hv⟩ | ⟨h0, f, hf0, hf1, hv⟩
    · refine ⟨_, hv, Or.inl ⟨?_, hxd⟩⟩
      have : centreFl p 0 = 0 := by simp [centreFl]
      rw [this, fl_zero]
      exact hd.le
    · refine ⟨_, hv, Or.inl ⟨?_, hxd⟩⟩
      have c1 : centreFl p 1 = -(fl 24 p) / 2 := by
        unfold centreFl
        rw [if_neg (by norm_num)]
        have e0 : edgeFl 24 p (1 - 1) = -(fl 24 p) := by simp [edgeFl]
        have e1 : edgeFl 24 p 1 = 0 := by simp [edgeFl]
        rw [e0, e1, zero_add, fl_neg 24 _ hd.le (by norm_num) hdr]
      have key : ∀ g : ℚ, g ≤ fl 24 p → fl 24 (fl 53 g) ≤ fl 24 p := fun g hg =>
        fl_le_of_le 24 (by norm_num) hd.le hdr (fl_le_of_le 53 (by norm_num) hd.le (representable_53 hdr) hg)
      apply key
      rcases (by omega : u = 1 ∨ u = 2) with rfl | rfl
      · have c0 : centreFl p (1 - 1) = 0 := by simp [centreFl]
        rw [c0, c1, sub_zero, zero_add]
        have h1 : fl 24 (-(fl 24 p) / 2) ≤ 0 := fl_nonpos _ _ (by linarith)
        have h2 : f * fl 24 (-(fl 24 p) / 2) ≤ 0 := mul_nonpos_of_nonneg_of_nonpos hf0 h1
        exact (fl_nonpos _ _ h2).trans hd.le
      · have c2 : centreFl p 2 = fl 24 p / 2 := by
          unfold centreFl
          rw [if_neg (by norm_num)]
          have e1 : edgeFl 24 p (2 - 1) = 0 := by simp [edgeFl]
          rw [e1, edgeFl_two 24 (by norm_num) hp, add_zero, fl_exact 24 (by norm_num) _ hd.le hdr]
        rw [show 2 - 1 = 1 from rfl, c1, c2, show fl 24 p / 2 - -(fl 24 p) / 2 = fl 24 p by ring, fl_exact 24 (by norm_num) _ hd.le hdr]
        have : fl 53 (f * fl 24 p) ≤ fl 24 p := fl_le_of_le 53 (by norm_num) hd.le (representable_53 hdr) (by nlinarith)
        linarith
  · rw [not_le] at hu2
    rcases hval with ⟨h0, _⟩ | ⟨h0, f, hf0, hf1, hv⟩
    · omega
    · refine ⟨_, hv, Or.inr ?_⟩
      obtain ⟨l0, lr, l1, l2⟩ := centreFl_bounds hp (u - 1) (by omega)
      obtain ⟨u0, ur, u1, u2⟩ := centreFl_bounds hp u (by omega)
      have hmono : centreFl p (u - 1) ≤ centreFl p u := by
        unfold centreFl
        rw [if_neg (by omega), if_neg (by omega)]
        have a := edgeFl_mono 24 (by norm_num) hp (by omega : u - 1 ≤ u)
        have b := edgeFl_mono 24 (by norm_num) hp (by omega : u - 1 - 1 ≤ u - 1)
        have c := edgeFl_nonneg 24 (by norm_num) hp (u - 1) (by omega)
        have d := edgeFl_nonneg 24 (by norm_num) hp (u - 1 - 1) (by omega)
        have := fl_mono 24 (by norm_num) (by linarith) (by linarith : edgeFl 24 p (u - 1) + edgeFl 24 p (u - 1 - 1) ≤ edgeFl 24 p u + edgeFl 24 p (u - 1))
        linarith
      have a1 := abs_le.1 (edgeFl_err 24 (by norm_num) hp u (by omega))
      have a2 := abs_le.1 (edgeFl_err 24 (by norm_num) hp (u - 1) (by omega))
      have hb1 := hb1 (by omega)
      have hc : ((u - 1 : Nat) : ℚ) = (u : ℚ) - 1 := by rw [Nat.cast_sub (by omega)]; norm_num
      rw [hc] at a2 l1 l2
      generalize centreFl p (u - 1) = lo at *
      generalize centreFl p u = hi at *
      have hg0 := fl_nonneg 24 (hi - lo) (by linarith)
      have hgr := fl_representable 24 (by norm_num) (hi - lo) (by linarith)
      have hg1 := fl_le 24 (by norm_num) (hi - lo) (by linarith)
      have hm0 : 0 ≤ f * fl 24 (hi - lo) := mul_nonneg hf0 hg0
      have hi0 := fl_nonneg 53 (f * fl 24 (hi - lo)) hm0
      have hi1 : fl 53 (f * fl 24 (hi - lo)) ≤ fl 24 (hi - lo) :=
        fl_le_of_le 53 (by norm_num) hg0 (representable_53 hgr) (by nlinarith)
      have hs0 : 0 ≤ lo + fl 53 (f * fl 24 (hi - lo)) := by linarith
      have k1 : lo ≤ fl 53 (lo + fl 53 (f * fl 24 (hi - lo))) := by
        have := fl_mono 53 (by norm_num) l0 (by linarith : lo ≤ lo + fl 53 (f * fl 24 (hi - lo)))
        rwa [fl_exact 53 (by norm_num) lo l0 (representable_53 lr)] at this
      have k2 : lo ≤ fl 24 (fl 53 (lo + fl 53 (f * fl 24 (hi - lo)))) := by
        have := fl_mono 24 (by norm_num) l0 k1
        rwa [fl_exact 24 (by norm_num) lo l0 lr] at this
      have k3 := fl_le 53 (by norm_num) _ hs0
      have k4 := fl_le 24 (by norm_num) _ (l0.trans k1)
      refine ⟨fl_representable 24 (by norm_num) _ (l0.trans k1), ?_⟩
      generalize fl 24 (fl 53 (lo + fl 53 (f * fl 24 (hi - lo)))) = t at *
      generalize fl 53 (lo + fl 53 (f * fl 24 (hi - lo))) = t53 at *
      generalize fl 53 (f * fl 24 (hi - lo)) = i53 at *
      generalize fl 24 (hi - lo) = gap at *
      generalize edgeFl 24 p u = eu at *
      generalize edgeFl 24 p (u - 1) = el at *
      have e1 : ((u : ℚ) - 1) * p = u * p - p := by ring
      have e2 : ((u : ℚ) - 1 - 1) * p = u * p - 2 * p := by ring
      have e3 : ((u : ℚ) - 3 / 2) * p = u * p - 3 / 2 * p := by ring
      have e4 : ((u : ℚ) - 1 - 3 / 2) * p = u * p - 5 / 2 * p := by ring
      rw [e1, e2] at a2
      rw [e1] at a1
      rw [e3] at u1 u2
      rw [e1, e4] at l1 l2
      have hu3 : 3 * p ≤ (u : ℚ) * p := mul_le_mul_of_nonneg_right (by exact_mod_cast hu2) hp.le
      generalize (u : ℚ) * p = U at *
      norm_num at a1 a2 l1 l2 u1 u2 hg1 k3 k4 ⊢
      constructor
      · linarith [a1.1, a1.2, a2.1, a2.2]
      · linarith [a1.1, a1.2, a2.1, a2.2]

/-- The number of bins and the last edge. -/
theorem nBinsFl_bounds (hp : 0 < p) (hmx : p ≤ mx) :
    3 ≤ nBinsFl p mx ∧ (nBinsFl p mx : ℚ) * p ≤ 2 * (mx + 2 * p) ∧ mx * (1 - 1 / 2 ^ 20) ≤ edgeFl 24 p (nBinsFl p mx - 1) := by
  have a0 : (0 : ℚ) ≤ mx + p := by linarith
  have a1 := fl_le 53 (by norm_num) (mx + p) a0
  have a2 := le_fl 53 (by norm_num) (mx + p) a0
  have a3 := fl_nonneg 53 (mx + p) a0
  have b0 : 0 ≤ fl 53 (mx + p) + p := by linarith
  have b1 := fl_le 53 (by norm_num) _ b0
  have b2 := le_fl 53 (by norm_num) _ b0
  have b3 := fl_nonneg 53 _ b0
  have c0 : 0 ≤ fl 53 (fl 53 (mx + p) + p) / p := div_nonneg b3 hp.le
  have c1 := fl_le 53 (by norm_num) _ c0
  have c2 := le_fl 53 (by norm_num) _ c0
  have c3 := fl_nonneg 53 _ c0
  have hn : nBinsFl p mx = ⌈fl 53 (fl 53 (fl 53 (mx + p) + p) / p)⌉.toNat := rfl
  generalize fl 53 (fl 53 (fl 53 (mx + p) + p) / p) = r at *
  generalize fl 53 (fl 53 (mx + p) + p) = y at *
  generalize fl 53 (mx + p) = z at *
  have c1' : r * p ≤ y * (1 + 1 / 2 ^ 53) := by
    have := mul_le_mul_of_nonneg_right c1 hp.le
    have e : y / p * (1 + 1 / 2 ^ 53) * p = y * (1 + 1 / 2 ^ 53) := by field_simp
    rwa [e] at this
  have c2' : y * (1 - 1 / 2 ^ 53) ≤ r * p := by
    have := mul_le_mul_of_nonneg_right c2 hp.le
    have e : y / p * (1 - 1 / 2 ^ 53) * p = y * (1 - 1 / 2 ^ 53) := by field_simp
    rwa [e] at this
  have hceil0 : 0 ≤ ⌈r⌉ := Int.ceil_nonneg c3
  have hN1 : r ≤ (nBinsFl p mx : ℚ) := by
    rw [hn]
    have : ((⌈r⌉.toNat : ℤ) : ℚ) = (⌈r⌉ : ℚ) := by rw [Int.toNat_of_nonneg hceil0]
    rw [show ((⌈r⌉.toNat : Nat) : ℚ) = ((⌈r⌉.toNat : ℤ) : ℚ) by norm_cast, this]
    exact Int.le_ceil r
  have hN2 : (nBinsFl p mx : ℚ) < r + 1 := by
    rw [hn]
    have : ((⌈r⌉.toNat : ℤ) : ℚ) = (⌈r⌉ : ℚ) := by rw [Int.toNat_of_nonneg hceil0]
    rw [show ((⌈r⌉.toNat : Nat) : ℚ) = ((⌈r⌉.toNat : ℤ) : ℚ) by norm_cast, this]
    exact Int.ceil_lt_add_one r
  have hr2 : 2 < r := by
    have : 2 * p < r * p := by
      norm_num at a2 b2 c2'
      linarith
    exact lt_of_mul_lt_mul_right this hp.le
  have h3 : 3 ≤ nBinsFl p mx := by
    have : (2 : ℚ) < (nBinsFl p mx : ℚ) := by linarith
    have : 2 < nBinsFl p mx := by exact_mod_cast this
    omega
  have m1 : r * p ≤ (nBinsFl p mx : ℚ) * p := mul_le_mul_of_nonneg_right hN1 hp.le
  have m2 : (nBinsFl p mx : ℚ) * p ≤ (r + 1) * p := mul_le_mul_of_nonneg_right hN2.le hp.le
  rw [add_mul, one_mul] at m2
  have he := abs_le.1 (edgeFl_err 24 (by norm_num) hp (nBinsFl p mx - 1) (by omega))
  rw [Nat.cast_sub (by omega)] at he
  push_cast at he
  have e1 : ((nBinsFl p mx : ℚ) - 1) * p = nBinsFl p mx * p - p := by ring
  have e2 : ((nBinsFl p mx : ℚ) - 1 - 1) * p = nBinsFl p mx * p - 2 * p := by ring
  rw [e1, e2] at he
  refine ⟨h3, ?_, ?_⟩
  · generalize (nBinsFl p mx : ℚ) * p = M at *
    norm_num at a1 b1 c1'
    linarith
  · generalize (nBinsFl p mx : ℚ) * p = M at *
    norm_num at a1 a2 b1 b2 c1' c2' he ⊢
    linarith [he.1]

/-- A record whose values are replaced by numbers standing for their bins. -/
def binned (p mx : ℚ) (l : List Sample) : List Sample := l.map fun r => { r with val := some ((digitizeFl p mx r.val : ℚ) - 3 / 2) }

theorem nBins_unit (N : Nat) : nBins 1 ((N : ℚ) - 2) = N := by
  unfold nBins
  rw [show ((N : ℚ) - 2 + 2 * 1) / 1 = ((N : ℤ) : ℚ) by push_cast; ring, Int.ceil_intCast]
  simp

theorem digitize_unit (N k : Nat) (hk : k ≤ N) : digitize 1 ((N : ℚ) - 2) (some ((k : ℚ) - 3 / 2)) = k := by
  obtain ⟨h1, h2⟩ := digitize_spec (p := 1) (mx := (N : ℚ) - 2) (by norm_num) ((k : ℚ) - 3 / 2)
  rw [nBins_unit] at h1 h2
  generalize digitize 1 ((N : ℚ) - 2) (some ((k : ℚ) - 3 / 2)) = d at *
  apply Nat.le_antisymm
  · by_contra hc
    have := (h2 k (by omega)).2 (by omega)
    linarith
  · by_contra hc
    have := (h2 d (by omega)).not.2 (by omega)
    have hq : (d : ℚ) + 1 ≤ k := by exact_mod_cast (by omega : d + 1 ≤ k)
    linarith

theorem histCountsFl_unit (hN : nBinsFl p mx < 65536) (vs : List (Option ℚ)) :
    histCountsFl p mx vs = histCounts 1 ((nBinsFl p mx : ℚ) - 2) (vs.map fun v => some ((digitizeFl p mx v : ℚ) - 3 / 2)) := by
  rw [histCountsFl_eq hN]
  unfold histCounts
  rw [nBins_unit]
  apply List.map_congr_left
  intro b _
  rw [List.filter_map, List.length_map]
  congr 1
  apply List.filter_congr
  intro v _
  simp only [Function.comp_apply]
  rw [digitize_unit _ _ (digitizeFl_le v)]

theorem binned_vals (l : List Sample) (d : Nat) :
    ((binned p mx l).filter fun s => s.doy = d).map Sample.val =
      ((l.filter fun s => s.doy = d).map Sample.val).map fun v => some ((digitizeFl p mx v : ℚ) - 3 / 2) := by
  unfold binned
  rw [List.filter_map, List.map_map, List.map_map]
  rfl

theorem pooledHistFl_unit (hN : nBinsFl p mx < 65536) (s ny nx : Nat) (recs : Nat → Nat → List Sample) (y x : Nat) :
    pooledHistFl p mx s ny nx recs y x = pooledHist 1 ((nBinsFl p mx : ℚ) - 2) s ny nx (fun y x => binned p mx (recs y x)) y x := by
  unfold pooledHistFl pooledHist
  rw [nBins_unit]
  have : ∀ l, doyHistFl p mx l = doyHist 1 ((nBinsFl p mx : ℚ) - 2) (binned p mx l) := by
    intro l
    unfold doyHistFl doyHist
    apply List.map_congr_left
    intro d _
    rw [histCountsFl_unit hN, binned_vals]
  simp only [this]

/-- The thresholds of a cell are those of the pooled samples. -/
theorem gridThresholdsFl_eq (hN : nBinsFl p mx < 65536) (P : ℚ) (w s ny nx : Nat) (hodd : w % 2 = 1) (h3 : 3 ≤ w) (hw : w ≤ 733)
    (hs : s % 2 = 1) (hnx : s / 2 ≤ nx) (recs : Nat → Nat → List Sample) (y x : Nat) (hy : y < ny) (hx : x < nx) :
    gridThresholdsFl p mx P w s ny nx recs y x = .ok ((List.range 366).map fun d =>
      if ((recs y x).map Sample.val).headD none = none then none
      else applyFloorFl p (rowThresholdFl P (centreFl p) (histCountsFl p mx (windowSamples s ny nx w recs y x d)))) := by
  have hw' : ∀ d, windowSamples s ny nx w (fun y x => binned p mx (recs y x)) y x d =
      (windowSamples s ny nx w recs y x d).map fun v => some ((digitizeFl p mx v : ℚ) - 3 / 2) := by
    intro d
    unfold windowSamples
    simp only [binned_vals, List.map_flatMap]
  unfold gridThresholdsFl
  rw [pooledHistFl_unit hN, pooledHist_eq _ _ s ny nx hs hnx _ y x hy hx]
  have := windowedHist_samples 1 ((nBinsFl p mx : ℚ) - 2) w hodd h3 hw (fun d => (cellWindow s ny nx y x).flatMap fun c =>
      ((binned p mx (recs c.1 c.2)).filter fun r => r.doy = d + 1).map Sample.val)
  rw [nBins_unit] at this
  rw [this]
  simp only [List.map_map]
  congr 1
  apply List.map_congr_left
  intro d _
  simp only [Function.comp_apply]
  rw [histCountsFl_unit hN, ← hw' d]
  rfl

/-- **C180**, thresholds: with fewer than 65536 bins, a percentile `100 A / B` in common use (`usual_percentiles`) and any odd windows, the threshold that the
code computes for a day – with float32 bins, a rounded position and a rounded interpolation – is a float32 number that is positive (at least the precision as
a float32), at most half a bin above and less than one and a half bins below the sample at the percentile (raised to the precision), up to
`(max_anomaly + 2 precision) / 2 ^ 18`, as long as all samples are below `max_anomaly` by at least a millionth of it. These are the bounds of exact
arithmetic (`C39_hobday_partial`) and a rounding error that does not grow with the number of samples. Missing: samples closer to `max_anomaly`
(`C180_below_max_anomaly_fails`) and other percentiles (`C168_82nd_percentile_fails`). -/
theorem C180_threshold_partial (hp : 0 < p) (hmx : p ≤ mx) (hM : nBinsFl p mx < 65536) (P : ℚ) (A B : Nat) (hB : 0 < B)
    (hP : P / 100 = (A : ℚ) / B) (hAB : A < B) (hq : P / 100 * (1 - 1 / 2 ^ 54) < fl 53 (P / 100))
    (w s ny nx : Nat) (hodd : w % 2 = 1) (h3 : 3 ≤ w) (hw : w ≤ 733) (hs : s % 2 = 1) (hnx : s / 2 ≤ nx) (recs : Nat → Nat → List Sample)
    (y x : Nat) (hy : y < ny) (hx : x < nx) (hfirst : ((recs y x).map Sample.val).headD none ≠ none) (d : Nat) (hd : d < 366)
    (hrange : ∀ v ∈ (windowSamples s ny nx w recs y x d).filterMap id, v < mx * (1 - 1 / 2 ^ 20))
    (hN : B * ((windowSamples s ny nx w recs y x d).filterMap id).length < 2 ^ 51) (X : ℚ)
    (hX : JustAfter ((windowSamples s ny nx w recs y x d).filterMap id)
      (P / 100 * (((windowSamples s ny nx w recs y x d).filterMap id).length : ℚ)) X) :
    ∃ ts t, gridThresholdsFl p mx P w s ny nx recs y x = .ok ts ∧ ts[d]? = some (some t) ∧ Representable 24 t ∧ 0 < fl 24 p ∧ fl 24 p ≤ t ∧
      -(3 / 2) * p - (mx + 2 * p) / 2 ^ 18 < t - max p X ∧ t - max p X ≤ p / 2 + (mx + 2 * p) / 2 ^ 18 := by
  obtain ⟨hb3, hbM, hbe⟩ := nBinsFl_bounds hp hmx
  obtain ⟨t, ht, hr, hlo, h1, h2⟩ := rowFl_accuracy hM hp hb3 P A B hB hP hAB hq (windowSamples s ny nx w recs y x d)
    (fun v hv => lt_of_lt_of_le (hrange v hv) hbe) hN hX
  refine ⟨_, t, gridThresholdsFl_eq hM P w s ny nx hodd h3 hw hs hnx recs y x hy hx, ?_, hr, stepFl_pos 24 (by norm_num) hp, hlo, ?_, ?_⟩
  · rw [List.getElem?_map, List.getElem?_range hd, Option.map_some, if_neg hfirst, ht]
  · generalize (nBinsFl p mx : ℚ) * p = M at *
    norm_num at h1 ⊢
    linarith
  · have e : (nBinsFl p mx : ℚ) * p / 2 ^ 19 ≤ (mx + 2 * p) / 2 ^ 18 := by
      norm_num
      linarith
    linarith

/-- **C180**, bins: the edge between negative and positive anomalies is exactly 0, edge `j` is a float32 number within `4 j precision / 2 ^ 24` of
`(j - 1) precision`, the lowest threshold is the precision as a float32, and no bin is empty below two million bins. -/
theorem C180_edges (hp : 0 < p) : edgeFl 24 p 1 = 0 ∧ edgeFl 24 p 2 = fl 24 p ∧
    (∀ j, 1 ≤ j → Representable 24 (edgeFl 24 p j) ∧ |edgeFl 24 p j - ((j : ℚ) - 1) * p| ≤ 4 * (j * p) / 2 ^ 24) ∧
    ∀ j, j < 2000000 → edgeFl 24 p j < edgeFl 24 p (j + 1) := by
  refine ⟨rfl, edgeFl_two 24 (by norm_num) hp, fun j hj => ⟨edgeFl_representable 24 (by norm_num) hp j hj, edgeFl_err 24 (by norm_num) hp j hj⟩, ?_⟩
  intro j hj
  rcases Nat.eq_zero_or_pos j with rfl | h1
  · show -(fl 24 p) < 0
    linarith [stepFl_pos 24 (by norm_num) hp]
  · have e1 := (abs_le.1 (edgeFl_err 24 (by norm_num) hp j h1)).2
    have e2 := (abs_le.1 (edgeFl_err 24 (by norm_num) hp (j + 1) (by omega))).1
    have hj' : (j : ℚ) * p < 2000000 * p := mul_lt_mul_of_pos_right (by exact_mod_cast hj) hp
    push_cast at e2
    have r1 : ((j : ℚ) - 1) * p = j * p - p := by ring
    have r2 : ((j : ℚ) + 1 - 1) * p = j * p := by ring
    have r3 : ((j : ℚ) + 1) * p = j * p + p := by ring
    rw [r1] at e1
    rw [r2, r3] at e2
    generalize (j : ℚ) * p = J at *
    norm_num at e1 e2
    linarith

/-- **C180 fails** near `max_anomaly`: with the default precision 0.01 and the default maximum 5 the last edge is the float32 number before 5. Anomalies of
that size are below `max_anomaly` and yet not counted: where all anomalies are so large, there is no threshold on any day. -/
theorem C180_below_max_anomaly_fails : ∃ v : ℚ, Representable 24 v ∧ v < 5 ∧ ∀ (P : ℚ) (w s ny nx : Nat), w % 2 = 1 → 3 ≤ w → w ≤ 733 → s % 2 = 1 →
    s / 2 ≤ nx → ∀ recs : Nat → Nat → List Sample, (∀ y x, ∀ r ∈ recs y x, r.val = some v) → ∀ y x, y < ny → x < nx →
      gridThresholdsFl (fl 53 (1 / 100)) 5 P w s ny nx recs y x = .ok (List.replicate 366 none) := by
  have hn : nBinsFl (fl 53 (1 / 100)) 5 = 502 := by decide +kernel
  have he : edgeFl 24 (fl 53 (1 / 100)) 501 = 5 - 1 / 2 ^ 21 := by decide +kernel
  refine ⟨5 - 1 / 2 ^ 21, ⟨10485759, -21, by norm_num, by norm_num [zpow_neg]⟩, by norm_num, ?_⟩
  intro P w s ny nx hodd h3 hw hs hnx recs hv y x hy hx
  have hp : 0 < fl 53 (1 / 100) := stepFl_pos 53 (by norm_num) (by norm_num)
  rw [gridThresholdsFl_eq (by rw [hn]; norm_num) P w s ny nx hodd h3 hw hs hnx recs y x hy hx, List.map_congr_left (g := fun _ => none), List.map_const', List.length_range]
  intro d _
  have hd : digitizeFl (fl 53 (1 / 100)) 5 (some (5 - 1 / 2 ^ 21)) = 502 := by
    obtain ⟨h1, h2⟩ := digitizeFl_spec (mx := 5) hp (5 - 1 / 2 ^ 21)
    have := (h2 501 (by rw [hn]; norm_num)).1 (by rw [he])
    rw [hn] at h1
    omega
  have hrow : (histCountsFl (fl 53 (1 / 100)) 5 (windowSamples s ny nx w recs y x d)) = List.replicate 502 0 := by
    unfold histCountsFl
    rw [hn, List.map_congr_left (g := fun _ => 0), List.map_const', List.length_range]
    intro b hb
    rw [List.length_eq_zero_iff, List.filter_eq_nil_iff]
    intro u hu
    have hu' : u = some (5 - 1 / 2 ^ 21) := by
      unfold windowSamples at hu
      simp only [List.mem_flatMap, List.mem_map, List.mem_filter] at hu
      obtain ⟨_, _, _, _, r, ⟨hr, _⟩, rfl⟩ := hu
      exact hv _ _ r hr
    rw [hu', hd]
    have := List.mem_range.1 hb
    simp
    omega
  rw [hrow]
  have hz : rowThresholdFl P (centreFl (fl 53 (1 / 100))) (List.replicate 502 0) = none := by
    unfold rowThresholdFl
    simp only [List.take_replicate, List.sum_replicate, smul_eq_mul, mul_zero, if_true]
  rw [hz]
  split <;> rfl

/-- Non-vacuity: ten years of one day with the defaults and an 11-day window. -/
example : ∃ ts t, gridThresholdsFl (fl 53 (1 / 100)) 5 90 11 1 1 1 (fun _ _ => tenYears (1 / 100)) 0 0 = .ok ts ∧ ts[0]? = some (some t) ∧
    |t - 39 / 1000| < 2 / 100 := by
  have hw : (windowSamples 1 1 1 11 (fun _ _ => tenYears (1 / 100)) 0 0 0).filterMap id =
      [0, 0, 0, 0, 39 / 1000, 0, 0, 0, 0, 0] := by rw [tenYears_window]; norm_num; rfl
  have hp : 0 < fl 53 (1 / 100) := stepFl_pos 53 (by norm_num) (by norm_num)
  have hlo := le_fl 53 (by norm_num) (1 / 100 : ℚ) (by norm_num)
  have hhi := fl_le 53 (by norm_num) (1 / 100 : ℚ) (by norm_num)
  norm_num at hlo hhi
  obtain ⟨ts, t, h1, h2, _, _, _, h5, h6⟩ := C180_threshold_partial (p := fl 53 (1 / 100)) (mx := 5) hp (by norm_num; linarith)
    (by rw [show nBinsFl (fl 53 (1 / 100)) 5 = 502 by decide +kernel]; norm_num) 90 9 10 (by norm_num) (by norm_num) (by norm_num)
    (usual_percentiles 90 (by simp)) 11 1 1 1 (by norm_num) (by norm_num) (by norm_num) (by norm_num) (by norm_num) (fun _ _ => tenYears (1 / 100)) 0 0
    (by norm_num) (by norm_num) (by decide +kernel) 0 (by norm_num) (by rw [hw]; intro v hv; fin_cases hv <;> norm_num) (by rw [hw]; norm_num) (39 / 1000)
    (by rw [hw]; unfold JustAfter; decide +kernel)
  refine ⟨ts, t, h1, h2, ?_⟩
  have hm : max (fl 53 (1 / 100 : ℚ)) (39 / 1000) = 39 / 1000 := max_eq_right (by norm_num; linarith)
  rw [hm] at h5 h6
  norm_num at h5 h6
  rw [abs_lt]
  constructor <;> linarith

end MarEx.Props
