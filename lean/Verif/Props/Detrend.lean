import Verif.Model.Detrend
import Mathlib.Analysis.Matrix.Spectrum
import Mathlib.LinearAlgebra.Matrix.DotProduct
import Mathlib.Algebra.Order.Star.Real
/-! C36 (detrending), C42 (decimal years), C67 (detrend_orders), C68 (standardisation window). -/
namespace MarEx.Props
open MarEx Spec

/-- The row span of the centred model is the span of the fitted components. -/
theorem span_rows {n : Nat} (orders : List Nat) (harmonics : Bool) (dy : Fin n → ℝ) :
    (∀ r ∈ modelRows orders harmonics dy, r ∈ Submodule.span ℝ {c | Fitted orders harmonics dy c}) ∧
    (∀ c, Fitted orders harmonics dy c → c ∈ Submodule.span ℝ {r | r ∈ modelRows orders harmonics dy}) := by
  have hcomp : ∀ c, Fitted orders harmonics dy c ↔ c ∈ modelComponents orders harmonics dy := by
    intro c
    constructor
    · intro h
      cases h with
      | constant => simp [modelComponents]
      | trend o ho =>
        simp only [modelComponents, List.mem_cons, List.mem_append, List.mem_map]
        exact Or.inr (Or.inl ⟨o, ho, rfl⟩)
      | sine k hh hk =>
        simp only [modelComponents, hh, if_true, List.mem_cons, List.mem_append]
        rcases hk with rfl | rfl
        · right; right; left; funext t; norm_num
        · right; right; right; right; left; funext t; norm_num
      | cosine k hh hk =>
        simp only [modelComponents, hh, if_true, List.mem_cons, List.mem_append]
        rcases hk with rfl | rfl
        · right; right; right; left; funext t; norm_num
        · right; right; right; right; right; left; funext t; norm_num
    · intro h
      simp only [modelComponents, List.mem_cons, List.mem_append, List.mem_map] at h
      rcases h with rfl | ⟨o, ho, rfl⟩ | h
      · exact .constant
      · exact .trend o ho
      · by_cases hh : harmonics = true
        · rw [if_pos hh] at h
          simp only [List.mem_cons, List.not_mem_nil, or_false] at h
          rcases h with rfl | rfl | rfl | rfl
          · have := Fitted.sine (orders := orders) (dy := dy) 1 hh (Or.inl rfl); norm_num at this; exact this
          · have := Fitted.cosine (orders := orders) (dy := dy) 1 hh (Or.inl rfl); norm_num at this; exact this
          · have := Fitted.sine (orders := orders) (dy := dy) 2 hh (Or.inr rfl); norm_num at this; exact this
          · have := Fitted.cosine (orders := orders) (dy := dy) 2 hh (Or.inr rfl); norm_num at this; exact this
        · rw [if_neg hh] at h; cases h
  have hset : {c | Fitted orders harmonics dy c} = {c | c ∈ modelComponents orders harmonics dy} := Set.ext hcomp
  rw [hset]
  obtain ⟨rest, hrest⟩ : ∃ rest, modelComponents orders harmonics dy = (fun _ => (1 : ℝ)) :: rest := ⟨_, rfl⟩
  have hrows : modelRows orders harmonics dy =
      (fun _ => (1 : ℝ)) :: rest.map fun c => (fun t => c t - timeMean c * 1) := by
    unfold modelRows; rw [hrest]; rfl
  have hone : (fun _ : Fin n => (1 : ℝ)) ∈ modelComponents orders harmonics dy := by rw [hrest]; exact List.mem_cons_self
  have hone' : (fun _ : Fin n => (1 : ℝ)) ∈ modelRows orders harmonics dy := by rw [hrows]; exact List.mem_cons_self
  constructor
  · intro r hr
    rw [hrows, List.mem_cons, List.mem_map] at hr
    rcases hr with rfl | ⟨c, hc, rfl⟩
    · exact Submodule.subset_span hone
    · have : (fun t => c t - timeMean c * 1) = c - timeMean c • (fun _ : Fin n => (1 : ℝ)) := by
        funext t; simp
      rw [this]
      refine Submodule.sub_mem _ (Submodule.subset_span ?_) (Submodule.smul_mem _ _ (Submodule.subset_span hone))
      show c ∈ modelComponents orders harmonics dy
      rw [hrest]; exact List.mem_cons_of_mem _ hc
  · intro c hc
    rw [hcomp, hrest, List.mem_cons] at hc
    rcases hc with rfl | hc
    · exact Submodule.subset_span hone'
    · have : c = (fun t => c t - timeMean c * 1) + timeMean c • (fun _ : Fin n => (1 : ℝ)) := by
        funext t; simp
      rw [this]
      refine Submodule.add_mem _ (Submodule.subset_span ?_) (Submodule.smul_mem _ _ (Submodule.subset_span hone'))
      show _ ∈ modelRows orders harmonics dy
      rw [hrows]
      exact List.mem_cons_of_mem _ (List.mem_map_of_mem (f := fun c => (fun t => c t - timeMean c * 1)) hc)

theorem removeFit_eq {k n : Nat} (M : Matrix (Fin k) (Fin n) ℝ) (P : Matrix (Fin n) (Fin k) ℝ) (h : IsPinv M P) (d : Fin n → ℝ) :
    removeFit M P d = d - (P * M).mulVec d := by
  funext t
  have h2 : (P * M).mulVec d t = ∑ s, (P * M) s t * d s := by
    rw [Matrix.mulVec, dotProduct]
    apply Finset.sum_congr rfl
    intro s _
    rw [← congrFun (congrFun h.symP t) s]; rfl
  simp only [removeFit, fitCoeffs, Pi.sub_apply, h2]
  congr 1
  simp only [Matrix.mul_apply, Finset.mul_sum, Finset.sum_mul]
  rw [Finset.sum_comm]
  apply Finset.sum_congr rfl; intro s _
  apply Finset.sum_congr rfl; intro c _
  ring

theorem removeFit_orthogonal {k n : Nat} (M : Matrix (Fin k) (Fin n) ℝ) (P : Matrix (Fin n) (Fin k) ℝ) (h : IsPinv M P)
    (d : Fin n → ℝ) (i : Fin k) : ∑ t, M i t * removeFit M P d t = 0 := by
  have : M.mulVec (removeFit M P d) = 0 := by
    rw [removeFit_eq M P h, Matrix.mulVec_sub, Matrix.mulVec_mulVec, ← Matrix.mul_assoc, h.mpm, sub_self]
  exact congrFun this i

theorem orthogonal_span {n : Nat} {S : Set (Fin n → ℝ)} {r : Fin n → ℝ} (h : ∀ c ∈ S, ∑ t, c t * r t = 0) :
    ∀ c ∈ Submodule.span ℝ S, ∑ t, c t * r t = 0 := by
  intro c hc
  induction hc using Submodule.span_induction with
  | mem x hx => exact h x hx
  | zero => simp
  | add x y _ _ hx hy => simp [add_mul, Finset.sum_add_distrib, hx, hy]
  | smul a x _ hx => simp [mul_assoc, ← Finset.mul_sum, hx]

/-- C36: whatever the orders and the flags, the detrended anomaly is the least-squares residual of the data with respect to the fitted components. -/
theorem C36_least_squares_residual {n : Nat} (orders : List Nat) (harmonics forceZeroMean : Bool) (dy : Fin n → ℝ)
    (P : Matrix (Fin n) (Fin (modelRows orders harmonics dy).length) ℝ) (hP : IsPinv (modelMatrix orders harmonics dy) P)
    (d : Fin n → ℝ) :
    IsResidual {c | Fitted orders harmonics dy c} d (detrended orders harmonics forceZeroMean dy P d) := by
  obtain ⟨hr, hc⟩ := span_rows orders harmonics dy
  have horth : ∀ c, Fitted orders harmonics dy c → ∑ t, c t * removeFit (modelMatrix orders harmonics dy) P d t = 0 := by
    intro c hfit
    refine orthogonal_span (S := {r | r ∈ modelRows orders harmonics dy}) ?_ c (hc c hfit)
    intro r hrm
    obtain ⟨i, hi, rfl⟩ := List.mem_iff_getElem.1 hrm
    exact removeFit_orthogonal _ P hP d ⟨i, hi⟩
  have hmean : timeMean (removeFit (modelMatrix orders harmonics dy) P d) = 0 := by
    have := horth _ Fitted.constant
    simp only [one_mul] at this
    simp [timeMean, this]
  have hforce : detrended orders harmonics forceZeroMean dy P d = removeFit (modelMatrix orders harmonics dy) P d := by
    unfold detrended
    dsimp only
    rw [hmean]
    split
    · funext t; simp
    · rfl
  rw [hforce]
  refine ⟨?_, horth⟩
  have : d - removeFit (modelMatrix orders harmonics dy) P d =
      ∑ c, fitCoeffs P d c • (modelRows orders harmonics dy)[c] := by
    funext t
    simp only [Pi.sub_apply, removeFit, sub_sub_cancel, Finset.sum_apply, Pi.smul_apply, smul_eq_mul, modelMatrix]
    apply Finset.sum_congr rfl
    intro c _
    ring
  rw [this]
  exact Submodule.sum_mem _ fun c _ => Submodule.smul_mem _ _ (hr _ (List.getElem_mem _))

/-- A least-squares residual is unique. -/
theorem residual_unique {n : Nat} {S : Set (Fin n → ℝ)} {d r r' : Fin n → ℝ} (h : IsResidual S d r) (h' : IsResidual S d r') : r = r' := by
  have hmem : r' - r ∈ Submodule.span ℝ S := by
    have := Submodule.sub_mem _ h.1 h'.1
    simpa using this
  have h0 : ∑ t, (r' - r) t * (r' - r) t = 0 := by
    have h1 := orthogonal_span h.2 _ hmem
    have h2 := orthogonal_span h'.2 _ hmem
    have : ∀ t, (r' - r) t * (r' - r) t = (r' - r) t * r' t - (r' - r) t * r t := by intro t; simp; ring
    simp only [this, Finset.sum_sub_distrib, h1, h2, sub_zero]
  have h1 := (Finset.sum_eq_zero_iff_of_nonneg (fun t _ => mul_self_nonneg ((r' - r) t))).1 h0
  funext t
  have := mul_self_eq_zero.1 (h1 t (Finset.mem_univ t))
  simp only [Pi.sub_apply] at this
  linarith

/-- C36: adding any combination of fitted components to the data does not change the anomaly. -/
theorem C36_component_invariance {n : Nat} (orders : List Nat) (harmonics forceZeroMean : Bool) (dy : Fin n → ℝ)
    (P : Matrix (Fin n) (Fin (modelRows orders harmonics dy).length) ℝ) (hP : IsPinv (modelMatrix orders harmonics dy) P)
    (d e : Fin n → ℝ) (he : e ∈ Submodule.span ℝ {c | Fitted orders harmonics dy c}) :
    detrended orders harmonics forceZeroMean dy P (d + e) = detrended orders harmonics forceZeroMean dy P d := by
  have h1 := C36_least_squares_residual orders harmonics forceZeroMean dy P hP (d + e)
  have h2 := C36_least_squares_residual orders harmonics forceZeroMean dy P hP d
  refine residual_unique (d := d + e) h1 ⟨?_, h2.2⟩
  have : d + e - detrended orders harmonics forceZeroMean dy P d = (d - detrended orders harmonics forceZeroMean dy P d) + e := by
    funext t; simp; ring
  rw [this]
  exact Submodule.add_mem _ h2.1 he

/-- C36: the anomaly averages to zero in time, so force_zero_mean changes nothing. -/
theorem C36_force_zero_mean {n : Nat} (orders : List Nat) (harmonics : Bool) (dy : Fin n → ℝ)
    (P : Matrix (Fin n) (Fin (modelRows orders harmonics dy).length) ℝ) (hP : IsPinv (modelMatrix orders harmonics dy) P)
    (d : Fin n → ℝ) :
    ∑ t, detrended orders harmonics false dy P d t = 0 ∧
    detrended orders harmonics true dy P d = detrended orders harmonics false dy P d := by
  have h1 := C36_least_squares_residual orders harmonics true dy P hP d
  have h2 := C36_least_squares_residual orders harmonics false dy P hP d
  refine ⟨?_, residual_unique h1 h2⟩
  have := h2.2 _ Fitted.constant
  simpa using this

/-- Non-vacuity of the contract of `np.linalg.pinv`: every matrix has a pseudo-inverse. -/
theorem exists_pinv {k n : Nat} (M : Matrix (Fin k) (Fin n) ℝ) : ∃ P, IsPinv M P := by
  have hA : (M.transpose * M).IsHermitian := by
    rw [Matrix.IsHermitian, Matrix.conjTranspose_eq_transpose_of_trivial, Matrix.transpose_mul, Matrix.transpose_transpose]
  obtain ⟨φ, D, hφ⟩ : ∃ (φ : Matrix (Fin n) (Fin n) ℝ ≃⋆ₐ[ℝ] Matrix (Fin n) (Fin n) ℝ) (D : Fin n → ℝ),
      M.transpose * M = φ (Matrix.diagonal D) := ⟨_, _, hA.spectral_theorem⟩
  generalize hH : M.transpose * M = H at hφ
  let G := φ (Matrix.diagonal fun i => (D i)⁻¹)
  have hHGH : H * G * H = H := by
    rw [hφ, ← map_mul, ← map_mul, Matrix.diagonal_mul_diagonal, Matrix.diagonal_mul_diagonal]
    congr 2; funext i
    by_cases h : D i = 0 <;> simp [h]
  have hGHG : G * H * G = G := by
    rw [hφ, ← map_mul, ← map_mul, Matrix.diagonal_mul_diagonal, Matrix.diagonal_mul_diagonal]
    congr 2; funext i
    by_cases h : D i = 0 <;> simp [h]
  have hcomm : G * H = H * G := by
    rw [hφ, ← map_mul, ← map_mul, Matrix.diagonal_mul_diagonal, Matrix.diagonal_mul_diagonal]
    congr 2; funext i; ring
  have hsym : ∀ E : Fin n → ℝ, (φ (Matrix.diagonal E)).transpose = φ (Matrix.diagonal E) := by
    intro E
    rw [← Matrix.conjTranspose_eq_transpose_of_trivial, ← Matrix.star_eq_conjTranspose, ← map_star,
      Matrix.star_eq_conjTranspose, Matrix.diagonal_conjTranspose]
    congr 2
  have hGt : G.transpose = G := hsym _
  have hHt : H.transpose = H := by rw [hφ]; exact hsym _
  have hMGH : M * (G * H) = M := by
    have h0 : (M * (G * H) - M).transpose * (M * (G * H) - M) = 0 := by
      have h1 : (M * (G * H) - M).transpose = (H * G - 1) * M.transpose := by
        rw [Matrix.transpose_sub, Matrix.transpose_mul, Matrix.transpose_mul, hGt, hHt, Matrix.sub_mul, Matrix.one_mul]
      have h2 : (H * G - 1) * M.transpose * (M * (G * H) - M) = (H * G - 1) * (H * G * H - H) := by
        rw [Matrix.mul_assoc, Matrix.mul_sub M.transpose, ← Matrix.mul_assoc M.transpose, hH, Matrix.mul_assoc H]
      rw [h1, h2, hHGH, sub_self, Matrix.mul_zero]
    rw [← Matrix.conjTranspose_eq_transpose_of_trivial, Matrix.conjTranspose_mul_self_eq_zero] at h0
    exact sub_eq_zero.1 h0
  refine ⟨G * M.transpose, ?_, ?_, ?_, ?_⟩
  · rw [Matrix.mul_assoc, Matrix.mul_assoc G, hH, hMGH]
  · rw [Matrix.mul_assoc G, hH, ← Matrix.mul_assoc, hGHG]
  · rw [Matrix.transpose_mul, Matrix.transpose_mul, Matrix.transpose_transpose, hGt, Matrix.mul_assoc]
  · rw [Matrix.mul_assoc, hH, Matrix.transpose_mul, hGt, hHt, hcomm]

/-- A quadratic trend with harmonics over any times meets the hypothesis of the theorems above. -/
example {n : Nat} (dy : Fin n → ℝ) : ∃ P, IsPinv (modelMatrix [1, 2] true dy) P := exists_pinv _

/-! ### C42 -/

theorem yearDays_newYear (y : Int) : (yearDays y : Int) = newYear (y + 1) - newYear y := by
  unfold yearDays isLeap newYear
  by_cases h4 : y % 4 = 0 <;> by_cases h100 : y % 100 = 0 <;> by_cases h400 : y % 400 = 0 <;> simp [h4, h100, h400] <;> omega

/-- A time that exists in the calendar: the day lies between two New Years. -/
def ValidTime (t : CalTime) : Prop := newYear t.year + t.day < newYear (t.year + 1) ∧ t.ns < 86400000000000

theorem ValidTime.day_lt {t : CalTime} (h : ValidTime t) : t.day < yearDays t.year := by
  have := h.1
  have := yearDays_newYear t.year
  omega

/-- C42: the decimal year is the year plus the share of the year's days that have passed. -/
theorem C42_exact_value (t : CalTime) :
    decimalYear t = t.year + (t.day : ℚ) / ((newYear (t.year + 1) - newYear t.year : Int) : ℚ) := by
  rw [← yearDays_newYear]
  simp [decimalYear]

-- 1 July 2024 is day 182 of a year of 366 days
example : decimalYear ⟨2024, 182, 0⟩ = 2024 + 182 / 366 := by decide +kernel
example : newYear 2025 - newYear 2024 = 366 ∧ newYear 1901 - newYear 1900 = 365 := by decide

theorem yearDays_pos (y : Int) : (0 : ℚ) < yearDays y := by
  unfold yearDays; split <;> norm_num

/-- C42: the decimal year of a time lies in its own calendar year. -/
theorem C42_within_year (t : CalTime) (h : ValidTime t) :
    (t.year : ℚ) ≤ decimalYear t ∧ decimalYear t < t.year + 1 := by
  unfold decimalYear
  have hp := yearDays_pos t.year
  have hd : (t.day : ℚ) < yearDays t.year := by exact_mod_cast h.day_lt
  constructor
  · have : (0 : ℚ) ≤ (t.day : ℚ) / yearDays t.year := by positivity
    linarith
  · have : (t.day : ℚ) / yearDays t.year < 1 := by rw [div_lt_one hp]; exact hd
    linarith

/-- C138, the part that holds: decimal years increase strictly from one calendar day to any later one.  (Missing: times of the same day.) -/
theorem C138_increasing_in_days_partial (s t : CalTime) (hs : ValidTime s) (ht : ValidTime t)
    (h : s.year < t.year ∨ (s.year = t.year ∧ s.day < t.day)) : decimalYear s < decimalYear t := by
  rcases h with h | ⟨h1, h2⟩
  · have h1 := (C42_within_year s hs).2
    have h2 := (C42_within_year t ht).1
    have : (s.year : ℚ) + 1 ≤ t.year := by exact_mod_cast h
    linarith
  · unfold decimalYear
    rw [h1]
    have : (s.day : ℚ) < t.day := by exact_mod_cast h2
    have := div_lt_div_of_pos_right this (yearDays_pos t.year)
    linarith

/-- C138 fails for sub-daily data: all times of one day get the same decimal year. -/
theorem C138_same_day_collides_fails (y : Int) (d n m : Nat) (_ : n < m) (_ : ValidTime ⟨y, d, m⟩) :
    decimalYear ⟨y, d, n⟩ = decimalYear ⟨y, d, m⟩ := rfl

example : ValidTime ⟨2000, 365, 5⟩ ∧ ValidTime ⟨2001, 0, 0⟩ ∧ decimalYear ⟨2000, 365, 5⟩ = 2000 + 365 / 366 := by
  refine ⟨by unfold ValidTime; decide, by unfold ValidTime; decide, ?_⟩
  simp [decimalYear, yearDays, isLeap]

/-! ### C67 -/

/-- C67: detrend_orders is accepted iff it is omitted or is a non-empty list of integers of at least one, and the accepted orders are used as given. -/
theorem C67_orders_accepted_iff (orders : Option (List Int)) (os : List Nat) :
    checkOrders orders = .ok os ↔
      (orders = none ∧ os = [1]) ∨
      (∃ l, orders = some l ∧ l ≠ [] ∧ (∀ o ∈ l, 1 ≤ o) ∧ l = os.map Int.ofNat) := by
  unfold checkOrders
  cases orders with
  | none => simp [eq_comm]
  | some l =>
    simp only [Option.getD_some, reduceCtorEq, false_and, Option.some.injEq, exists_eq_left', false_or]
    by_cases h1 : l = []
    · simp [h1]
    · have h1' : l.isEmpty = false := by simpa using h1
      rw [if_neg (by simp [h1'])]
      by_cases h2 : ∃ o ∈ l, o < 1
      · rw [if_pos (by simpa using h2)]
        simp only [reduceCtorEq, false_iff]
        rintro ⟨_, h, _⟩
        obtain ⟨o, ho, hlt⟩ := h2
        have := h o ho
        omega
      · rw [if_neg (by simpa using h2)]
        have h2' : ∀ o ∈ l, 1 ≤ o := by
          intro o ho
          by_contra hc
          exact h2 ⟨o, ho, by omega⟩
        have hrt : (l.map Int.toNat).map Int.ofNat = l := by
          rw [List.map_map]
          conv_rhs => rw [← List.map_id l]
          apply List.map_congr_left
          intro o ho
          have := h2' o ho
          simp only [Function.comp_apply, id]
          exact Int.toNat_of_nonneg (by omega)
        constructor
        · intro h
          injection h with h
          exact ⟨h1, h2', by rw [← h, hrt]⟩
        · rintro ⟨_, _, h⟩
          have : (os.map Int.ofNat).map Int.toNat = os := by simp [List.map_map, Function.comp_def]
          rw [h, this]

example : checkOrders (some [1, 2]) = .ok [1, 2] ∧ checkOrders (some [0]) = .error .invalidOrders ∧
    checkOrders (some []) = .error .emptyOrders := ⟨rfl, rfl, rfl⟩

/-! ### C68 -/

theorem wrapPad_getElem? {α : Type} (l : List α) (hl : 16 ≤ l.length) (i : Nat) (hi : i < l.length + 32) :
    (wrapPad 16 l)[i]? = l[(i + l.length - 16) % l.length]? := by
  unfold wrapPad
  have hd : (l.drop (l.length - 16)).length = 16 := by simp; omega
  by_cases h1 : i < 16
  · rw [List.append_assoc, List.getElem?_append_left (by omega), List.getElem?_drop]
    congr 1
    rw [Nat.mod_eq_of_lt (by omega)]; omega
  · by_cases h2 : i < 16 + l.length
    · rw [List.append_assoc, List.getElem?_append_right (by omega), hd, List.getElem?_append_left (by omega)]
      congr 1
      rw [show i + l.length - 16 = (i - 16) + l.length by omega, Nat.add_mod_right, Nat.mod_eq_of_lt (by omega)]
    · rw [List.getElem?_append_right (by simp; omega), List.getElem?_take]
      simp only [List.length_append, hd]
      rw [if_pos (by omega)]
      congr 1
      rw [show i + l.length - 16 = (i - (16 + l.length)) + l.length + l.length by omega, Nat.add_mod_right, Nat.add_mod_right,
        Nat.mod_eq_of_lt (by omega)]

/-- C68: with all 366 days of year present, the standard deviation used on day `d` (from 0) is the root mean square of the daily standard deviations
over the thirty days from `d-15` to `d+14`, wrapping around the year, and each day appears once. -/
theorem C68_standardisation_window (sd : Nat → ℝ) :
    stdRolling ((List.range 366).map fun d => (d + 1, sd d)) =
      (List.range 366).map fun d => (d + 1,
        some (Real.sqrt (((List.range 30).map fun k => sd ((d + 351 + k) % 366) ^ 2).sum / 30))) := by
  have hlen : (wrapPad 16 ((List.range 366).map fun d => (d + 1, sd d))).length = 398 := by simp [wrapPad]
  have hget : ∀ i, i < 398 → (wrapPad 16 ((List.range 366).map fun d => (d + 1, sd d)))[i]?
      = some ((i + 350) % 366 + 1, sd ((i + 350) % 366)) := by
    intro i hi
    rw [wrapPad_getElem? _ (by simp) i (by simpa using hi)]
    simp only [List.length_map, List.length_range, List.getElem?_map]
    rw [List.getElem?_range (Nat.mod_lt _ (by norm_num))]
    rfl
  unfold stdRolling
  dsimp only
  rw [hlen]
  generalize wrapPad 16 ((List.range 366).map fun d => (d + 1, sd d)) = wr at *
  apply List.ext_getElem?
  intro d
  by_cases hd : d < 366
  · rw [List.getElem?_take, if_pos hd, List.getElem?_drop, List.getElem?_map, List.getElem?_range (by omega), List.getElem?_map,
      List.getElem?_range hd]
    simp only [Option.map_some, Option.some.injEq, Prod.mk.injEq]
    constructor
    · rw [List.getD_eq_getElem?_getD, List.getElem?_map, hget _ (by omega)]
      simp only [Option.map_some, Option.getD_some]
      omega
    · unfold rollingRms
      rw [if_pos (by simp only [List.length_map, hlen]; omega)]
      congr 4
      apply List.map_congr_left
      intro k hk
      rw [List.mem_range] at hk
      rw [List.getD_eq_getElem?_getD, List.getElem?_map, hget _ (by omega)]
      simp only [Option.map_some, Option.getD_some]
      congr 3
      omega
  · rw [List.getElem?_eq_none (by simp; omega), List.getElem?_eq_none (by simp; omega)]

/-- C129 fails for records without a leap year: with only 365 days of year present the result still has 366 entries, and day 1 appears twice. -/
theorem C129_no_leap_year_fails (sd : Nat → ℝ) :
    (stdRolling ((List.range 365).map fun d => (d + 1, sd d))).map Prod.fst = (List.range 365).map (· + 1) ++ [1] := by
  have hlen : (wrapPad 16 ((List.range 365).map fun d => (d + 1, sd d))).length = 397 := by simp [wrapPad]
  have hget : ∀ i, i < 397 → (wrapPad 16 ((List.range 365).map fun d => (d + 1, sd d)))[i]?
      = some ((i + 349) % 365 + 1, sd ((i + 349) % 365)) := by
    intro i hi
    rw [wrapPad_getElem? _ (by simp) i (by simpa using hi)]
    simp only [List.length_map, List.length_range, List.getElem?_map]
    rw [List.getElem?_range (Nat.mod_lt _ (by norm_num))]
    rfl
  unfold stdRolling
  dsimp only
  rw [hlen]
  generalize wrapPad 16 ((List.range 365).map fun d => (d + 1, sd d)) = wr at *
  apply List.ext_getElem?
  intro d
  by_cases hd : d < 366
  · rw [List.getElem?_map, List.getElem?_take, if_pos hd, List.getElem?_drop, List.getElem?_map, List.getElem?_range (by omega)]
    simp only [Option.map_some]
    rw [List.getD_eq_getElem?_getD, List.getElem?_map, hget _ (by omega)]
    simp only [Option.map_some, Option.getD_some]
    by_cases h : d < 365
    · rw [List.getElem?_append_left (by simpa using h), List.getElem?_map, List.getElem?_range h]
      simp only [Option.map_some, Option.some.injEq]
      omega
    · obtain rfl : d = 365 := by omega
      rw [List.getElem?_append_right (by simp)]
      simp
  · rw [List.getElem?_eq_none (by simp; omega), List.getElem?_eq_none (by simp; omega)]

end MarEx.Props
