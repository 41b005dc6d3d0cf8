import Verif.Model.MeshCentroid
/-! Property C58: centroids on an unstructured mesh. -/
namespace MarEx.Props
open MarEx Real

/-- The cell moved east by `α` degrees. -/
def eastward (α : ℝ) (c : MCell) : MCell := ⟨c.lat, c.lon + α, c.area⟩

theorem sumZ_eastward (α : ℝ) (cells : List MCell) : sumZ (cells.map (eastward α)) = sumZ cells := by
  unfold sumZ; rw [List.map_map]; rfl

theorem sumXY_eastward (α : ℝ) (cells : List MCell) :
    sumX (cells.map (eastward α)) = cos (toRad α) * sumX cells - sin (toRad α) * sumY cells ∧
    sumY (cells.map (eastward α)) = sin (toRad α) * sumX cells + cos (toRad α) * sumY cells := by
  unfold sumX sumY
  induction cells with
  | nil => simp
  | cons c cells ih =>
    have e : toRad (c.lon + α) = toRad c.lon + toRad α := by unfold toRad; ring
    simp only [List.map_cons, List.sum_cons, ih.1, ih.2]
    simp only [eastward, e, cos_add, sin_add]
    constructor <;> ring

theorem meshNorm_eastward (α : ℝ) (cells : List MCell) : meshNorm (cells.map (eastward α)) = meshNorm cells := by
  unfold meshNorm
  obtain ⟨h1, h2⟩ := sumXY_eastward α cells
  have : sumX (cells.map (eastward α)) ^ 2 + sumY (cells.map (eastward α)) ^ 2 + sumZ (cells.map (eastward α)) ^ 2
      = sumX cells ^ 2 + sumY cells ^ 2 + sumZ cells ^ 2 := by
    rw [h1, h2, sumZ_eastward]
    have := sin_sq_add_cos_sq (toRad α)
    linear_combination (sumX cells ^ 2 + sumY cells ^ 2) * this
  rw [this]

theorem meshNorm_pos (cells : List MCell) : 0 < meshNorm cells := by
  unfold meshNorm; split
  · assumption
  · norm_num

theorem meshLon_eq (cells : List MCell) : meshLon cells = toDeg (Complex.arg ⟨sumX cells, sumY cells⟩) := by
  have hn := meshNorm_pos cells
  have e : (⟨sumX cells / meshNorm cells, sumY cells / meshNorm cells⟩ : ℂ) = ((meshNorm cells)⁻¹ : ℝ) * (⟨sumX cells, sumY cells⟩ : ℂ) := by
    apply Complex.ext
    · simp only [Complex.re_ofReal_mul]; rw [div_eq_inv_mul]
    · simp only [Complex.im_ofReal_mul]; rw [div_eq_inv_mul]
  unfold meshLon
  rw [e, Complex.arg_real_mul _ (inv_pos.mpr hn)]
  have h1 := Complex.arg_le_pi (⟨sumX cells, sumY cells⟩ : ℂ)
  have h2 := Complex.neg_pi_lt_arg (⟨sumX cells, sumY cells⟩ : ℂ)
  have hp := pi_pos
  have b1 : toDeg (Complex.arg ⟨sumX cells, sumY cells⟩) ≤ 180 := by
    unfold toDeg
    rw [mul_div_assoc', div_le_iff₀ hp]; nlinarith
  have b2 : -180 ≤ toDeg (Complex.arg ⟨sumX cells, sumY cells⟩) := by
    unfold toDeg
    rw [mul_div_assoc', le_div_iff₀ hp]; nlinarith
  dsimp only
  rw [if_neg (by linarith), if_neg (by linarith)]

/-- **C58**, range: the centroid of every object lies on the globe: latitude in [-90, 90] and longitude in (-180, 180]. -/
theorem C58_in_range (cells : List MCell) :
    (-90 ≤ meshLat cells ∧ meshLat cells ≤ 90) ∧ (-180 < meshLon cells ∧ meshLon cells ≤ 180) := by
  have hp := pi_pos
  refine ⟨?_, ?_⟩
  · unfold meshLat toDeg
    have h1 := arcsin_le_pi_div_two (max (-1) (min 1 (sumZ cells / meshNorm cells)))
    have h2 := neg_pi_div_two_le_arcsin (max (-1) (min 1 (sumZ cells / meshNorm cells)))
    constructor
    · rw [mul_div_assoc', le_div_iff₀ hp]; nlinarith
    · rw [mul_div_assoc', div_le_iff₀ hp]; nlinarith
  · rw [meshLon_eq]
    have h1 := Complex.arg_le_pi (⟨sumX cells, sumY cells⟩ : ℂ)
    have h2 := Complex.neg_pi_lt_arg (⟨sumX cells, sumY cells⟩ : ℂ)
    unfold toDeg
    constructor
    · rw [mul_div_assoc', lt_div_iff₀ hp]; nlinarith
    · rw [mul_div_assoc', div_le_iff₀ hp]; nlinarith

/-- **C58**, rotation: moving every cell of an object east by `α` degrees leaves the latitude of its centroid unchanged and moves the
longitude by `α` modulo 360, whatever the width of the object and wherever the date line is; only objects whose mean vector lies on the
polar axis, which have no longitude, are excluded. -/
theorem C58_rotates (α : ℝ) (cells : List MCell) (hpole : sumX cells ≠ 0 ∨ sumY cells ≠ 0) :
    meshLat (cells.map (eastward α)) = meshLat cells ∧ ∃ k : ℤ, meshLon (cells.map (eastward α)) = meshLon cells + α + 360 * k := by
  refine ⟨by unfold meshLat; rw [sumZ_eastward, meshNorm_eastward], ?_⟩
  obtain ⟨h1, h2⟩ := sumXY_eastward α cells
  rw [meshLon_eq, meshLon_eq]
  have hz : (⟨sumX cells, sumY cells⟩ : ℂ) ≠ 0 := by
    intro h
    have hx := congrArg Complex.re h
    have hy := congrArg Complex.im h
    simp at hx hy
    rcases hpole with h | h
    · exact h hx
    · exact h hy
  have hu : Complex.exp ((toRad α : ℝ) * Complex.I) ≠ 0 := Complex.exp_ne_zero _
  have hm : (⟨sumX (cells.map (eastward α)), sumY (cells.map (eastward α))⟩ : ℂ) = Complex.exp ((toRad α : ℝ) * Complex.I) * ⟨sumX cells, sumY cells⟩ := by
    rw [h1, h2]
    apply Complex.ext
    · simp [Complex.mul_re, Complex.exp_ofReal_mul_I_re, Complex.exp_ofReal_mul_I_im]
    · simp [Complex.mul_im, Complex.exp_ofReal_mul_I_re, Complex.exp_ofReal_mul_I_im]; ring
  have key : ((Complex.arg (⟨sumX (cells.map (eastward α)), sumY (cells.map (eastward α))⟩ : ℂ) : ℝ) : Real.Angle)
      = (((toRad α) + Complex.arg (⟨sumX cells, sumY cells⟩ : ℂ) : ℝ) : Real.Angle) := by
    rw [hm, Complex.arg_mul_coe_angle hu hz, Real.Angle.coe_add]
    congr 1
    rw [Complex.arg_exp_mul_I]
    exact Real.Angle.coe_toIocMod _ _
  rw [Real.Angle.angle_eq_iff_two_pi_dvd_sub] at key
  obtain ⟨k, hk⟩ := key
  refine ⟨k, ?_⟩
  have hp := pi_pos
  have : Complex.arg (⟨sumX (cells.map (eastward α)), sumY (cells.map (eastward α))⟩ : ℂ)
      = toRad α + Complex.arg (⟨sumX cells, sumY cells⟩ : ℂ) + 2 * π * k := by linarith
  rw [this]
  unfold toDeg toRad
  field_simp
  ring

/-- **C58**, single cells: the centroid of an object of one cell (away from the poles) is that cell. -/
theorem C58_single_cell (lat lon area : ℝ) (ha : 0 < area) (hlat : -90 < lat ∧ lat < 90) (hlon : -180 < lon ∧ lon ≤ 180) :
    meshLat [⟨lat, lon, area⟩] = lat ∧ meshLon [⟨lat, lon, area⟩] = lon := by
  have hp := pi_pos
  have r1 : -(π / 2) < toRad lat := by unfold toRad; nlinarith
  have r2 : toRad lat < π / 2 := by unfold toRad; nlinarith
  have hc := cos_pos_of_mem_Ioo ⟨r1, r2⟩
  have hback : ∀ x, toDeg (toRad x) = x := by intro x; unfold toDeg toRad; field_simp
  constructor
  · have hn : meshNorm [⟨lat, lon, area⟩] = area := by
      unfold meshNorm sumX sumY sumZ
      simp only [List.map_cons, List.map_nil, List.sum_cons, List.sum_nil, add_zero]
      have e : (area * (cos (toRad lat) * cos (toRad lon))) ^ 2 + (area * (cos (toRad lat) * sin (toRad lon))) ^ 2 + (area * sin (toRad lat)) ^ 2 = area ^ 2 := by
        have h1 := sin_sq_add_cos_sq (toRad lat)
        have h2 := sin_sq_add_cos_sq (toRad lon)
        linear_combination area ^ 2 * cos (toRad lat) ^ 2 * h2 + area ^ 2 * h1
      rw [e, sqrt_sq (le_of_lt ha), if_pos ha]
    unfold meshLat
    rw [hn]
    unfold sumZ
    simp only [List.map_cons, List.map_nil, List.sum_cons, List.sum_nil, add_zero]
    rw [mul_div_cancel_left₀ _ (ne_of_gt ha), min_eq_right (sin_le_one _), max_eq_right (neg_one_le_sin _),
      arcsin_sin (le_of_lt r1) (le_of_lt r2), hback]
  · rw [meshLon_eq]
    have e : (⟨sumX [⟨lat, lon, area⟩], sumY [⟨lat, lon, area⟩]⟩ : ℂ)
        = ((area * cos (toRad lat) : ℝ) : ℂ) * (Complex.cos (toRad lon) + Complex.sin (toRad lon) * Complex.I) := by
      unfold sumX sumY
      apply Complex.ext
      · simp [← Complex.ofReal_cos, ← Complex.ofReal_sin]; ring
      · simp [← Complex.ofReal_cos, ← Complex.ofReal_sin]; ring
    rw [e, Complex.arg_mul_cos_add_sin_mul_I (mul_pos ha hc), hback]
    unfold toRad
    constructor <;> nlinarith [hlon.1, hlon.2]

-- non-vacuity of `C58_rotates`: a cell on the equator has a longitude
example : sumX [⟨0, 0, 1⟩] ≠ 0 ∨ sumY [⟨0, 0, 1⟩] ≠ 0 := by left; simp [sumX, toRad]

/-- **C58**, direction: the centroid is the point of the sphere in the direction of the area-weighted sum of the positions of the cells (as vectors from the centre of
the sphere), whenever that sum is not zero. -/
theorem C58_direction (cells : List MCell) :
    let X := (cells.map fun c => c.area * (cos (c.lat * (π / 180)) * cos (c.lon * (π / 180)))).sum
    let Y := (cells.map fun c => c.area * (cos (c.lat * (π / 180)) * sin (c.lon * (π / 180)))).sum
    let Z := (cells.map fun c => c.area * sin (c.lat * (π / 180))).sum
    let φ := meshLat cells * (π / 180)
    let lam := meshLon cells * (π / 180)
    X ≠ 0 ∨ Y ≠ 0 ∨ Z ≠ 0 → ∃ r : ℝ, 0 < r ∧ r * (cos φ * cos lam) = X ∧ r * (cos φ * sin lam) = Y ∧ r * sin φ = Z := by
  intro X Y Z φ lam h
  change sumX cells ≠ 0 ∨ sumY cells ≠ 0 ∨ sumZ cells ≠ 0 at h
  show ∃ r : ℝ, 0 < r ∧ r * (cos (toRad (meshLat cells)) * cos (toRad (meshLon cells))) = sumX cells ∧
      r * (cos (toRad (meshLat cells)) * sin (toRad (meshLon cells))) = sumY cells ∧ r * sin (toRad (meshLat cells)) = sumZ cells
  clear_value X Y Z φ lam
  clear X Y Z φ lam
  have hlon := meshLon_eq cells
  have hback : ∀ x, toRad (toDeg x) = x := by intro x; have := pi_pos; unfold toDeg toRad; field_simp
  unfold meshLat
  rw [hlon, hback, hback]
  unfold meshNorm
  generalize sumX cells = x at *
  generalize sumY cells = y at *
  generalize sumZ cells = z at *
  have hs : 0 < x ^ 2 + y ^ 2 + z ^ 2 := by
    rcases h with h | h | h
    · have := sq_pos_of_ne_zero h; positivity
    · have := sq_pos_of_ne_zero h; positivity
    · have := sq_pos_of_ne_zero h; positivity
  have hr : 0 < √(x ^ 2 + y ^ 2 + z ^ 2) := Real.sqrt_pos.2 hs
  have hsq := Real.sq_sqrt hs.le
  rw [if_pos hr]
  generalize √(x ^ 2 + y ^ 2 + z ^ 2) = r at *
  have hz : |z| ≤ r := by
    rw [abs_le]
    constructor <;> nlinarith [sq_nonneg x, sq_nonneg y]
  have h1 : z / r ≤ 1 := by rw [div_le_one hr]; exact (abs_le.1 hz).2
  have h2 : -1 ≤ z / r := by rw [le_div_iff₀ hr]; linarith [(abs_le.1 hz).1]
  have hm : max (-1) (min 1 (z / r)) = z / r := by rw [min_eq_right h1, max_eq_right h2]
  rw [hm, cos_arcsin, sin_arcsin h2 h1]
  have hn : ‖(⟨x, y⟩ : ℂ)‖ = √(x ^ 2 + y ^ 2) := by
    rw [Complex.norm_def, Complex.normSq_apply]
    congr 1
    simp only
    ring
  have hc : r * √(1 - (z / r) ^ 2) = ‖(⟨x, y⟩ : ℂ)‖ := by
    rw [hn, show (1 : ℝ) - (z / r) ^ 2 = (x ^ 2 + y ^ 2) / r ^ 2 by field_simp; linarith, Real.sqrt_div' _ (by positivity), Real.sqrt_sq hr.le]
    field_simp
  refine ⟨r, hr, ?_, ?_, by field_simp⟩
  · rw [← mul_assoc, hc]
    exact Complex.norm_mul_cos_arg _
  · rw [← mul_assoc, hc]
    exact Complex.norm_mul_sin_arg _
-- two cells of equal area on the equator: the sum of their positions is not zero
example : ((([⟨0, 0, 1⟩, ⟨0, 90, 1⟩] : List MCell).map fun c => c.area * (cos (c.lat * (π / 180)) * cos (c.lon * (π / 180)))).sum) ≠ 0 := by
  have : (90 : ℝ) * (π / 180) = π / 2 := by ring
  simp [this]

end MarEx.Props
