import Verif.Model.GridArea
import Mathlib.Analysis.SpecialFunctions.Integrals.Basic
import Mathlib.Tactic.Linarith
/-! Property C66: cell areas derived from the grid resolution. -/
namespace MarEx.Props
open MarEx

/-- Specification: area on a sphere of radius `R` of the patch between latitudes `s` and `n` and longitudes `w` and `e` (radians), as the
surface integral of `R² cos φ`. -/
noncomputable def sphereArea (R s n w e : ℝ) : ℝ := ∫ _ in w..e, ∫ φ in s..n, R ^ 2 * Real.cos φ

theorem sphereArea_eq (R s n w e : ℝ) : sphereArea R s n w e = R ^ 2 * (Real.sin n - Real.sin s) * (e - w) := by
  unfold sphereArea
  simp only [intervalIntegral.integral_const_mul, integral_cos, intervalIntegral.integral_const, smul_eq_mul]
  ring

/-- **C66**, the part that holds: a cell that does not reach over a pole has its true area, wherever it lies in longitude. -/
theorem C66_cell_area_partial (R res lat : ℝ) (hres : 0 ≤ res) (hS : -90 ≤ lat - res / 2) (hN : lat + res / 2 ≤ 90) (w : ℝ) :
    gridArea R res lat = sphereArea R (radians (lat - res / 2)) (radians (lat + res / 2)) w (w + radians res) := by
  rw [sphereArea_eq]
  unfold gridArea
  have hpi := Real.pi_pos
  have e1 : radians (lat + res / 2) = radians lat + radians res / 2 := by unfold radians; ring
  have e2 : radians (lat - res / 2) = radians lat - radians res / 2 := by unfold radians; ring
  have hmono : Real.sin (radians lat - radians res / 2) ≤ Real.sin (radians lat + radians res / 2) := by
    rw [← e1, ← e2]
    apply Real.sin_le_sin_of_le_of_le_pi_div_two
    · unfold radians; nlinarith
    · unfold radians; nlinarith
    · unfold radians; nlinarith
  rw [e1, e2, abs_of_nonneg (by linarith)]
  ring

/-- **C66**: on a grid whose rows fill the globe from pole to pole (`m` rows, `2m` columns, row centres half a cell away from the poles)
the cell areas add up to the area of the sphere. -/
theorem C66_areas_sum_to_sphere_partial (R : ℝ) (m : Nat) (hm : 0 < m) :
    ∑ k ∈ Finset.range m, ∑ _j ∈ Finset.range (2 * m), gridArea R (180 / m) (-90 + 180 / m * (k + 1 / 2)) = 4 * Real.pi * R ^ 2 := by
  have hm' : (0 : ℝ) < m := by exact_mod_cast hm
  have hm0 : (m : ℝ) ≠ 0 := ne_of_gt hm'
  have hcell : ∀ k ∈ Finset.range m, ∑ _j ∈ Finset.range (2 * m), gridArea R (180 / m) (-90 + 180 / m * ((k : ℝ) + 1 / 2)) =
      R ^ 2 * (2 * Real.pi) * (Real.sin (radians (-90 + 180 / m * ((k + 1 : Nat) : ℝ))) - Real.sin (radians (-90 + 180 / m * (k : ℝ)))) := by
    intro k hk
    have hk' : (k : ℝ) + 1 ≤ m := by exact_mod_cast Finset.mem_range.mp hk
    have h0 : (0 : ℝ) ≤ k := by positivity
    have hstep : (0 : ℝ) < 180 / m := by positivity
    have htop : 180 / (m : ℝ) * ((k : ℝ) + 1) ≤ 180 := by
      rw [div_mul_eq_mul_div, div_le_iff₀ hm']; nlinarith
    rw [C66_cell_area_partial R _ _ (le_of_lt hstep) (by nlinarith) (by nlinarith) 0, sphereArea_eq, Finset.sum_const, Finset.card_range, nsmul_eq_mul]
    have e1 : -90 + 180 / (m : ℝ) * ((k : ℝ) + 1 / 2) + 180 / m / 2 = -90 + 180 / m * ((k + 1 : Nat) : ℝ) := by push_cast; ring
    have e2 : -90 + 180 / (m : ℝ) * ((k : ℝ) + 1 / 2) - 180 / m / 2 = -90 + 180 / m * (k : ℝ) := by ring
    rw [e1, e2]
    have e3 : ((2 * m : Nat) : ℝ) * (0 + radians (180 / m) - 0) = 2 * Real.pi := by
      unfold radians; push_cast; field_simp; ring
    rw [← e3]
    ring
  rw [Finset.sum_congr rfl hcell, ← Finset.mul_sum,
    Finset.sum_range_sub (fun k => Real.sin (radians (-90 + 180 / m * (k : ℝ))))]
  have e4 : radians (-90 + 180 / m * (m : ℝ)) = Real.pi / 2 := by unfold radians; field_simp; ring
  have e5 : radians (-90 + 180 / m * ((0 : Nat) : ℝ)) = -(Real.pi / 2) := by unfold radians; push_cast; ring
  rw [e4, e5, Real.sin_neg, Real.sin_pi_div_two]
  ring

/-- **C66 fails** at the poles: a row centred on a pole (as on grids from 90° to -90°) gets area zero for every resolution. -/
theorem C66_pole_rows_have_no_area_fails (R res : ℝ) : gridArea R res 90 = 0 ∧ gridArea R res (-90) = 0 := by
  have h : ∀ s : ℝ, Real.cos s = 0 → ∀ d, Real.sin (s + d) - Real.sin (s - d) = 0 := by
    intro s hs d
    rw [Real.sin_add, Real.sin_sub, hs]; ring
  have e1 : radians 90 = Real.pi / 2 := by unfold radians; ring
  have e2 : radians (-90) = -(Real.pi / 2) := by unfold radians; ring
  unfold gridArea
  rw [e1, e2, h _ Real.cos_pi_div_two, h _ (by rw [Real.cos_neg]; exact Real.cos_pi_div_two)]
  simp

/-- **C66**: away from the poles every cell has a positive area. -/
theorem C66_area_positive_partial (R res lat : ℝ) (hR : R ≠ 0) (h0 : 0 < res) (h1 : res < 360) (hS : -90 < lat) (hN : lat < 90) :
    0 < gridArea R res lat := by
  have hpi := Real.pi_pos
  unfold gridArea
  have hd : 0 < radians res := by unfold radians; positivity
  have hcos : 0 < Real.cos (radians lat) := by
    apply Real.cos_pos_of_mem_Ioo
    constructor <;> unfold radians <;> nlinarith
  have hsin : 0 < Real.sin (radians res / 2) := by
    apply Real.sin_pos_of_pos_of_lt_pi (by linarith)
    unfold radians; nlinarith
  have : Real.sin (radians lat + radians res / 2) - Real.sin (radians lat - radians res / 2) = 2 * (Real.cos (radians lat) * Real.sin (radians res / 2)) := by
    rw [Real.sin_add, Real.sin_sub]; ring
  rw [this]
  have : 0 < |2 * (Real.cos (radians lat) * Real.sin (radians res / 2))| := abs_pos.mpr (by positivity)
  positivity

-- a quarter-degree row at 45°N meets the hypotheses of both
example : 0 < gridArea 6378 (1 / 4) 45 := C66_area_positive_partial _ _ _ (by norm_num) (by norm_num) (by norm_num) (by norm_num) (by norm_num)
example : gridArea 6378 (1 / 4) 45 = sphereArea 6378 (radians (45 - 1 / 4 / 2)) (radians (45 + 1 / 4 / 2)) 1 (1 + radians (1 / 4)) :=
  C66_cell_area_partial _ _ _ (by norm_num) (by norm_num) (by norm_num) 1

end MarEx.Props
