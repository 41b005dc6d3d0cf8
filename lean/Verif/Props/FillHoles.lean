import Verif.Lemmas.FillHoles
/-! Properties C05, C06, C54: gridded hole filling. -/
namespace MarEx.Props
open MarEx

/-- Rotate a field eastwards by `s` columns on a circle of `nx` columns. -/
def rotate (nx s : Int) (f : Img) : Img := fun y x => f y ((x - s) % nx)

/-- A plus sign centred on `(cy, cx)`. -/
def plusAt (cy cx : Int) : Img := fun y x => decide ((y - cy) ^ 2 + (x - cx) ^ 2 ≤ 1)

/-- The rotation-invariance that C05 asks for, for one grid, field, mask, radius and rotation. -/
def RotationInvariant (ny nx : Int) (mask : Img) (R : Nat) (f : Img) (s : Int) : Prop :=
  ∀ y x, 0 ≤ y → y < ny → 0 ≤ x → x < nx →
    fillHolesGrid false ny nx (rotate nx s mask) R (rotate nx s f) y ((x + s) % nx) = fillHolesGrid false ny nx mask R f y x

/-- **C05 fails**: on a global 12 × 12 grid without land, with `R_fill = 1`, a plus-shaped object centred on column 5
keeps its eastern arm, but rotated so that it is centred on the last column it loses that arm:
the padding of `2R` columns is too narrow for a closing followed by an opening. -/
theorem C05_rotation_invariance_fails :
    ¬ ∀ (ny nx : Int) (mask : Img) (R : Nat) (f : Img) (s : Int), 0 < ny → 0 < nx → RotationInvariant ny nx mask R f s := by
  intro h
  have := h 12 12 (fun _ _ => true) 1 (plusAt 5 5) 6 (by decide) (by decide) 5 6 (by decide) (by decide) (by decide) (by decide)
  revert this
  decide +kernel

/-- **C05**, the part that holds: rotation changes nothing at columns which are at least `2R` columns away from the
cut of the map both before and after the rotation. Missing: the `2R` columns on each side of the cut. -/
theorem C05_rotation_invariance_partial (ny nx : Int) (mask : Img) (R : Nat) (f : Img) (s : Int)
    (y x : Int) (hy : 0 ≤ y ∧ y < ny) (hx : 2 * (R : Int) ≤ x ∧ x < nx - 2 * R)
    (hx' : 2 * (R : Int) ≤ (x + s) % nx ∧ (x + s) % nx < nx - 2 * R) :
    fillHolesGrid false ny nx (rotate nx s mask) R (rotate nx s f) y ((x + s) % nx) = fillHolesGrid false ny nx mask R f y x := by
  have hnx : 0 < nx := by omega
  have key : ∀ k : Int, ((x + s) % nx + k - s) % nx = (x + k) % nx := by
    intro k
    rw [Int.sub_emod, Int.add_emod, Int.emod_emod, ← Int.add_emod, ← Int.sub_emod]
    congr 1; omega
  have key' : ∀ k : Int, (((x + s) % nx + k) % nx - s) % nx = (x + k) % nx := by
    intro k
    rw [Int.sub_emod, Int.emod_emod, ← Int.sub_emod, key]
  have hmask : rotate nx s mask y ((x + s) % nx) = mask y x := by
    have := key 0
    simp only [Int.add_zero] at this
    have e : x % nx = x := Int.emod_eq_of_lt (by omega) (by omega)
    simp only [rotate]
    rw [this, e]
  unfold fillHolesGrid
  simp only [hmask]
  congr 1
  split
  · have := key 0
    simp only [Int.add_zero] at this
    have e : x % nx = x := Int.emod_eq_of_lt (by omega) (by omega)
    simp only [rotate]
    rw [this, e]
  · refine SameNear.openClose R ?_ ?_
    · intro dy dx h1 h2 h3 h4
      have hin : inImg (ny + 4 * R) (nx + 4 * R) (y + 2 * R + dy) ((x + s) % nx + 2 * R + dx)
          = inImg (ny + 4 * R) (nx + 4 * R) (y + 2 * R + dy) (x + 2 * R + dx) := by
        unfold inImg; congr 1; rw [eq_iff_iff]; constructor <;> intro h <;> omega
      refine ⟨?_, hin⟩
      unfold readImg
      rw [hin]
      congr 1
      simp only [padImg, padIndex, rotate, Bool.false_eq_true, if_false]
      congr 1
      have e1 : (x + s) % nx + 2 * ↑R + dx - 2 * ↑R = (x + s) % nx + dx := by omega
      have e2 : x + 2 * (R : Int) + dx - 2 * ↑R = x + dx := by omega
      rw [e1, e2, key']
    · unfold inImg; exact decide_eq_true (by omega)

-- non-vacuity: the plus of the counterexample, rotated by 3 instead, keeps its eastern arm (columns 6 and 9 of 12)
example : fillHolesGrid false 12 12 (fun _ _ => true) 1 (plusAt 5 5) 5 6 = true
    ∧ fillHolesGrid false 12 12 (rotate 12 3 fun _ _ => true) 1 (rotate 12 3 (plusAt 5 5)) 5 9 = true := by decide +kernel

/-- **C06**: a masked-out cell is never extreme after hole filling, in either mode. -/
theorem C06_never_marks_masked (regional : Bool) (ny nx : Int) (mask : Img) (R : Nat) (f : Img) (y x : Int)
    (h : fillHolesGrid regional ny nx mask R f y x = true) : mask y x = true := by
  unfold fillHolesGrid at h
  simp only [Bool.and_eq_true] at h
  exact h.1

/-- **C06**: with `R_fill = 0` the result is the input restricted to the mask. -/
theorem C06_radius_zero (regional : Bool) (ny nx : Int) (mask f : Img) (y x : Int) :
    fillHolesGrid regional ny nx mask 0 f y x = true ↔ f y x = true ∧ mask y x = true := by
  simp [fillHolesGrid, and_comm]

/-- **C06**: adding extreme cells to the input never removes any from the output. -/
theorem C06_monotone (regional : Bool) (ny nx : Int) (hny : 0 < ny) (hnx : 0 < nx) (mask : Img) (R : Nat) (f g : Img)
    (h : ∀ y x, 0 ≤ y → y < ny → 0 ≤ x → x < nx → f y x = true → g y x = true)
    (y x : Int) (hy : 0 ≤ y ∧ y < ny) (hx : 0 ≤ x ∧ x < nx)
    (hf : fillHolesGrid regional ny nx mask R f y x = true) : fillHolesGrid regional ny nx mask R g y x = true := by
  unfold fillHolesGrid at hf ⊢
  simp only [Bool.and_eq_true] at hf ⊢
  refine ⟨hf.1, ?_⟩
  split
  · rename_i h0; simp only [h0, if_true] at hf; exact h y x hy.1 hy.2 hx.1 hx.2 hf.2
  · rename_i h0
    simp only [h0, if_false] at hf
    refine dilateImg_mono (fun y x _ => erodeImg_mono (fun y x _ => erodeImg_mono (fun y x _ =>
      dilateImg_mono (fun y x _ hp => ?_) y x) y x) y x) _ _ hf.2
    have r1 := padIndex_range (regional := regional) (p := 2 * R) (k := y) hny
    have r2 := padIndex_range (regional := regional) (p := 2 * R) (k := x) hnx
    exact h _ _ r1.1 r1.2 r2.1 r2.2 hp

/-- **C06**: gridded hole filling never invents extremes: a cell that is extreme after filling has an extreme input cell
within Euclidean distance `R` (indices taken modulo the grid in global mode, clamped to the grid in regional mode). -/
theorem C06_invents_nothing (regional : Bool) (ny nx : Int) (mask : Img) (R : Nat) (f : Img) (y x : Int)
    (hy : 0 ≤ y ∧ y < ny) (hx : 0 ≤ x ∧ x < nx) (h : fillHolesGrid regional ny nx mask R f y x = true) :
    ∃ dy dx : Int, dy ^ 2 + dx ^ 2 ≤ (R : Int) ^ 2 ∧
      (if regional then f (max 0 (min (ny - 1) (y + dy))) (max 0 (min (nx - 1) (x + dx)))
       else f ((y + dy) % ny) ((x + dx) % nx)) = true := by
  unfold fillHolesGrid at h
  simp only [Bool.and_eq_true] at h
  obtain ⟨-, h⟩ := h
  split at h
  · refine ⟨0, 0, by rename_i h0; subst h0; decide, ?_⟩
    have e1 : y % ny = y := Int.emod_eq_of_lt hy.1 hy.2
    have e2 : x % nx = x := Int.emod_eq_of_lt hx.1 hx.2
    have e3 : max 0 (min (ny - 1) y) = y := by omega
    have e4 : max 0 (min (nx - 1) x) = x := by omega
    simp only [Int.add_zero, e1, e2, e3, e4]
    split <;> exact h
  · have h2 := openImg_le h
    have h3 := closeImg_le h2
    obtain ⟨d, hd, hr⟩ := h3
    refine ⟨d.1, d.2, ?_, ?_⟩
    · have := (mem_seKernel.mp hd).2.2; omega
    · simp only [readImg, Bool.and_eq_true, padImg, padIndex] at hr
      have e1 : y + 2 * (R : Int) + d.1 - 2 * R = y + d.1 := by omega
      have e2 : x + 2 * (R : Int) + d.2 - 2 * R = x + d.2 := by omega
      rw [e1, e2] at hr
      cases regional <;> simpa using hr.2

-- non-vacuity of C06_monotone: a full field contains the plus, and both survive filling away from the edges
example : fillHolesGrid true 9 9 (fun y _ => decide (y ≠ 0)) 1 (plusAt 4 4) 4 5 = true
    ∧ fillHolesGrid true 9 9 (fun y _ => decide (y ≠ 0)) 1 (fun _ _ => true) 4 5 = true
    ∧ fillHolesGrid true 9 9 (fun y _ => decide (y ≠ 0)) 1 (fun _ _ => true) 0 5 = false := by decide +kernel

/-- Two fields on an `ny × nx` grid agree in all rows at most `d` rows away from row `y`. -/
def AgreeInRowsNear (ny nx : Int) (y d : Int) (f g : Img) : Prop :=
  ∀ r x, 0 ≤ r → r < ny → 0 ≤ x → x < nx → r - y ≤ d → y - r ≤ d → f r x = g r x

/-- **C132 fails** in global mode: on a 12 × 12 grid with `R_fill = 1` two fields that differ only in row 11 (the northern
edge) give different results in row 0 (the southern edge), because latitude is padded with `mode="wrap"` too. -/
theorem C132_latitude_edges_not_joined_fails :
    ¬ ∀ (ny nx : Int) (mask : Img) (R : Nat) (f g : Img) (y x : Int), 0 ≤ y → y < ny → 0 ≤ x → x < nx →
      AgreeInRowsNear ny nx y (4 * R) f g →
      fillHolesGrid false ny nx mask R f y x = fillHolesGrid false ny nx mask R g y x := by
  intro h
  have := h 12 12 (fun _ _ => true) 1 (fun y x => plusAt 0 5 y x || decide (y = 11 ∧ x = 5)) (plusAt 0 5) 0 5
    (by decide) (by decide) (by decide) (by decide) ?_
  · revert this; decide +kernel
  · intro r x h1 h2 h3 h4 h5 h6
    have : ¬ (r = 11 ∧ x = 5) := by omega
    simp [this]

/-- **C54** holds in regional mode: fields that agree in all rows at most `4R` rows away from the cell give the same
result at the cell. -/
theorem C54_regional_edges_not_joined (ny nx : Int) (mask : Img) (R : Nat) (f g : Img) (y x : Int)
    (hy : 0 ≤ y ∧ y < ny) (hx : 0 ≤ x ∧ x < nx) (h : AgreeInRowsNear ny nx y (4 * R) f g) :
    fillHolesGrid true ny nx mask R f y x = fillHolesGrid true ny nx mask R g y x := by
  unfold fillHolesGrid
  dsimp only
  congr 1
  split
  · exact h y x hy.1 hy.2 hx.1 hx.2 (by omega) (by omega)
  · refine SameNear.openClose R ?_ (by unfold inImg; exact decide_eq_true (by omega))
    intro dy dx h1 h2 h3 h4
    refine ⟨?_, rfl⟩
    unfold readImg
    congr 1
    have r1 := padIndex_range (regional := true) (n := ny) (p := 2 * R) (k := y + 2 * R + dy) (by omega)
    have r2 := padIndex_range (regional := true) (n := nx) (p := 2 * R) (k := x + 2 * R + dx) (by omega)
    refine h _ _ r1.1 r1.2 r2.1 r2.2 ?_ ?_ <;> simp only [padIndex, if_true] <;> omega

/-- **C132** in global mode, the part that holds: the result at a cell at least `4R` rows away from both latitude edges
depends only on the rows at most `4R` rows away. Missing: the `4R` rows next to the edges. -/
theorem C132_latitude_edges_not_joined_partial (ny nx : Int) (mask : Img) (R : Nat) (f g : Img) (y x : Int)
    (hy : 4 * (R : Int) ≤ y ∧ y < ny - 4 * R) (hx : 0 ≤ x ∧ x < nx) (h : AgreeInRowsNear ny nx y (4 * R) f g) :
    fillHolesGrid false ny nx mask R f y x = fillHolesGrid false ny nx mask R g y x := by
  unfold fillHolesGrid
  dsimp only
  congr 1
  split
  · exact h y x (by omega) (by omega) hx.1 hx.2 (by omega) (by omega)
  · refine SameNear.openClose R ?_ (by unfold inImg; exact decide_eq_true (by omega))
    intro dy dx h1 h2 h3 h4
    refine ⟨?_, rfl⟩
    unfold readImg
    congr 1
    have r2 := padIndex_range (regional := false) (n := nx) (p := 2 * R) (k := x + 2 * R + dx) (by omega)
    have e : padIndex false ny (2 * R) (y + 2 * R + dy) = y + dy := by
      simp only [padIndex, Bool.false_eq_true, if_false]
      have : y + 2 * (R : Int) + dy - 2 * R = y + dy := by omega
      rw [this, Int.emod_eq_of_lt (by omega) (by omega)]
    simp only [padImg, e]
    exact h _ _ (by omega) (by omega) r2.1 r2.2 (by omega) (by omega)

-- non-vacuity: the fields of the counterexample agree near row 5 of the grid, and the regional result is the same at row 0
example : fillHolesGrid true 12 12 (fun _ _ => true) 1 (fun y x => plusAt 0 5 y x || decide (y = 11 ∧ x = 5)) 0 5
    = fillHolesGrid true 12 12 (fun _ _ => true) 1 (plusAt 0 5) 0 5 := by decide +kernel

end MarEx.Props
