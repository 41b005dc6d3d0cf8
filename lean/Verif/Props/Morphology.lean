import Mathlib.Tactic.Linarith
import Mathlib.Tactic.Ring
import Mathlib.Tactic.NormNum
import Mathlib.Algebra.Order.Ring.Abs
import Verif.Props.FillHoles
import Verif.Spec.Morphology
/-! Property C87: what gridded hole filling computes. -/
namespace MarEx.Props
open MarEx

/-! ### C87 -/
open MarEx.Spec

/-- The field continued beyond the grid: periodically on the globe, by its edge values in a region. -/
def Continued (regional : Bool) (ny nx : Int) (f : Img) (y x : Int) : Prop :=
  if regional = true then f (max 0 (min (ny - 1) y)) (max 0 (min (nx - 1) x)) = true else f (y % ny) (x % nx) = true

theorem dilateImg_plane (H W : Int) (R : Nat) (f : Img) (X : Int → Int → Prop) (y x m : Int) (hm : (R : Int) ≤ m)
    (hy : m ≤ y ∧ y < H - m) (hx : m ≤ x ∧ x < W - m)
    (h : ∀ y' x', m - R ≤ y' → y' < H - (m - R) → m - R ≤ x' → x' < W - (m - R) → (f y' x' = true ↔ X y' x')) :
    dilateImg H W R f y x = true ↔ Dilated R X y x := by
  unfold dilateImg Dilated Within
  rw [List.any_eq_true]
  constructor
  · rintro ⟨d, hd, hr⟩
    obtain ⟨h1, h2, h3⟩ := mem_seKernel.mp hd
    refine ⟨y + d.1, x + d.2, ?_, ?_⟩
    · have e1 : y + d.1 - y = d.1 := by omega
      have e2 : x + d.2 - x = d.2 := by omega
      rw [e1, e2]; omega
    · simp only [readImg, Bool.and_eq_true] at hr
      exact (h _ _ (by omega) (by omega) (by omega) (by omega)).mp hr.2
  · rintro ⟨y', x', hw, hX⟩
    have b1 : (y' - y) ^ 2 ≤ (R : Int) ^ 2 := by nlinarith [sq_nonneg (x' - x)]
    have b2 : (x' - x) ^ 2 ≤ (R : Int) ^ 2 := by nlinarith [sq_nonneg (y' - y)]
    have c1 := abs_le.mp (abs_le_of_sq_le_sq b1 (Int.natCast_nonneg R))
    have c2 := abs_le.mp (abs_le_of_sq_le_sq b2 (Int.natCast_nonneg R))
    refine ⟨(y' - y, x' - x), mem_seKernel.mpr ⟨by dsimp only; omega, by dsimp only; omega, by dsimp only; omega⟩, ?_⟩
    have e1 : y + (y' - y) = y' := by omega
    have e2 : x + (x' - x) = x' := by omega
    simp only [readImg, Bool.and_eq_true, e1, e2]
    exact ⟨by unfold inImg; exact decide_eq_true (by omega), (h _ _ (by omega) (by omega) (by omega) (by omega)).mpr hX⟩

theorem erodeImg_plane (H W : Int) (R : Nat) (f : Img) (X : Int → Int → Prop) (y x m : Int) (hm : (R : Int) ≤ m)
    (hy : m ≤ y ∧ y < H - m) (hx : m ≤ x ∧ x < W - m)
    (h : ∀ y' x', m - R ≤ y' → y' < H - (m - R) → m - R ≤ x' → x' < W - (m - R) → (f y' x' = true ↔ X y' x')) :
    erodeImg H W R f y x = true ↔ Eroded R X y x := by
  unfold erodeImg Eroded Within
  rw [List.all_eq_true]
  constructor
  · intro hall y' x' hw
    have b1 : (y' - y) ^ 2 ≤ (R : Int) ^ 2 := by nlinarith [sq_nonneg (x' - x)]
    have b2 : (x' - x) ^ 2 ≤ (R : Int) ^ 2 := by nlinarith [sq_nonneg (y' - y)]
    have c1 := abs_le.mp (abs_le_of_sq_le_sq b1 (Int.natCast_nonneg R))
    have c2 := abs_le.mp (abs_le_of_sq_le_sq b2 (Int.natCast_nonneg R))
    have hr := hall (y' - y, x' - x) (mem_seKernel.mpr ⟨by dsimp only; omega, by dsimp only; omega, by dsimp only; omega⟩)
    have e1 : y + (y' - y) = y' := by omega
    have e2 : x + (x' - x) = x' := by omega
    simp only [readImg, Bool.and_eq_true, e1, e2] at hr
    exact (h _ _ (by omega) (by omega) (by omega) (by omega)).mp hr.2
  · intro hall d hd
    obtain ⟨h1, h2, h3⟩ := mem_seKernel.mp hd
    have hX := hall (y + d.1) (x + d.2) (by
      have e1 : y + d.1 - y = d.1 := by omega
      have e2 : x + d.2 - x = d.2 := by omega
      rw [e1, e2]; omega)
    simp only [readImg, Bool.and_eq_true]
    exact ⟨by unfold inImg; exact decide_eq_true (by omega), (h _ _ (by omega) (by omega) (by omega) (by omega)).mpr hX⟩

/-- **C87**, the part that holds: at cells at least `2R` rows and columns from the edges of the map, gridded hole filling is the closing by a disc of
radius `R` followed by the opening by the same disc, of the field continued beyond the edges, restricted to the mask.
Missing: the `2R` rows and columns next to the edges, where it is false (`C05_rotation_invariance_fails`, `C87_edge_fails`). -/
theorem C87_open_close_partial (regional : Bool) (ny nx : Int) (mask : Img) (R : Nat) (f : Img) (y x : Int)
    (hy : 2 * (R : Int) ≤ y ∧ y < ny - 2 * R) (hx : 2 * (R : Int) ≤ x ∧ x < nx - 2 * R) :
    fillHolesGrid regional ny nx mask R f y x = true ↔
      mask y x = true ∧ Opened R (Closed R (Continued regional ny nx f)) y x := by
  unfold fillHolesGrid
  simp only [Bool.and_eq_true]
  refine and_congr Iff.rfl ?_
  have shift : ∀ (X : Int → Int → Prop) (a b : Int), (Opened R (Closed R fun y x => X (y - a) (x - b))) (y + a) (x + b) ↔ Opened R (Closed R X) y x := by
    have hD : ∀ (X : Int → Int → Prop) (a b y x : Int), Dilated R (fun y x => X (y - a) (x - b)) y x ↔ Dilated R X (y - a) (x - b) := by
      intro X a b y x
      unfold Dilated Within
      constructor
      · rintro ⟨y', x', h1, h2⟩
        refine ⟨y' - a, x' - b, ?_, h2⟩
        have e1 : y' - a - (y - a) = y' - y := by omega
        have e2 : x' - b - (x - b) = x' - x := by omega
        rw [e1, e2]; exact h1
      · rintro ⟨y', x', h1, h2⟩
        refine ⟨y' + a, x' + b, ?_, ?_⟩
        · have e1 : y' + a - y = y' - (y - a) := by omega
          have e2 : x' + b - x = x' - (x - b) := by omega
          rw [e1, e2]; exact h1
        · have e1 : y' + a - a = y' := by omega
          have e2 : x' + b - b = x' := by omega
          dsimp only
          rw [e1, e2]; exact h2
    have hE : ∀ (X : Int → Int → Prop) (a b y x : Int), Eroded R (fun y x => X (y - a) (x - b)) y x ↔ Eroded R X (y - a) (x - b) := by
      intro X a b y x
      unfold Eroded Within
      constructor
      · intro h y' x' h1
        have := h (y' + a) (x' + b) (by
          have e1 : y' + a - y = y' - (y - a) := by omega
          have e2 : x' + b - x = x' - (x - b) := by omega
          rw [e1, e2]; exact h1)
        have e1 : y' + a - a = y' := by omega
        have e2 : x' + b - b = x' := by omega
        dsimp only at this
        rw [e1, e2] at this; exact this
      · intro h y' x' h1
        refine h (y' - a) (x' - b) ?_
        have e1 : y' - a - (y - a) = y' - y := by omega
        have e2 : x' - b - (x - b) = x' - x := by omega
        rw [e1, e2]; exact h1
    intro X a b
    unfold Opened Closed
    have e1 : (Dilated R fun y x => X (y - a) (x - b)) = fun y x => Dilated R X (y - a) (x - b) := by
      funext y x; exact propext (hD X a b y x)
    rw [e1]
    have e2 : (Eroded R fun y x => Dilated R X (y - a) (x - b)) = fun y x => Eroded R (Dilated R X) (y - a) (x - b) := by
      funext y x; exact propext (hE _ a b y x)
    rw [e2]
    have e3 : (Eroded R fun y x => Eroded R (Dilated R X) (y - a) (x - b)) = fun y x => Eroded R (Eroded R (Dilated R X)) (y - a) (x - b) := by
      funext y x; exact propext (hE _ a b y x)
    rw [e3, hD]
    have e4 : y + a - a = y := by omega
    have e5 : x + b - b = x := by omega
    rw [e4, e5]
  split
  · rename_i h0
    subst h0
    have hW : ∀ y x y' x', Within 0 y x y' x' ↔ y' = y ∧ x' = x := by
      intro y x y' x'
      unfold Within
      constructor
      · intro h
        have h' : (y' - y) ^ 2 + (x' - x) ^ 2 ≤ 0 := by simpa using h
        have h1 : (y' - y) ^ 2 = 0 := le_antisymm (by nlinarith [sq_nonneg (x' - x)]) (sq_nonneg _)
        have h2 : (x' - x) ^ 2 = 0 := le_antisymm (by nlinarith [sq_nonneg (y' - y)]) (sq_nonneg _)
        have h3 := pow_eq_zero_iff (two_ne_zero) |>.mp h1
        have h4 := pow_eq_zero_iff (two_ne_zero) |>.mp h2
        omega
      · rintro ⟨rfl, rfl⟩; simp
    have hy' : 0 ≤ y ∧ y < ny := by omega
    have hx' : 0 ≤ x ∧ x < nx := by omega
    simp only [Opened, Closed, Dilated, Eroded, hW, Continued]
    have e1 : y % ny = y := Int.emod_eq_of_lt hy'.1 hy'.2
    have e2 : x % nx = x := Int.emod_eq_of_lt hx'.1 hx'.2
    have e3 : max 0 (min (ny - 1) y) = y := by omega
    have e4 : max 0 (min (nx - 1) x) = x := by omega
    constructor
    · intro hf
      refine ⟨y, x, ⟨rfl, rfl⟩, ?_⟩
      rintro _ _ ⟨rfl, rfl⟩ _ _ ⟨rfl, rfl⟩
      refine ⟨_, _, ⟨rfl, rfl⟩, ?_⟩
      rw [e1, e2, e3, e4]
      split <;> exact hf
    · rintro ⟨_, _, ⟨rfl, rfl⟩, h⟩
      obtain ⟨_, _, ⟨rfl, rfl⟩, h'⟩ := h _ _ ⟨rfl, rfl⟩ _ _ ⟨rfl, rfl⟩
      rw [e1, e2, e3, e4] at h'
      split at h' <;> exact h'
  · rw [← shift (Continued regional ny nx f) (2 * R) (2 * R)]
    unfold openImg closeImg Opened Closed
    refine dilateImg_plane _ _ R _ _ _ _ (4 * R) (by omega) (by omega) (by omega) ?_
    intro y1 x1 a1 a2 a3 a4
    refine erodeImg_plane _ _ R _ _ _ _ (4 * R - R) (by omega) (by omega) (by omega) ?_
    intro y2 x2 b1 b2 b3 b4
    refine erodeImg_plane _ _ R _ _ _ _ (4 * R - R - R) (by omega) (by omega) (by omega) ?_
    intro y3 x3 c1 c2 c3 c4
    refine dilateImg_plane _ _ R _ _ _ _ (4 * R - R - R - R) (by omega) (by omega) (by omega) ?_
    intro y4 x4 d1 d2 d3 d4
    unfold Continued padImg padIndex
    cases regional <;> simp

theorem Closed.extensive (R : Nat) (X : Int → Int → Prop) (y x : Int) (h : X y x) : Closed R X y x := by
  intro y' x' hw
  refine ⟨y, x, ?_, h⟩
  unfold Within at hw ⊢
  have e1 : (y - y') ^ 2 = (y' - y) ^ 2 := by ring
  have e2 : (x - x') ^ 2 = (x' - x) ^ 2 := by ring
  rw [e1, e2]; exact hw

/-- **C87 fails** next to the edges: on a global 12 × 12 grid a plus of five cells centred on the last column is its own closing and opening by a disc
of radius one, but hole filling removes its cell in the first column. -/
theorem C87_edge_fails :
    fillHolesGrid false 12 12 (fun _ _ => true) 1 (rotate 12 6 (plusAt 5 5)) 5 0 = false ∧
    Opened 1 (Closed 1 (Continued false 12 12 (rotate 12 6 (plusAt 5 5)))) 5 0 := by
  refine ⟨by decide +kernel, 5, -1, by unfold Within; norm_num, ?_⟩
  intro y' x' hw
  apply Closed.extensive
  unfold Within at hw
  have b1 : (y' - 5) ^ 2 ≤ (1 : Int) ^ 2 := by push_cast at hw; nlinarith [sq_nonneg (x' - -1)]
  have b2 : (x' - -1) ^ 2 ≤ (1 : Int) ^ 2 := by push_cast at hw; nlinarith [sq_nonneg (y' - 5)]
  have c1 := abs_le.mp (abs_le_of_sq_le_sq b1 (by norm_num))
  have c2 := abs_le.mp (abs_le_of_sq_le_sq b2 (by norm_num))
  unfold Continued rotate plusAt
  rw [if_neg (by decide), Int.emod_eq_of_lt (a := y') (by omega) (by omega)]
  have e : (x' % 12 - 6) % 12 = x' + 6 := by omega
  rw [e]
  refine decide_eq_true ?_
  have e2 : x' + 6 - 5 = x' - -1 := by omega
  rw [e2]
  push_cast at hw
  omega

-- a cell that meets the hypotheses, on both sides of the equivalence: the plus away from the edges survives, a lone cell does not
example : fillHolesGrid false 12 12 (fun _ _ => true) 1 (plusAt 5 5) 5 6 = true
    ∧ fillHolesGrid true 12 12 (fun _ _ => true) 1 (fun y x => decide (y = 5 ∧ x = 5)) 5 5 = false := by decide +kernel

theorem mem_seKernel_within {R : Nat} {y x y' x' : Int} : (y' - y, x' - x) ∈ seKernel R ↔ Within R y x y' x' := by
  rw [mem_seKernel]
  unfold Within
  constructor
  · rintro ⟨_, _, h⟩
    dsimp only at h
    omega
  · intro h
    have b1 : (y' - y) ^ 2 ≤ (R : Int) ^ 2 := by nlinarith [sq_nonneg (x' - x)]
    have b2 : (x' - x) ^ 2 ≤ (R : Int) ^ 2 := by nlinarith [sq_nonneg (y' - y)]
    have c1 := abs_le.mp (abs_le_of_sq_le_sq b1 (by omega))
    have c2 := abs_le.mp (abs_le_of_sq_le_sq b2 (by omega))
    exact ⟨c1, c2, by dsimp only; omega⟩

theorem readImg_seen {ny nx m : Int} {f : Img} {X : Int → Int → Prop} (h : ∀ y x, f (y + m) (x + m) = true ↔ X y x) (y x : Int) :
    readImg (ny + 2 * m) (nx + 2 * m) f (y + m) (x + m) = true ↔ Seen ny nx m X y x := by
  unfold readImg inImg Seen
  rw [Bool.and_eq_true, decide_eq_true_eq, h]
  constructor
  · rintro ⟨⟨a, b, c, d⟩, e⟩; exact ⟨⟨by omega, by omega⟩, ⟨by omega, by omega⟩, e⟩
  · rintro ⟨⟨a, b⟩, ⟨c, d⟩, e⟩; exact ⟨⟨by omega, by omega, by omega, by omega⟩, e⟩

theorem dilateImg_seen {ny nx m : Int} {R : Nat} {f : Img} {X : Int → Int → Prop} (h : ∀ y x, f (y + m) (x + m) = true ↔ X y x) (y x : Int) :
    dilateImg (ny + 2 * m) (nx + 2 * m) R f (y + m) (x + m) = true ↔ Dilated R (Seen ny nx m X) y x := by
  unfold dilateImg Dilated
  rw [List.any_eq_true]
  constructor
  · rintro ⟨d, hd, hr⟩
    refine ⟨y + d.1, x + d.2, mem_seKernel_within.mp ?_, (readImg_seen h _ _).mp ?_⟩
    · rwa [show (y + d.1 - y, x + d.2 - x) = d from by ext <;> dsimp only <;> omega]
    · rwa [show y + d.1 + m = y + m + d.1 by omega, show x + d.2 + m = x + m + d.2 by omega]
  · rintro ⟨y', x', hw, hX⟩
    refine ⟨(y' - y, x' - x), mem_seKernel_within.mpr hw, ?_⟩
    rw [show y + m + (y' - y, x' - x).1 = y' + m by dsimp only; omega, show x + m + (y' - y, x' - x).2 = x' + m by dsimp only; omega]
    exact (readImg_seen h _ _).mpr hX

theorem erodeImg_seen {ny nx m : Int} {R : Nat} {f : Img} {X : Int → Int → Prop} (h : ∀ y x, f (y + m) (x + m) = true ↔ X y x) (y x : Int) :
    erodeImg (ny + 2 * m) (nx + 2 * m) R f (y + m) (x + m) = true ↔ Eroded R (Seen ny nx m X) y x := by
  unfold erodeImg Eroded
  rw [List.all_eq_true]
  constructor
  · intro hall y' x' hw
    have := hall (y' - y, x' - x) (mem_seKernel_within.mpr hw)
    rw [show y + m + (y' - y, x' - x).1 = y' + m by dsimp only; omega, show x + m + (y' - y, x' - x).2 = x' + m by dsimp only; omega] at this
    exact (readImg_seen h _ _).mp this
  · intro hall d hd
    have := (readImg_seen h _ _).mpr (hall (y + d.1) (x + d.2) (mem_seKernel_within.mp
      (by rwa [show (y + d.1 - y, x + d.2 - x) = d from by ext <;> dsimp only <;> omega])))
    rwa [show y + d.1 + m = y + m + d.1 by omega, show x + d.2 + m = x + m + d.2 by omega] at this

/-- **C87**, what is computed at every cell of the map, next to the edges too: dilation, two erosions and dilation by the disc, each of what is seen
in a window that reaches `2R` cells beyond the map.  Missing for C87: the window should reach `4R` cells (`C87_edge_fails`). -/
theorem C87_window_partial (regional : Bool) (ny nx : Int) (mask : Img) (R : Nat) (hR : R ≠ 0) (f : Img) (y x : Int) :
    fillHolesGrid regional ny nx mask R f y x = true ↔
      mask y x = true ∧ Dilated R (Seen ny nx (2 * R) (Eroded R (Seen ny nx (2 * R) (Eroded R (Seen ny nx (2 * R)
        (Dilated R (Seen ny nx (2 * R) (Continued regional ny nx f)))))))) y x := by
  unfold fillHolesGrid
  simp only [Bool.and_eq_true, if_neg hR]
  refine and_congr Iff.rfl ?_
  rw [show ny + 4 * (R : Int) = ny + 2 * (2 * R) by ring, show nx + 4 * (R : Int) = nx + 2 * (2 * R) by ring]
  refine dilateImg_seen (erodeImg_seen (erodeImg_seen (dilateImg_seen ?_))) y x
  intro y x
  unfold Continued padImg padIndex
  cases regional <;> simp

example : fillHolesGrid false 12 12 (fun _ _ => true) 1 (rotate 12 6 (plusAt 5 5)) 5 11 = true := by decide +kernel

end MarEx.Props
