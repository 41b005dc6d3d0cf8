import Verif.Model.EventCentroid
import Verif.Props.Rows
import Verif.Props.Centroid
import Verif.Props.MeshCentroid
import Verif.Props.Mirror
/-! C213: the centroid of an event at a step is that of its cells. -/
namespace MarEx.Spec

/-- The area-weighted mean of `v` over the cells with ID `k`. -/
def meanOver {n : Nat} (w : Fin n → ℚ) (f : Frame n) (k : Nat) (v : Fin n → ℚ) : ℚ :=
  (∑ i, if f i = k then v i * w i else 0) / ∑ i, if f i = k then w i else 0

/-- The coordinate values run upwards or downwards. -/
def OneDirection (m : Nat) (vals : Nat → ℚ) : Prop :=
  (∀ a b, a ≤ b → b < m → vals a ≤ vals b) ∨ ∀ a b, a ≤ b → b < m → vals b ≤ vals a

/-- Equally spaced coordinate values. -/
def EquallySpaced (m : Nat) (vals : Nat → ℚ) : Prop := ∃ a d : ℚ, ∀ r, r < m → vals r = a + d * r

end MarEx.Spec

namespace MarEx.Props
open MarEx MarEx.Spec

variable {n : Nat}

/-! ### Interpolation -/

theorem npInterp_zero {m : Nat} {v : Nat → ℚ} {c : ℚ} (h : c ≤ 0) : npInterp m v c = v 0 := by unfold npInterp; rw [if_pos h]

theorem npInterp_last {m : Nat} {v : Nat → ℚ} {c : ℚ} (hm : 0 < m) (h : (m : ℚ) - 1 ≤ c) : npInterp m v c = v (m - 1) := by
  unfold npInterp
  split
  · rename_i h0
    have : (m : ℚ) ≤ 1 := by linarith
    have : m ≤ 1 := by exact_mod_cast this
    congr 1
    omega
  · rfl

/-- Between two nodes the value is linear. -/
theorem npInterp_between {m k : Nat} {v : Nat → ℚ} {c : ℚ} (hk : k + 1 < m) (h1 : (k : ℚ) ≤ c) (h2 : c ≤ k + 1) :
    npInterp m v c = v k + (c - k) * (v (k + 1) - v k) := by
  have hkm : ((k : ℚ) + 1) ≤ (m : ℚ) - 1 := by
    have : ((k + 1 + 1 : Nat) : ℚ) ≤ m := by exact_mod_cast hk
    push_cast at this
    linarith
  by_cases h0 : c ≤ 0
  · rw [npInterp_zero h0]
    have hk0 : (k : ℚ) ≤ 0 := by linarith
    have hk0 : k = 0 := Nat.le_zero.mp (by exact_mod_cast hk0)
    subst hk0
    have : c = 0 := le_antisymm h0 (by simpa using h1)
    rw [this]
    simp
  · by_cases hl : (m : ℚ) - 1 ≤ c
    · rw [npInterp_last (by omega) hl]
      have hc : c = k + 1 := by linarith
      have : (m : ℚ) = ((k + 2 : Nat) : ℚ) := by push_cast; linarith
      have hm : m = k + 2 := by exact_mod_cast this
      rw [hc, hm]
      have : k + 2 - 1 = k + 1 := by omega
      rw [this]
      ring
    · unfold npInterp
      rw [if_neg h0, if_neg hl]
      rcases eq_or_lt_of_le h2 with he | hlt
      · have hf : ⌊c⌋ = ((k + 1 : Nat) : ℤ) := by rw [he]; push_cast; rw [show ((k : ℚ) + 1) = ((k + 1 : ℤ) : ℚ) by push_cast; rfl]; exact Int.floor_intCast _
        rw [hf, Int.toNat_natCast, he]
        push_cast
        ring
      · have hf : ⌊c⌋ = ((k : Nat) : ℤ) := by rw [Int.floor_eq_iff]; push_cast; exact ⟨h1, hlt⟩
        rw [hf, Int.toNat_natCast]
        push_cast
        ring

/-- A position inside the grid is at the last node or between two nodes. -/
theorem node_cases {m : Nat} {c : ℚ} (h0 : 0 ≤ c) (h1 : c ≤ (m : ℚ) - 1) : c = (m : ℚ) - 1 ∨ ∃ k : Nat, k + 1 < m ∧ (k : ℚ) ≤ c ∧ c < k + 1 := by
  rcases eq_or_lt_of_le h1 with h | h
  · exact .inl h
  · right
    have hz := Int.floor_nonneg.2 h0
    obtain ⟨k, hk⟩ := Int.eq_ofNat_of_zero_le hz
    have a := Int.floor_le c
    have b := Int.lt_floor_add_one c
    rw [hk] at a b
    push_cast at a b
    refine ⟨k, ?_, a, b⟩
    have : ((k + 1 : Nat) : ℚ) < m := by push_cast; linarith
    exact_mod_cast this

theorem npInterp_neg (m : Nat) (v : Nat → ℚ) (c : ℚ) : npInterp m (fun r => - v r) c = - npInterp m v c := by
  unfold npInterp
  split
  · rfl
  · split
    · rfl
    · ring

theorem npInterp_mono {m lo hi : Nat} {v : Nat → ℚ} {c : ℚ} (hv : ∀ a b, a ≤ b → b < m → v a ≤ v b) (hh : hi < m) (h1 : (lo : ℚ) ≤ c) (h2 : c ≤ hi) :
    v lo ≤ npInterp m v c ∧ npInterp m v c ≤ v hi := by
  have hlo : (0 : ℚ) ≤ lo := Nat.cast_nonneg lo
  have hhm : (hi : ℚ) ≤ (m : ℚ) - 1 := by
    have : ((hi + 1 : Nat) : ℚ) ≤ m := by exact_mod_cast hh
    push_cast at this
    linarith
  have hlh : lo ≤ hi := by exact_mod_cast h1.trans h2
  rcases node_cases (hlo.trans h1) (h2.trans hhm) with h | ⟨k, hk, ha, hb⟩
  · rw [npInterp_last (by omega) h.ge]
    have : (m : ℚ) ≤ ((hi + 1 : Nat) : ℚ) := by push_cast; linarith
    have : m ≤ hi + 1 := by exact_mod_cast this
    have : m - 1 = hi := by omega
    rw [this]
    exact ⟨hv _ _ hlh hh, le_rfl⟩
  · rw [npInterp_between hk ha hb.le]
    have hlk : lo ≤ k := by
      have : (lo : ℚ) < ((k + 1 : Nat) : ℚ) := by push_cast; linarith
      have : lo < k + 1 := by exact_mod_cast this
      omega
    have s := hv k (k + 1) (by omega) hk
    have g := hv lo k hlk (by omega)
    refine ⟨by nlinarith, ?_⟩
    rcases eq_or_lt_of_le ha with he | hlt
    · have : k ≤ hi := by
        have : (k : ℚ) ≤ hi := by linarith
        exact_mod_cast this
      have := hv k hi this hh
      rw [← he]
      linarith
    · have : k + 1 ≤ hi := by
        have : (k : ℚ) < hi := by linarith
        have : k < hi := by exact_mod_cast this
        omega
      have := hv (k + 1) hi this hh
      nlinarith

theorem npInterp_reverse {m : Nat} (hm : 0 < m) (v : Nat → ℚ) {c : ℚ} (h0 : 0 ≤ c) (h1 : c ≤ (m : ℚ) - 1) :
    npInterp m (fun r => v (m - 1 - r)) ((m : ℚ) - 1 - c) = npInterp m v c := by
  rcases node_cases h0 h1 with h | ⟨k, hk, ha, hb⟩
  · rw [npInterp_last hm h.ge, npInterp_zero (by linarith)]
    simp
  · have e : (((m - 2 - k : Nat) : ℚ)) = (m : ℚ) - 2 - k := by
      rw [Nat.cast_sub (by omega), Nat.cast_sub (by omega)]
      push_cast
      rfl
    rw [npInterp_between hk ha hb.le, npInterp_between (k := m - 2 - k) (by omega) (by rw [e]; linarith) (by rw [e]; linarith), e]
    have a : m - 1 - (m - 2 - k) = k + 1 := by omega
    have b : m - 1 - (m - 2 - k + 1) = k := by omega
    rw [a, b]
    ring

theorem npInterp_affine {m : Nat} (hm : 0 < m) {v : Nat → ℚ} {a d : ℚ} (hv : ∀ r, r < m → v r = a + d * r) {c : ℚ} (h0 : 0 ≤ c) (h1 : c ≤ (m : ℚ) - 1) :
    npInterp m v c = a + d * c := by
  rcases node_cases h0 h1 with h | ⟨k, hk, ha, hb⟩
  · rw [npInterp_last hm h.ge, hv _ (by omega), Nat.cast_sub (by omega), h]
    push_cast
    rfl
  · rw [npInterp_between hk ha hb.le, hv k (by omega), hv (k + 1) hk]
    push_cast
    ring

/-! ### Sums over the cells of an event -/

theorem sum_event (f : Frame n) (k : Nat) (g : Fin n → ℚ) :
    (((List.finRange n).filter fun i => f i == k).map g).sum = ∑ i, if f i = k then g i else 0 := by
  rw [Fin.sum_univ_def]
  induction List.finRange n with
  | nil => rfl
  | cons i l ih =>
    rw [List.filter_cons]
    by_cases h : f i = k
    · simp [h, ih]
    · simp [h, ih]

theorem mean_rows (w : Fin n → ℚ) (f : Frame n) (k : Nat) (r : Fin n → Nat) :
    wsum ((((List.finRange n).filter fun i => f i == k).map fun i => (r i, w i)).map fun p => ((p.1 : ℚ), p.2)) /
      wtotal (((List.finRange n).filter fun i => f i == k).map fun i => (r i, w i)) = meanOver w f k fun i => (r i : ℚ) := by
  unfold wsum wtotal meanOver
  simp only [List.map_map, Function.comp_def]
  rw [sum_event, sum_event]

theorem yCentroid_event (nx : Nat) (w : Fin n → ℚ) (f : Frame n) (k : Nat) :
    yCentroid (eventRows nx w f k) = meanOver w f k fun i => ((i.val / nx : Nat) : ℚ) := mean_rows w f k _

theorem xCentroid_event_regional (nx : Nat) (w : Fin n → ℚ) (f : Frame n) (k : Nat) :
    xCentroid false nx (eventCols nx w f k) = meanOver w f k fun i => ((i.val % nx : Nat) : ℚ) := by
  unfold xCentroid
  simp only [Bool.false_and, Bool.false_eq_true, if_false]
  exact mean_rows w f k _

theorem total_pos {w : Fin n → ℚ} (hw : ∀ i, 0 < w i) {f : Frame n} {k : Nat} (hx : ∃ i, f i = k) : 0 < ∑ i, if f i = k then w i else 0 := by
  obtain ⟨i, hi⟩ := hx
  refine Finset.sum_pos' (fun j _ => by split <;> [exact (hw j).le; exact le_rfl]) ⟨i, Finset.mem_univ _, ?_⟩
  rw [if_pos hi]
  exact hw i

theorem meanOver_bounds {w : Fin n → ℚ} (hw : ∀ i, 0 < w i) {f : Frame n} {k : Nat} (hx : ∃ i, f i = k) {v : Fin n → ℚ} {A B : ℚ}
    (h : ∀ i, f i = k → A ≤ v i ∧ v i ≤ B) : A ≤ meanOver w f k v ∧ meanOver w f k v ≤ B := by
  have ht := total_pos hw hx
  unfold meanOver
  constructor
  · rw [le_div_iff₀ ht, Finset.mul_sum]
    refine Finset.sum_le_sum fun i _ => ?_
    split
    · rename_i hi
      exact mul_le_mul_of_nonneg_right (h i hi).1 (hw i).le
    · simp
  · rw [div_le_iff₀ ht, Finset.mul_sum]
    refine Finset.sum_le_sum fun i _ => ?_
    split
    · rename_i hi
      exact mul_le_mul_of_nonneg_right (h i hi).2 (hw i).le
    · simp

theorem meanOver_affine {w : Fin n → ℚ} (hw : ∀ i, 0 < w i) {f : Frame n} {k : Nat} (hx : ∃ i, f i = k) {v u : Fin n → ℚ} {a d : ℚ}
    (h : ∀ i, f i = k → u i = a + d * v i) : meanOver w f k u = a + d * meanOver w f k v := by
  have ht := total_pos hw hx
  unfold meanOver
  rw [div_eq_iff (ne_of_gt ht), add_mul, mul_assoc, div_mul_cancel₀ _ (ne_of_gt ht), Finset.mul_sum, Finset.mul_sum, ← Finset.sum_add_distrib]
  refine Finset.sum_congr rfl fun i _ => ?_
  split
  · rename_i hi
    rw [h i hi]
    ring
  · simp

theorem present_event {o f : Frame n} (hs : SameCells o f) {k : Nat} (hk : 0 < k) :
    ((decide (0 < globalId o f k) && (List.finRange n).any fun i => f i == k) = true) ↔ ∃ i, f i = k := by
  obtain ⟨h1, -⟩ := globalId_spec o f hs k hk
  constructor
  · intro h
    rw [Bool.and_eq_true, List.any_eq_true] at h
    obtain ⟨-, i, -, hi⟩ := h
    exact ⟨i, by simpa using hi⟩
  · intro hx
    rw [Bool.and_eq_true, List.any_eq_true]
    obtain ⟨i, hi⟩ := id hx
    exact ⟨decide_eq_true (h1 hx).2.1, i, List.mem_finRange _, by simpa using hi⟩

theorem gridRow_lt {ny nx : Nat} (i : Fin (ny * nx)) : i.val / nx < ny := Nat.div_lt_of_lt_mul (lt_of_lt_of_eq i.isLt (Nat.mul_comm _ _))

theorem gridCol_lt {ny nx : Nat} (i : Fin (ny * nx)) : i.val % nx < nx := by
  refine Nat.mod_lt _ (Nat.pos_of_ne_zero fun h => ?_)
  subst h
  exact absurd i.isLt (by simp)

theorem index_bounds {m : Nat} {w : Fin n → ℚ} (hw : ∀ i, 0 < w i) {f : Frame n} {k : Nat} (hx : ∃ i, f i = k) {r : Fin n → Nat} (hr : ∀ i, r i < m) :
    0 ≤ meanOver w f k (fun i => (r i : ℚ)) ∧ meanOver w f k (fun i => (r i : ℚ)) ≤ (m : ℚ) - 1 :=
  meanOver_bounds hw hx fun i _ => ⟨Nat.cast_nonneg _, by
    have : ((r i + 1 : Nat) : ℚ) ≤ m := by exact_mod_cast hr i
    push_cast at this
    linarith⟩

/-- The interpolated coordinate lies between those of the cells. -/
theorem interp_bounds {m : Nat} {vals : Nat → ℚ} (hv : OneDirection m vals) {w : Fin n → ℚ} (hw : ∀ i, 0 < w i) {f : Frame n} {k : Nat} (hx : ∃ i, f i = k)
    {r : Fin n → Nat} (hr : ∀ i, r i < m) {A B : ℚ} (h : ∀ i, f i = k → A ≤ vals (r i) ∧ vals (r i) ≤ B) :
    A ≤ npInterp m vals (meanOver w f k fun i => (r i : ℚ)) ∧ npInterp m vals (meanOver w f k fun i => (r i : ℚ)) ≤ B := by
  classical
  obtain ⟨i0, hi0⟩ := hx
  have hne : (Finset.univ.filter fun i => f i = k).Nonempty := ⟨i0, by simp [hi0]⟩
  obtain ⟨p, hp, hpm⟩ := Finset.exists_min_image _ r hne
  obtain ⟨q, hq, hqm⟩ := Finset.exists_max_image _ r hne
  simp only [Finset.mem_filter, Finset.mem_univ, true_and] at hp hq hpm hqm
  obtain ⟨b1, b2⟩ := meanOver_bounds hw ⟨i0, hi0⟩ (v := fun i => (r i : ℚ)) (A := (r p : ℚ)) (B := (r q : ℚ))
    fun i hi => ⟨by exact_mod_cast hpm i hi, by exact_mod_cast hqm i hi⟩
  rcases hv with hv | hv
  · obtain ⟨c1, c2⟩ := npInterp_mono hv (hr q) b1 b2
    exact ⟨(h p hp).1.trans c1, c2.trans (h q hq).2⟩
  · obtain ⟨c1, c2⟩ := npInterp_mono (v := fun r => - vals r) (fun a b hab hb => neg_le_neg (hv a b hab hb)) (hr q) b1 b2
    rw [npInterp_neg] at c1 c2
    exact ⟨(h q hq).1.trans (by linarith), by linarith [(h p hp).2]⟩

/-! ### Structured grids -/

/-- **C213**, where there is a centroid: at a step at which the event has cells both components have a value, at the other steps both are NaN. -/
theorem C213_present (regional : Bool) (ny nx : Nat) (lat lon : Nat → ℚ) (w : Fin n → ℚ) (o f : Frame n) (hs : SameCells o f) (k : Nat) (hk : 0 < k) :
    (gridEventCentroid regional ny nx lat lon w (decide (0 < globalId o f k)) f k).isSome = true ↔ ∃ i, f i = k := by
  rw [← present_event hs hk]
  unfold gridEventCentroid
  split
  · simp_all
  · simp_all

theorem gridEventCentroid_eq (regional : Bool) (ny nx : Nat) (lat lon : Nat → ℚ) (w : Fin n → ℚ) {o f : Frame n} (hs : SameCells o f) {k : Nat} (hk : 0 < k)
    (hx : ∃ i, f i = k) : gridEventCentroid regional ny nx lat lon w (decide (0 < globalId o f k)) f k =
      some (npInterp ny lat (meanOver w f k fun i => ((i.val / nx : Nat) : ℚ)), npInterp nx lon (xCentroid (!regional) nx (eventCols nx w f k))) := by
  unfold gridEventCentroid
  rw [if_pos ((present_event hs hk).2 hx)]
  unfold eventCentroid
  rw [yCentroid_event]

/-- **C213**, between the cells: with positive cell areas, and coordinates that run upwards or downwards, the latitude of the centroid lies between the least
and the greatest latitude of the cells of the event; on a regional grid so does the longitude. -/
theorem C213_between {ny nx : Nat} (regional : Bool) (lat lon : Nat → ℚ) (w : Fin (ny * nx) → ℚ) (hw : ∀ i, 0 < w i) (o f : Frame (ny * nx)) (hs : SameCells o f)
    (k : Nat) (hk : 0 < k) (c : ℚ × ℚ) (h : gridEventCentroid regional ny nx lat lon w (decide (0 < globalId o f k)) f k = some c) :
    (OneDirection ny lat → ∀ A B, (∀ i, f i = k → A ≤ lat (i.val / nx) ∧ lat (i.val / nx) ≤ B) → A ≤ c.1 ∧ c.1 ≤ B) ∧
    (regional = true → OneDirection nx lon → ∀ A B, (∀ i, f i = k → A ≤ lon (i.val % nx) ∧ lon (i.val % nx) ≤ B) → A ≤ c.2 ∧ c.2 ≤ B) := by
  have hx := (C213_present regional ny nx lat lon w o f hs k hk).1 (by rw [h]; rfl)
  rw [gridEventCentroid_eq regional ny nx lat lon w hs hk hx] at h
  cases h
  refine ⟨fun hv A B hAB => interp_bounds hv hw hx (fun i => gridRow_lt i) hAB, fun hreg hv A B hAB => ?_⟩
  subst hreg
  show A ≤ npInterp nx lon (xCentroid false nx _) ∧ npInterp nx lon (xCentroid false nx _) ≤ B
  rw [xCentroid_event_regional]
  exact interp_bounds hv hw hx (fun i => gridCol_lt i) hAB

/-- **C213**, equally spaced coordinates: the latitude of the centroid is the area-weighted mean of the latitudes of the cells of the event; on a regional grid
the longitude is that of the longitudes. -/
theorem C213_weighted_mean {ny nx : Nat} (regional : Bool) (lat lon : Nat → ℚ) (w : Fin (ny * nx) → ℚ) (hw : ∀ i, 0 < w i) (o f : Frame (ny * nx))
    (hs : SameCells o f) (k : Nat) (hk : 0 < k) (c : ℚ × ℚ) (h : gridEventCentroid regional ny nx lat lon w (decide (0 < globalId o f k)) f k = some c) :
    (EquallySpaced ny lat → c.1 = meanOver w f k fun i => lat (i.val / nx)) ∧
    (regional = true → EquallySpaced nx lon → c.2 = meanOver w f k fun i => lon (i.val % nx)) := by
  have hx := (C213_present regional ny nx lat lon w o f hs k hk).1 (by rw [h]; rfl)
  rw [gridEventCentroid_eq regional ny nx lat lon w hs hk hx] at h
  cases h
  obtain ⟨i0, -⟩ := id hx
  refine ⟨?_, ?_⟩
  · rintro ⟨a, d, hv⟩
    obtain ⟨b1, b2⟩ := index_bounds hw hx (fun i : Fin (ny * nx) => gridRow_lt i)
    rw [meanOver_affine hw hx (v := fun i => ((i.val / nx : Nat) : ℚ)) fun i _ => hv _ (gridRow_lt i)]
    exact npInterp_affine (Nat.zero_lt_of_lt (gridRow_lt i0)) hv b1 b2
  · rintro rfl ⟨a, d, hv⟩
    obtain ⟨b1, b2⟩ := index_bounds hw hx (fun i : Fin (ny * nx) => gridCol_lt i)
    rw [meanOver_affine hw hx (v := fun i => ((i.val % nx : Nat) : ℚ)) fun i _ => hv _ (gridCol_lt i)]
    show npInterp nx lon (xCentroid false nx _) = _
    rw [xCentroid_event_regional]
    exact npInterp_affine (Nat.zero_lt_of_lt (gridCol_lt i0)) hv b1 b2

theorem npInterp_range {m : Nat} (hm : 0 < m) {v : Nat → ℚ} {A B : ℚ} (h : ∀ r, r < m → A ≤ v r ∧ v r ≤ B) (c : ℚ) : A ≤ npInterp m v c ∧ npInterp m v c ≤ B := by
  by_cases h0 : c ≤ 0
  · rw [npInterp_zero h0]
    exact h 0 hm
  by_cases h1 : (m : ℚ) - 1 ≤ c
  · rw [npInterp_last hm h1]
    exact h _ (by omega)
  rcases node_cases (not_le.1 h0).le (not_le.1 h1).le with he | ⟨k, hk, ha, hb⟩
  · exact absurd he.ge h1
  · rw [npInterp_between hk ha hb.le]
    obtain ⟨p1, p2⟩ := h k (by omega)
    obtain ⟨q1, q2⟩ := h (k + 1) hk
    constructor <;> nlinarith

/-- **C213**, on the map: on every grid, global or regional, the components of the centroid lie between the least and the greatest latitude and longitude of the grid. -/
theorem C213_on_the_map {ny nx : Nat} (regional : Bool) (lat lon : Nat → ℚ) (w : Fin (ny * nx) → ℚ) (present : Bool) (f : Frame (ny * nx)) (k : Nat) (c : ℚ × ℚ)
    (h : gridEventCentroid regional ny nx lat lon w present f k = some c) (A B A' B' : ℚ) (hlat : ∀ r, r < ny → A ≤ lat r ∧ lat r ≤ B)
    (hlon : ∀ x, x < nx → A' ≤ lon x ∧ lon x ≤ B') : (A ≤ c.1 ∧ c.1 ≤ B) ∧ A' ≤ c.2 ∧ c.2 ≤ B' := by
  unfold gridEventCentroid at h
  split at h
  · rename_i hp
    rw [Bool.and_eq_true, List.any_eq_true] at hp
    obtain ⟨-, i, -, -⟩ := hp
    cases h
    exact ⟨npInterp_range (Nat.zero_lt_of_lt (gridRow_lt i)) hlat _, npInterp_range (Nat.zero_lt_of_lt (gridCol_lt i)) hlon _⟩
  · cases h

/-- **C213**, global grids: an event without cells in the first 100 columns, or without cells in the last 100, has the centroid it would have on a regional grid;
with `C213_between` and `C213_weighted_mean` its longitude too is that of its cells. -/
theorem C213_away_from_the_seam {ny nx : Nat} (lat lon : Nat → ℚ) (w : Fin (ny * nx) → ℚ) (present : Bool) (f : Frame (ny * nx)) (k : Nat)
    (h : (∀ i, f i = k → 100 ≤ i.val % nx) ∨ ∀ i, f i = k → i.val % nx + 100 < nx) :
    gridEventCentroid false ny nx lat lon w present f k = gridEventCentroid true ny nx lat lon w present f k := by
  have hx : xCentroid (!false) nx (eventCols nx w f k) = xCentroid (!true) nx (eventCols nx w f k) := by
    have hmem : ∀ p ∈ eventCols nx w f k, ∃ i, f i = k ∧ p = (i.val % nx, w i) := by
      intro p hp
      unfold eventCols at hp
      obtain ⟨i, hi, rfl⟩ := List.mem_map.1 hp
      exact ⟨i, by simpa using (List.mem_filter.1 hi).2, rfl⟩
    rw [C146_inner_column (!false), C146_inner_column (!true) _ _ (.inl rfl)]
    right
    rcases h with h | h
    · left
      intro p hp
      obtain ⟨i, hi, rfl⟩ := hmem p hp
      exact h i hi
    · right
      intro p hp
      obtain ⟨i, hi, rfl⟩ := hmem p hp
      exact h i hi
  unfold gridEventCentroid eventCentroid
  rw [hx]

-- non-vacuity: a global grid of one row of 200 columns and an event at columns 120 and 121
example : (∀ i : Fin (1 * 200), (if i.val = 120 ∨ i.val = 121 then 2 else 0) = 2 → 100 ≤ i.val % 200) := by
  intro i hi
  have : i.val = 120 ∨ i.val = 121 := by
    by_contra h
    rw [if_neg h] at hi
    cases hi
  rcases this with h | h <;> rw [h] <;> decide

theorem meanOver_congr {w : Fin n → ℚ} {f f' : Frame n} {k k' : Nat} (h : ∀ i, f' i = k' ↔ f i = k) (v : Fin n → ℚ) : meanOver w f' k' v = meanOver w f k v := by
  unfold meanOver
  simp only [h]

/-- **C213**, unit of the areas: the centroid is the same when every cell area is multiplied by the same positive number. -/
theorem C213_area_unit {ny nx : Nat} (regional : Bool) (lat lon : Nat → ℚ) (w : Fin n → ℚ) (a : ℚ) (ha : 0 < a) (present : Bool) (f : Frame n) (k : Nat) :
    gridEventCentroid regional ny nx lat lon (fun i => a * w i) present f k = gridEventCentroid regional ny nx lat lon w present f k := by
  have ha' := ne_of_gt ha
  have scale : ∀ (l : List (Fin n)) (g : Fin n → ℚ), (l.map fun i => g i * (a * w i)).sum / (l.map fun i => a * w i).sum
      = (l.map fun i => g i * w i).sum / (l.map w).sum := by
    intro l g
    have e1 : (l.map fun i => g i * (a * w i)).sum = a * (l.map fun i => g i * w i).sum := by
      rw [← List.sum_map_mul_left]
      congr 1
      exact List.map_congr_left fun i _ => by ring
    rw [e1, List.sum_map_mul_left, mul_div_mul_left _ _ ha']
  have hn : nearBoth nx (eventCols nx (fun i => a * w i) f k) = nearBoth nx (eventCols nx w f k) := by
    unfold nearBoth eventCols
    simp only [List.any_map, Function.comp_def]
  have h1 : yCentroid (eventRows nx (fun i => a * w i) f k) = yCentroid (eventRows nx w f k) := by
    unfold yCentroid eventRows wsum wtotal
    simp only [List.map_map, Function.comp_def]
    exact scale _ fun i => ((i.val / nx : Nat) : ℚ)
  have h2 : xCentroid (!regional) nx (eventCols nx (fun i => a * w i) f k) = xCentroid (!regional) nx (eventCols nx w f k) := by
    unfold xCentroid
    rw [hn]
    unfold eventCols wsum wtotal
    simp only [List.map_map, Function.comp_def]
    rw [scale _ fun i => adjCol nx (i.val % nx), scale _ fun i => ((i.val % nx : Nat) : ℚ)]
  unfold gridEventCentroid eventCentroid
  rw [h1, h2]

theorem meanOver_renumber (e : Equiv.Perm (Fin n)) {w : Fin n → ℚ} {f f' : Frame n} {k k' : Nat} (h : ∀ i, f' (e i) = k' ↔ f i = k) (v : Fin n → ℚ) :
    meanOver (renumber e w) f' k' v = meanOver w f k fun i => v (e i) := by
  unfold meanOver
  rw [← Equiv.sum_comp e, ← Equiv.sum_comp e (fun i => if f' i = k' then renumber e w i else 0)]
  simp only [h, renumber_at]

/-- The mean position counted from the other end. -/
theorem meanOver_otherEnd {m : Nat} {w : Fin n → ℚ} (hw : ∀ i, 0 < w i) {f : Frame n} {k : Nat} (hx : ∃ i, f i = k) (b : Bool) {r : Fin n → Nat}
    (hr : ∀ i, r i < m) (vals : Nat → ℚ) :
    npInterp m (fun x => vals (fromOtherEnd b m x)) (meanOver w f k fun i => ((fromOtherEnd b m (r i) : Nat) : ℚ)) = npInterp m vals (meanOver w f k fun i => (r i : ℚ)) := by
  cases b with
  | false => simp [fromOtherEnd]
  | true =>
    obtain ⟨b1, b2⟩ := index_bounds hw hx hr
    have e : (meanOver w f k fun i => ((fromOtherEnd true m (r i) : Nat) : ℚ)) = (m : ℚ) - 1 - meanOver w f k fun i => (r i : ℚ) := by
      rw [meanOver_affine hw hx (v := fun i => (r i : ℚ)) (a := (m : ℚ) - 1) (d := -1) fun i _ => by
        have := hr i
        simp only [fromOtherEnd, if_true]
        rw [Nat.cast_sub (by omega), Nat.cast_sub (by omega)]
        push_cast
        ring]
      ring
    rw [e]
    obtain ⟨i, -⟩ := hx
    have := npInterp_reverse (Nat.zero_lt_of_lt (hr i)) vals b1 b2
    simpa [fromOtherEnd] using this

/-- **C213**, orientation of the map: with rows (and on a regional grid columns) in the opposite order, latitudes and longitudes along with them, an event with the
same cells has the same latitude, and on a regional grid the same longitude. -/
theorem C213_orientation {ny nx : Nat} (rows cols regional : Bool) (lat lon : Nat → ℚ) (w : Fin (ny * nx) → ℚ) (hw : ∀ i, 0 < w i)
    (o f o' f' : Frame (ny * nx)) (hs : SameCells o f) (hs' : SameCells o' f') (k k' : Nat) (hk : 0 < k) (hk' : 0 < k')
    (hc : ∀ i, f' (mirror rows cols ny nx i) = k' ↔ f i = k) :
    let c := gridEventCentroid regional ny nx lat lon w (decide (0 < globalId o f k)) f k
    let c' := gridEventCentroid regional ny nx (fun r => lat (fromOtherEnd rows ny r)) (fun x => lon (fromOtherEnd cols nx x)) (renumber (mirror rows cols ny nx) w)
      (decide (0 < globalId o' f' k')) f' k'
    c'.map (·.1) = c.map (·.1) ∧ (regional = true → c' = c) := by
  intro c c'
  have hxx : (∃ i, f' i = k') ↔ ∃ i, f i = k := by
    constructor
    · rintro ⟨j, hj⟩
      obtain ⟨i, rfl⟩ := (mirror rows cols ny nx).surjective j
      exact ⟨i, (hc i).1 hj⟩
    · rintro ⟨i, hi⟩
      exact ⟨_, (hc i).2 hi⟩
  by_cases hx : ∃ i, f i = k
  · have e1 : c = _ := gridEventCentroid_eq regional ny nx lat lon w hs hk hx
    have e2 : c' = _ := gridEventCentroid_eq regional ny nx _ _ _ hs' hk' (hxx.2 hx)
    have hl : npInterp ny (fun r => lat (fromOtherEnd rows ny r))
        (meanOver (renumber (mirror rows cols ny nx) w) f' k' fun i => ((i.val / nx : Nat) : ℚ)) = npInterp ny lat (meanOver w f k fun i => ((i.val / nx : Nat) : ℚ)) := by
      rw [meanOver_renumber _ hc]
      simp only [mirror_apply, mirrorCell_row]
      exact meanOver_otherEnd hw hx rows (fun i => gridRow_lt i) lat
    refine ⟨by rw [e1, e2]; simp only [Option.map_some]; rw [hl], fun hreg => ?_⟩
    subst hreg
    rw [e1, e2, hl]
    congr 2
    show npInterp nx _ (xCentroid false nx _) = npInterp nx lon (xCentroid false nx _)
    rw [xCentroid_event_regional, xCentroid_event_regional, meanOver_renumber _ hc]
    simp only [mirror_apply, mirrorCell_col]
    exact meanOver_otherEnd hw hx cols (fun i => gridCol_lt i) lon
  · have e1 : c = none := by
      have := (C213_present regional ny nx lat lon w o f hs k hk).not.2 hx
      simpa using this
    have e2 : c' = none := by
      have := (C213_present regional ny nx (fun r => lat (fromOtherEnd rows ny r)) (fun x => lon (fromOtherEnd cols nx x)) (renumber (mirror rows cols ny nx) w)
        o' f' hs' k' hk').not.2 (fun h => hx (hxx.1 h))
      simpa using this
    rw [e1, e2]
    exact ⟨rfl, fun _ => rfl⟩

-- non-vacuity: a grid of 3 rows and 2 columns with latitudes running down; event 7 has two cells, one twice as large as the other
example : SameCells (fun i : Fin (3 * 2) => if i.val = 1 ∨ i.val = 5 then 4 else 0) (fun i => if i.val = 1 ∨ i.val = 5 then 7 else 0) ∧
    OneDirection 3 (fun r => 60 - 10 * (r : ℚ)) ∧ EquallySpaced 3 (fun r => 60 - 10 * (r : ℚ)) ∧ EquallySpaced 2 (fun x => (x : ℚ) + 5) ∧
    gridEventCentroid (n := 3 * 2) true 3 2 (fun r => 60 - 10 * (r : ℚ)) (fun x => (x : ℚ) + 5) (fun i => if i.val = 5 then 2 else 1)
      (decide (0 < globalId (fun i : Fin (3 * 2) => if i.val = 1 ∨ i.val = 5 then 4 else 0) (fun i => if i.val = 1 ∨ i.val = 5 then 7 else 0) 7))
      (fun i => if i.val = 1 ∨ i.val = 5 then 7 else 0) 7 = some (140 / 3, 6) := by
  refine ⟨by intro i; fin_cases i <;> decide, .inr fun a b hab _ => ?_, ⟨60, -10, fun r _ => by ring⟩, ⟨5, 1, fun r _ => by ring⟩, by decide +kernel⟩
  have : (a : ℚ) ≤ b := by exact_mod_cast hab
  show 60 - 10 * (b : ℚ) ≤ 60 - 10 * (a : ℚ)
  linarith

-- the same event on the map turned upside down has the same centroid, under another ID
example : gridEventCentroid (n := 3 * 2) true 3 2 (fun r => 60 - 10 * ((fromOtherEnd true 3 r : Nat) : ℚ)) (fun x => (x : ℚ) + 5)
      (renumber (mirror true false 3 2) fun i => if i.val = 5 then 2 else 1)
      (decide (0 < globalId (fun i : Fin (3 * 2) => if i.val = 1 ∨ i.val = 5 then 4 else 0) (fun i => if i.val = 1 ∨ i.val = 5 then 3 else 0) 3))
      (fun i => if i.val = 1 ∨ i.val = 5 then 3 else 0) 3 = some (140 / 3, 6) := by decide +kernel

/-! ### Runs -/

theorem cells_of_same {ids ids' : List (Frame n)} {t : Nat} {i : Fin n} {g g' : Frame n} (hg : ids[t]? = some g) (hg' : ids'[t]? = some g') (hi : 0 < g i)
    (h : ∀ u j, SameEvent ids t i u j ↔ SameEvent ids' t i u j) :
    0 < g' i ∧ ∀ (u : Nat) (f f' : Frame n), ids[u]? = some f → ids'[u]? = some f' → ∀ j, f' j = g' i ↔ f j = g i := by
  have hi' : 0 < g' i := by
    obtain ⟨a, b, ha, _, h0, _⟩ := (h t i).mp ⟨g, g, hg, hg, hi, rfl⟩
    rw [hg'] at ha
    cases ha
    exact h0
  refine ⟨hi', fun u f f' hf hf' j => ?_⟩
  constructor
  · intro hj
    obtain ⟨a, b, ha, hb, -, he⟩ := (h u j).2 ⟨g', f', hg', hf', hi', hj.symm⟩
    rw [hg] at ha
    rw [hf] at hb
    cases ha
    cases hb
    exact he.symm
  · intro hj
    obtain ⟨a, b, ha, hb, -, he⟩ := (h u j).1 ⟨g, f, hg, hf, hi, hj.symm⟩
    rw [hg'] at ha
    rw [hf'] at hb
    cases ha
    cases hb
    exact he.symm

theorem present_congr {o f o' f' : Frame n} (hs : SameCells o f) (hs' : SameCells o' f') {k k' : Nat} (hk : 0 < k) (hk' : 0 < k') (hc : ∀ j, f' j = k' ↔ f j = k) :
    (decide (0 < globalId o' f' k') && (List.finRange n).any fun i => f' i == k') = (decide (0 < globalId o f k) && (List.finRange n).any fun i => f i == k) := by
  rw [Bool.eq_iff_iff, present_event hs' hk', present_event hs hk]
  simp only [hc]

theorem filter_congr_cells {f f' : Frame n} {k k' : Nat} (hc : ∀ j, f' j = k' ↔ f j = k) :
    ((List.finRange n).filter fun i => f' i == k') = (List.finRange n).filter fun i => f i == k := by
  refine List.filter_congr fun i _ => ?_
  rw [Bool.eq_iff_iff, beq_iff_eq, beq_iff_eq]
  exact hc i

theorem gridEventCentroid_congr (regional : Bool) (ny nx : Nat) (lat lon : Nat → ℚ) (w : Fin n → ℚ) {o f o' f' : Frame n} (hs : SameCells o f) (hs' : SameCells o' f')
    {k k' : Nat} (hk : 0 < k) (hk' : 0 < k') (hc : ∀ j, f' j = k' ↔ f j = k) :
    gridEventCentroid regional ny nx lat lon w (decide (0 < globalId o' f' k')) f' k' = gridEventCentroid regional ny nx lat lon w (decide (0 < globalId o f k)) f k := by
  unfold gridEventCentroid eventRows eventCols
  rw [present_congr hs hs' hk hk' hc, filter_congr_cells hc]

/-- **C213**, structured grids with merging: if the event of a cell has the same cells in two tracked records, of whatever lengths and whatever the options, chunks
and numbers behind them, it has the same centroid at every step. -/
theorem C213_grid_same (cc cc' : Labeller) (hcc : CorrectLabeller cc) (hcc' : CorrectLabeller cc') (regional : Bool) (ny nx : Nat) (lat lon : Nat → ℚ) (w : Fin n → ℚ)
    (c c' : TrackCfg n) (chunks chunks' : List (List (Frame n))) (t : Nat) (i : Fin n) (g g' : Frame n)
    (hg : (trackGrid cc c chunks).idField[t]? = some g) (hg' : (trackGrid cc' c' chunks').idField[t]? = some g') (hi : 0 < g i)
    (h : ∀ u j, SameEvent (trackGrid cc c chunks).idField t i u j ↔ SameEvent (trackGrid cc' c' chunks').idField t i u j)
    (u : Nat) (o f o' f' : Frame n) (ho : (trackGrid cc c chunks).objects.field[u]? = some o) (hf : (trackGrid cc c chunks).idField[u]? = some f)
    (ho' : (trackGrid cc' c' chunks').objects.field[u]? = some o') (hf' : (trackGrid cc' c' chunks').idField[u]? = some f') :
    gridEventCentroid regional ny nx lat lon w (decide (0 < globalId o' f' (g' i))) f' (g' i) =
      gridEventCentroid regional ny nx lat lon w (decide (0 < globalId o f (g i))) f (g i) := by
  obtain ⟨-, -, h3, -⟩ := C22_events_are_linked_groups cc hcc c.w c.thr (trackGrid cc c chunks).objects.props (trackGrid cc c chunks).objects.field
  obtain ⟨-, -, k3, -⟩ := C22_events_are_linked_groups cc' hcc' c'.w c'.thr (trackGrid cc' c' chunks').objects.props
    (trackGrid cc' c' chunks').objects.field
  obtain ⟨hi', hc⟩ := cells_of_same hg hg' hi h
  exact gridEventCentroid_congr regional ny nx lat lon w (h3 u o f ho hf) (k3 u o' f' ho' hf') hi hi' (hc u f f' hf hf')

-- non-vacuity: the record of `C206_table_partial` with a fourth step added; the event of cells 0 and 1 keeps its centroid at step 1
example : (let run := trackGrid quickFind (gridCfg false true 1 6 (1 / 2) (rowCen 6)) (chunksOf [3] (identifyObjectsGrid quickFind false true 6 threeSpells))
     let run' := trackGrid quickFind (gridCfg false true 1 6 (1 / 2) (rowCen 6))
       (chunksOf [2, 2] (identifyObjectsGrid quickFind false true 6 (threeSpells ++ [(fun _ => true : Fin (1 * 6) → Bool)])))
     match run.idField, run.objects.field, run'.idField, run'.objects.field with
      | [_, b, _], [_, p, _], [_, b', _, _], [_, p', _, _] => decide (0 < b 0 ∧
          gridEventCentroid true 1 6 (fun _ => 10) (fun x => (x : ℚ)) (fun i => (i.val : ℚ) + 1) (decide (0 < globalId p b (b 0))) b (b 0) = some (10, 2 / 3) ∧
          gridEventCentroid true 1 6 (fun _ => 10) (fun x => (x : ℚ)) (fun i => (i.val : ℚ) + 1) (decide (0 < globalId p' b' (b' 0))) b' (b' 0) = some (10, 2 / 3))
      | _, _, _, _ => false) = true := by decide +kernel

/-! ### Meshes -/

/-- **C213**, meshes: where there is a centroid. -/
theorem C213_mesh_present (lat lon area : Fin n → ℝ) (o f : Frame n) (hs : SameCells o f) (k : Nat) (hk : 0 < k) :
    (meshEventCentroid lat lon area (decide (0 < globalId o f k)) f k).isSome = true ↔ ∃ i, f i = k := by
  rw [← present_event hs hk]
  unfold meshEventCentroid
  split
  · simp_all
  · simp_all

/-- **C213**, meshes: events with the same cells have the same centroid at every step. -/
theorem C213_mesh_same (cc cc' : Labeller) (hcc : CorrectLabeller cc) (hcc' : CorrectLabeller cc') (lat lon area : Fin n → ℝ) (p p' : MeshRun n)
    (pre pre' : List (Fin n → Bool)) (ids ids' : List (Frame n)) (hr : trackingMesh cc p pre = .ok ids) (hr' : trackingMesh cc' p' pre' = .ok ids')
    (t : Nat) (i : Fin n) (g g' : Frame n) (hg : ids[t]? = some g) (hg' : ids'[t]? = some g') (hi : 0 < g i)
    (h : ∀ u j, SameEvent ids t i u j ↔ SameEvent ids' t i u j) :
    ∃ objs objs', finalObjectsMesh cc p pre = .ok objs ∧ finalObjectsMesh cc' p' pre' = .ok objs' ∧
      ∀ (u : Nat) (o f o' f' : Frame n), objs[u]? = some o → ids[u]? = some f → objs'[u]? = some o' → ids'[u]? = some f' →
        meshEventCentroid lat lon area (decide (0 < globalId o' f' (g' i))) f' (g' i) = meshEventCentroid lat lon area (decide (0 < globalId o f (g i))) f (g i) := by
  obtain ⟨objs, ho, -, h3, -⟩ := finalObjects_of_tracking hcc hr
  obtain ⟨objs', ho', -, k3, -⟩ := finalObjects_of_tracking hcc' hr'
  obtain ⟨hi', hc⟩ := cells_of_same hg hg' hi h
  refine ⟨objs, objs', ho, ho', fun u o f o' f' hou hf hou' hf' => ?_⟩
  have hcu := hc u f f' hf hf'
  unfold meshEventCentroid eventMeshCells
  rw [present_congr (h3 u o f hou hf) (k3 u o' f' hou' hf') hi hi' hcu, filter_congr_cells hcu]

theorem sum_event_real (f : Frame n) (k : Nat) (g : Fin n → ℝ) :
    (((List.finRange n).filter fun i => f i == k).map g).sum = ∑ i, if f i = k then g i else 0 := by
  rw [Fin.sum_univ_def]
  induction List.finRange n with
  | nil => rfl
  | cons i l ih =>
    rw [List.filter_cons]
    by_cases h : f i = k
    · simp [h, ih]
    · simp [h, ih]

/-- **C213**, the numbering of the cells of a mesh: an event with the same cells has the same centroid when the cells are numbered in another order. -/
theorem C213_mesh_numbering (e : Equiv.Perm (Fin n)) (lat lon area : Fin n → ℝ) (o f o' f' : Frame n) (hs : SameCells o f) (hs' : SameCells o' f')
    (k k' : Nat) (hk : 0 < k) (hk' : 0 < k') (hc : ∀ i, f' (e i) = k' ↔ f i = k) :
    meshEventCentroid (renumber e lat) (renumber e lon) (renumber e area) (decide (0 < globalId o' f' k')) f' k' =
      meshEventCentroid lat lon area (decide (0 < globalId o f k)) f k := by
  have hp : (decide (0 < globalId o' f' k') && (List.finRange n).any fun i => f' i == k') = (decide (0 < globalId o f k) && (List.finRange n).any fun i => f i == k) := by
    rw [Bool.eq_iff_iff, present_event hs' hk', present_event hs hk]
    constructor
    · rintro ⟨j, hj⟩
      obtain ⟨i, rfl⟩ := e.surjective j
      exact ⟨i, (hc i).1 hj⟩
    · rintro ⟨i, hi⟩
      exact ⟨_, (hc i).2 hi⟩
  have hsum : ∀ F : MCell → ℝ, ((eventMeshCells (renumber e lat) (renumber e lon) (renumber e area) f' k').map F).sum = ((eventMeshCells lat lon area f k).map F).sum := by
    intro F
    unfold eventMeshCells
    rw [List.map_map, List.map_map, sum_event_real, sum_event_real, ← Equiv.sum_comp e]
    simp only [hc, Function.comp_def, renumber_at]
  have hX := hsum fun c => c.area * (Real.cos (toRad c.lat) * Real.cos (toRad c.lon))
  have hY := hsum fun c => c.area * (Real.cos (toRad c.lat) * Real.sin (toRad c.lon))
  have hZ := hsum fun c => c.area * Real.sin (toRad c.lat)
  unfold meshEventCentroid
  rw [hp]
  unfold meshLat meshLon meshNorm sumX sumY sumZ
  rw [hX, hY, hZ]

/-- **C213**, direction: at a step at which the event has cells, its centroid on a mesh is the point of the globe in the direction of the area-weighted sum of the
positions of its cells, whenever that sum is not zero. -/
theorem C213_mesh_direction (lat lon area : Fin n → ℝ) (o f : Frame n) (hs : SameCells o f) (k : Nat) (hk : 0 < k) (c : ℝ × ℝ)
    (h : meshEventCentroid lat lon area (decide (0 < globalId o f k)) f k = some c) :
    let X := ∑ i, if f i = k then area i * (Real.cos (lat i * (Real.pi / 180)) * Real.cos (lon i * (Real.pi / 180))) else 0
    let Y := ∑ i, if f i = k then area i * (Real.cos (lat i * (Real.pi / 180)) * Real.sin (lon i * (Real.pi / 180))) else 0
    let Z := ∑ i, if f i = k then area i * Real.sin (lat i * (Real.pi / 180)) else 0
    let φ := c.1 * (Real.pi / 180)
    let lam := c.2 * (Real.pi / 180)
    (-90 ≤ c.1 ∧ c.1 ≤ 90 ∧ -180 < c.2 ∧ c.2 ≤ 180) ∧
    (X ≠ 0 ∨ Y ≠ 0 ∨ Z ≠ 0 → ∃ r : ℝ, 0 < r ∧ r * (Real.cos φ * Real.cos lam) = X ∧ r * (Real.cos φ * Real.sin lam) = Y ∧ r * Real.sin φ = Z) := by
  have hx := (C213_mesh_present lat lon area o f hs k hk).1 (by rw [h]; rfl)
  unfold meshEventCentroid at h
  rw [if_pos ((present_event hs hk).2 hx)] at h
  cases h
  obtain ⟨⟨r1, r2⟩, r3, r4⟩ := C58_in_range (eventMeshCells lat lon area f k)
  refine ⟨⟨r1, r2, r3, r4⟩, ?_⟩
  have := C58_direction (eventMeshCells lat lon area f k)
  unfold eventMeshCells at this ⊢
  simp only [List.map_map, Function.comp_def, sum_event_real] at this ⊢
  exact this

/-- **C213**, unit of the areas of a mesh. -/
theorem C213_mesh_area_unit (lat lon area : Fin n → ℝ) (a : ℝ) (ha : 0 < a) (present : Bool) (f : Frame n) (k : Nat) :
    meshEventCentroid lat lon (fun i => a * area i) present f k = meshEventCentroid lat lon area present f k := by
  have scale : ∀ G : Fin n → ℝ, ∀ l : List (Fin n), (l.map fun i => a * area i * G i).sum = a * (l.map fun i => area i * G i).sum := by
    intro G l
    rw [← List.sum_map_mul_left]
    congr 1
    exact List.map_congr_left fun i _ => by ring
  have hX : sumX (eventMeshCells lat lon (fun i => a * area i) f k) = a * sumX (eventMeshCells lat lon area f k) := by
    unfold sumX eventMeshCells
    simp only [List.map_map, Function.comp_def]
    exact scale _ _
  have hY : sumY (eventMeshCells lat lon (fun i => a * area i) f k) = a * sumY (eventMeshCells lat lon area f k) := by
    unfold sumY eventMeshCells
    simp only [List.map_map, Function.comp_def]
    exact scale _ _
  have hZ : sumZ (eventMeshCells lat lon (fun i => a * area i) f k) = a * sumZ (eventMeshCells lat lon area f k) := by
    unfold sumZ eventMeshCells
    simp only [List.map_map, Function.comp_def]
    exact scale _ _
  have hlat : meshLat (eventMeshCells lat lon (fun i => a * area i) f k) = meshLat (eventMeshCells lat lon area f k) := by
    unfold meshLat
    have : sumZ (eventMeshCells lat lon (fun i => a * area i) f k) / meshNorm (eventMeshCells lat lon (fun i => a * area i) f k)
        = sumZ (eventMeshCells lat lon area f k) / meshNorm (eventMeshCells lat lon area f k) := by
      unfold meshNorm
      rw [hX, hY, hZ]
      generalize sumX (eventMeshCells lat lon area f k) = x
      generalize sumY (eventMeshCells lat lon area f k) = y
      generalize sumZ (eventMeshCells lat lon area f k) = z
      have e : √((a * x) ^ 2 + (a * y) ^ 2 + (a * z) ^ 2) = a * √(x ^ 2 + y ^ 2 + z ^ 2) := by
        rw [show (a * x) ^ 2 + (a * y) ^ 2 + (a * z) ^ 2 = a ^ 2 * (x ^ 2 + y ^ 2 + z ^ 2) by ring, Real.sqrt_mul (by positivity), Real.sqrt_sq ha.le]
      rw [e]
      by_cases h : 0 < √(x ^ 2 + y ^ 2 + z ^ 2)
      · rw [if_pos h, if_pos (by positivity), mul_div_mul_left _ _ (ne_of_gt ha)]
      · rw [if_neg h, if_neg (by intro h'; exact h ((mul_pos_iff_of_pos_left ha).1 h'))]
        have h0 : √(x ^ 2 + y ^ 2 + z ^ 2) = 0 := le_antisymm (not_lt.1 h) (Real.sqrt_nonneg _)
        have h1 := (Real.sqrt_eq_zero (by positivity)).1 h0
        have : z = 0 := by nlinarith [sq_nonneg x, sq_nonneg y, sq_nonneg z]
        rw [this]
        simp
    rw [this]
  have hlon : meshLon (eventMeshCells lat lon (fun i => a * area i) f k) = meshLon (eventMeshCells lat lon area f k) := by
    rw [meshLon_eq, meshLon_eq, hX, hY]
    have : (⟨a * sumX (eventMeshCells lat lon area f k), a * sumY (eventMeshCells lat lon area f k)⟩ : ℂ)
        = (a : ℂ) * ⟨sumX (eventMeshCells lat lon area f k), sumY (eventMeshCells lat lon area f k)⟩ := by
      apply Complex.ext <;> simp
    rw [this, Complex.arg_real_mul _ ha]
  unfold meshEventCentroid
  rw [hlat, hlon]

-- non-vacuity: an event of one cell has that cell as its centroid
example : meshEventCentroid (fun i : Fin 2 => if i = 0 then 30 else 50) (fun _ => 20) (fun _ => 3)
    (decide (0 < globalId (fun i : Fin 2 => if i = 0 then 1 else 0) (fun i => if i = 0 then 5 else 0) 5)) (fun i => if i = 0 then 5 else 0) 5 = some (30, 20) := by
  have h : (decide (0 < globalId (fun i : Fin 2 => if i = 0 then 1 else 0) (fun i => if i = 0 then 5 else 0) 5) &&
      (List.finRange 2).any fun i => (fun i : Fin 2 => if i = 0 then 5 else 0) i == 5) = true := by decide +kernel
  have hc : ((List.finRange 2).filter fun i => (fun i : Fin 2 => if i = 0 then 5 else 0) i == 5) = [0] := by decide +kernel
  unfold meshEventCentroid eventMeshCells
  rw [if_pos h, hc]
  obtain ⟨h1, h2⟩ := C58_single_cell 30 20 3 (by norm_num) (by norm_num) (by norm_num)
  simp only [List.map_cons, List.map_nil, if_true]
  rw [h1, h2]

/-! ### Runs on a mirrored map and on a renumbered mesh -/

/-- The cells of paired events. -/
theorem cells_of_table {e : Equiv.Perm (Fin n)} {ids ids' : List (Frame n)} {σ : Nat → Nat}
    (h1 : ∀ k, 0 < k → (∃ f ∈ ids, ∃ i, f i = k) → 0 < σ k ∧ ∃ f ∈ ids', ∃ i, f i = σ k)
    (h2 : ∀ k l, 0 < k → 0 < l → (∃ f ∈ ids, ∃ i, f i = k) → (∃ f ∈ ids, ∃ i, f i = l) → σ k = σ l → k = l)
    (h4 : ∀ (t : Nat) (f f' : Frame n), ids[t]? = some f → ids'[t]? = some f' → ∀ i, (f i = 0 ↔ f' (e i) = 0) ∧ (0 < f i → f' (e i) = σ (f i)))
    {k : Nat} (hk : 0 < k) (hx : ∃ f ∈ ids, ∃ i, f i = k) {t : Nat} {f f' : Frame n} (hf : ids[t]? = some f) (hf' : ids'[t]? = some f') (i : Fin n) :
    f' (e i) = σ k ↔ f i = k := by
  obtain ⟨a, b⟩ := h4 t f f' hf hf' i
  constructor
  · intro h
    have hp : 0 < f i := by
      rcases Nat.eq_zero_or_pos (f i) with h0 | h0
      · have := a.1 h0
        have := (h1 k hk hx).1
        omega
      · exact h0
    exact h2 _ _ hp hk ⟨f, List.mem_of_getElem? hf, i, rfl⟩ hx (by rw [← b hp, h])
  · rintro rfl
    exact b hk

/-- **C213**, a run on the mirrored map: if a run on a structured grid with merging reports no merge, then on the map with rows or columns in the opposite order
(cell areas and coordinates along with them) every event is found again under some ID `σ k`, with the same latitude at every step, and on a regional grid with
the same centroid. -/
theorem C213_mirrored_run {ny nx : Nat} (cc : Labeller) (hcc : CorrectLabeller cc) (hnx : 0 < nx) (rows cols : Bool) (regional wrap nn nn' : Bool) (thr : ℚ)
    (cen cen' : Frame (ny * nx) → Nat → ℚ × ℚ) (chunks chunks' : List Nat) (pre : List (Fin (ny * nx) → Bool)) (hch : SameChunks chunks chunks' pre.length)
    (hm : (trackGrid cc (gridCfg wrap nn ny nx thr cen) (chunksOf chunks (identifyObjectsGrid cc false regional nx pre))).objects.merges = [])
    (lat lon : Nat → ℚ) (w : Fin (ny * nx) → ℚ) (hw : ∀ i, 0 < w i) :
    let e := mirror rows cols ny nx
    let run := trackGrid cc (gridCfg wrap nn ny nx thr cen) (chunksOf chunks (identifyObjectsGrid cc false regional nx pre))
    let run' := trackGrid cc (gridCfg wrap nn' ny nx thr cen') (chunksOf chunks' (identifyObjectsGrid cc false regional nx (pre.map (renumber e))))
    ∃ σ : Nat → Nat, ∀ k, 0 < k → (∃ f ∈ run.idField, ∃ i, f i = k) → 0 < σ k ∧
      ∀ (t : Nat) (o f o' f' : Frame (ny * nx)), run.objects.field[t]? = some o → run.idField[t]? = some f → run'.objects.field[t]? = some o' →
        run'.idField[t]? = some f' → (∀ i, f' (e i) = σ k ↔ f i = k) ∧
        let c := gridEventCentroid regional ny nx lat lon w (decide (0 < globalId o f k)) f k
        let c' := gridEventCentroid regional ny nx (fun r => lat (fromOtherEnd rows ny r)) (fun x => lon (fromOtherEnd cols nx x)) (renumber e w)
          (decide (0 < globalId o' f' (σ k))) f' (σ k)
        c'.map (·.1) = c.map (·.1) ∧ (regional = true → c' = c) := by
  intro e run run'
  obtain ⟨-, σ, h1, h2, -, h4, -⟩ := C209_orientation cc hcc hnx rows cols regional wrap nn nn' thr cen cen' chunks chunks' pre hch hm w
  obtain ⟨-, -, s3, -⟩ := C22_events_are_linked_groups cc hcc (gridCfg wrap nn ny nx thr cen).w thr run.objects.props run.objects.field
  obtain ⟨-, -, s3', -⟩ := C22_events_are_linked_groups cc hcc (gridCfg wrap nn' ny nx thr cen').w thr run'.objects.props run'.objects.field
  refine ⟨σ, fun k hk hx => ⟨(h1 k hk hx).1, fun t o f o' f' ho hf ho' hf' => ?_⟩⟩
  have hc := fun i => cells_of_table h1 h2 h4 hk hx hf hf' i
  exact ⟨hc, C213_orientation rows cols regional lat lon w hw o f o' f' (s3 t o f ho hf) (s3' t o' f' ho' hf') k (σ k) hk (h1 k hk hx).1 hc⟩

/-- **C213**, a run on the renumbered mesh: if a run reports no merge, then with the cells numbered in another order every event is found again under some ID `σ k`,
with the same centroid at every step. -/
theorem C213_renumbered_run (cc : Labeller) (hcc : CorrectLabeller cc) (e : Equiv.Perm (Fin n)) (p p' : MeshRun n) (hp : Renumbered e p p')
    (hw : ∀ i, 0 < p.track.w i) (data pre : List (Fin n → Bool)) (ids : List (Frame n)) (h : runMesh cc p data = .ok (pre, ids))
    (hm : NoMerges p.track.w p.track.thr (objectFieldMesh cc p.nbr p.mask pre)) (lat lon area : Fin n → ℝ) :
    ∃ ids' objs objs', runMesh cc p' (data.map (renumber e)) = .ok (pre.map (renumber e), ids') ∧ finalObjectsMesh cc p pre = .ok objs ∧
      finalObjectsMesh cc p' (pre.map (renumber e)) = .ok objs' ∧
      ∃ σ : Nat → Nat, ∀ k, 0 < k → (∃ f ∈ ids, ∃ i, f i = k) → 0 < σ k ∧
        ∀ (t : Nat) (o f o' f' : Frame n), objs[t]? = some o → ids[t]? = some f → objs'[t]? = some o' → ids'[t]? = some f' →
          (∀ i, f' (e i) = σ k ↔ f i = k) ∧
          meshEventCentroid (renumber e lat) (renumber e lon) (renumber e area) (decide (0 < globalId o' f' (σ k))) f' (σ k) =
            meshEventCentroid lat lon area (decide (0 < globalId o f k)) f k := by
  obtain ⟨ids', hr, -, objs, objs', q1, q2, σ, h1, h2, -, h4, -⟩ := C209_mesh_numbering cc hcc e p p' hp hw data pre ids h hm
  have ok : ∀ {p : MeshRun n} {data pre : List (Fin n → Bool)} {ids : List (Frame n)}, runMesh cc p data = .ok (pre, ids) → trackingMesh cc p pre = .ok ids := by
    intro p data pre ids h
    unfold runMesh at h
    split at h
    · cases h
    split at h
    · cases h
    rename_i r _ ids0 hids
    cases h
    exact hids
  obtain ⟨o1, k1, -, s3, -⟩ := finalObjects_of_tracking hcc (ok h)
  obtain ⟨o2, k2, -, s3', -⟩ := finalObjects_of_tracking hcc (ok hr)
  rw [q1] at k1
  rw [q2] at k2
  cases k1
  cases k2
  refine ⟨ids', objs, objs', hr, q1, q2, σ, fun k hk hx => ⟨(h1 k hk hx).1, fun t o f o' f' ho hf ho' hf' => ?_⟩⟩
  have hc := fun i => cells_of_table h1 h2 h4 hk hx hf hf' i
  exact ⟨hc, C213_mesh_numbering e lat lon area o f o' f' (s3 t o f ho hf) (s3' t o' f' ho' hf') k (σ k) hk (h1 k hk hx).1 hc⟩

-- the hypotheses of `C213_mirrored_run` are met by the record of three spells, which has events and no merge
example : SameChunks [3] [3] threeSpells.length ∧
    (let run := trackGrid quickFind (gridCfg false true 1 6 (1 / 2) (rowCen 6)) (chunksOf [3] (identifyObjectsGrid quickFind false true 6 threeSpells))
     decide (run.objects.merges = [] ∧ maxId run.idField = 3)) = true := ⟨.inl rfl, by decide +kernel⟩

-- the hypotheses of `C213_renumbered_run` are met by the run on a line of cells, which has events (see also `C209_mesh_numbering`)
example : (match runMesh quickFind (lineRun true) lineData with
      | .ok (pre, ids) => decide (((enforceOverlap (lineRun true).track.thr
          ((objectFieldMesh quickFind (lineRun true).nbr (lineRun true).mask pre).flatMap
            (calcProps ⟨(lineRun true).track.w, (lineRun true).track.thr, (lineRun true).cen, fun _ _ _ _ _ _ _ => 0⟩))
          (findOverlaps (lineRun true).track.w (objectFieldMesh quickFind (lineRun true).nbr (lineRun true).mask pre))).map (·.b)).Nodup ∧ 0 < maxId ids)
      | .error _ => false) = true := by decide +kernel

end MarEx.Props
