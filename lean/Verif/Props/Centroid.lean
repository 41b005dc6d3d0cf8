import Verif.Model.Centroid
import Verif.Spec.Centroid
import Mathlib.Algebra.Order.BigOperators.Group.List
/-! Property C25: centroids on a periodic grid. -/
namespace MarEx.Props
open MarEx MarEx.Spec

theorem wtotal_pos {α : Type} {l : List (α × ℚ)} (hne : l ≠ []) (hw : ∀ p ∈ l, 0 < p.2) : 0 < wtotal l := by
  unfold wtotal
  cases l with
  | nil => exact absurd rfl hne
  | cons a l =>
    rw [List.map_cons, List.sum_cons]
    have h1 := hw a (by simp)
    have h2 : 0 ≤ (l.map (·.2)).sum := by
      apply List.sum_nonneg
      intro x hx
      obtain ⟨p, hp, rfl⟩ := List.mem_map.mp hx
      exact le_of_lt (hw p (by simp [hp]))
    linarith

theorem wsum_le {α : Type} {l : List (α × ℚ)} {v : α → ℚ} {B : ℚ} (hw : ∀ p ∈ l, 0 < p.2) (hB : ∀ p ∈ l, v p.1 ≤ B) :
    wsum (l.map fun p => (v p.1, p.2)) ≤ B * wtotal l := by
  unfold wsum wtotal
  induction l with
  | nil => simp
  | cons a l ih =>
    have h1 := ih (fun p hp => hw p (by simp [hp])) (fun p hp => hB p (by simp [hp]))
    have h2 := hw a (by simp)
    have h3 := hB a (by simp)
    simp only [List.map_cons, List.sum_cons]
    simp only [List.map_map] at h1 ⊢
    nlinarith

theorem le_wsum {α : Type} {l : List (α × ℚ)} {v : α → ℚ} {B : ℚ} (hw : ∀ p ∈ l, 0 < p.2) (hB : ∀ p ∈ l, B ≤ v p.1) :
    B * wtotal l ≤ wsum (l.map fun p => (v p.1, p.2)) := by
  unfold wsum wtotal
  induction l with
  | nil => simp
  | cons a l ih =>
    have h1 := ih (fun p hp => hw p (by simp [hp])) (fun p hp => hB p (by simp [hp]))
    have h2 := hw a (by simp)
    have h3 := hB a (by simp)
    simp only [List.map_cons, List.sum_cons]
    simp only [List.map_map] at h1 ⊢
    nlinarith

/-- **C146**, range: for every nonempty object with positive weights on a grid of `nx` columns the centroid column lies in `[0, nx)`. -/
theorem C146_in_range (periodic : Bool) (nx : Nat) (cells : List (Nat × ℚ)) (hne : cells ≠ []) (hw : ∀ p ∈ cells, 0 < p.2)
    (hx : ∀ p ∈ cells, p.1 < nx) :
    0 ≤ xCentroid periodic nx cells ∧ xCentroid periodic nx cells < nx := by
  have ht := wtotal_pos hne hw
  have hnx : 0 < nx := by
    obtain ⟨a, ha⟩ := List.exists_mem_of_ne_nil _ hne
    exact Nat.lt_of_le_of_lt (Nat.zero_le _) (hx a ha)
  have hnq : (0 : ℚ) < nx := by exact_mod_cast hnx
  unfold xCentroid
  split
  · dsimp only
    have hup := wsum_le (v := adjCol nx) (B := (nx : ℚ) / 2) hw (by
      intro p hp
      unfold adjCol
      have := hx p hp
      have h0 : (p.1 : ℚ) < nx := by exact_mod_cast this
      split
      · linarith
      · rename_i h
        have : p.1 * 2 ≤ nx := by omega
        have : (p.1 : ℚ) * 2 ≤ nx := by exact_mod_cast this
        linarith)
    have hlo := le_wsum (v := adjCol nx) (B := -(nx : ℚ) / 2) hw (by
      intro p hp
      unfold adjCol
      split
      · rename_i h
        have : nx ≤ p.1 * 2 := by omega
        have : (nx : ℚ) ≤ p.1 * 2 := by exact_mod_cast this
        linarith
      · have : (0 : ℚ) ≤ p.1 := by positivity
        linarith)
    have h1 : wsum (cells.map fun p => (adjCol nx p.1, p.2)) / wtotal cells ≤ (nx : ℚ) / 2 := by
      rw [div_le_iff₀ ht]; exact hup
    have h2 : -(nx : ℚ) / 2 ≤ wsum (cells.map fun p => (adjCol nx p.1, p.2)) / wtotal cells := by
      rw [le_div_iff₀ ht]; exact hlo
    split
    · constructor <;> linarith
    · constructor <;> linarith
  · have hup := wsum_le (v := fun x : Nat => (x : ℚ)) (B := (nx : ℚ) - 1) hw (by
      intro p hp
      have := hx p hp
      have : p.1 + 1 ≤ nx := this
      have : (p.1 : ℚ) + 1 ≤ nx := by exact_mod_cast this
      linarith)
    have hlo := le_wsum (v := fun x : Nat => (x : ℚ)) (B := 0) hw (by intro p _; positivity)
    constructor
    · rw [le_div_iff₀ ht]; exact hlo
    · rw [div_lt_iff₀ ht]; nlinarith

/-- **C146**, rows: the centroid row is the weighted mean of the rows, and lies between the smallest and the largest row. -/
theorem C146_row (cells : List (Nat × ℚ)) (hne : cells ≠ []) (hw : ∀ p ∈ cells, 0 < p.2) (lo hi : Nat) (hr : ∀ p ∈ cells, lo ≤ p.1 ∧ p.1 ≤ hi) :
    yCentroid cells = weightedMean (cells.map fun p => ((p.1 : ℚ), p.2)) ∧ (lo : ℚ) ≤ yCentroid cells ∧ yCentroid cells ≤ hi := by
  have ht := wtotal_pos hne hw
  refine ⟨?_, ?_, ?_⟩
  · simp only [yCentroid, weightedMean, wsum, wtotal, List.map_map, Function.comp_def]
  · unfold yCentroid
    rw [le_div_iff₀ ht]
    exact le_wsum (v := fun x : Nat => (x : ℚ)) hw (fun p hp => by exact_mod_cast (hr p hp).1)
  · unfold yCentroid
    rw [div_le_iff₀ ht]
    exact wsum_le (v := fun x : Nat => (x : ℚ)) hw (fun p hp => by exact_mod_cast (hr p hp).2)

-- two cells at rows 3 and 4, the second three times as large
example : yCentroid [(3, 1), (4, 3)] = 15 / 4 := by decide +kernel

/-- **C146**, columns away from the seam: an object that does not have cells within 100 columns of both edges of the grid, and every object
in regional mode, gets the weighted mean of its columns. -/
theorem C146_inner_column (periodic : Bool) (nx : Nat) (cells : List (Nat × ℚ))
    (h : periodic = false ∨ (∀ p ∈ cells, 100 ≤ p.1) ∨ ∀ p ∈ cells, p.1 + 100 < nx) :
    xCentroid periodic nx cells = weightedMean (cells.map fun p => ((p.1 : ℚ), p.2)) := by
  have hn : (periodic && nearBoth nx cells) = false := by
    rcases h with rfl | h | h
    · rfl
    · have : (cells.any fun p => decide (p.1 < 100)) = false := by
        rw [List.any_eq_false]; intro p hp; have := h p hp; simp; omega
      simp [nearBoth, this]
    · have : (cells.any fun p => decide (nx ≤ p.1 + 100)) = false := by
        rw [List.any_eq_false]; intro p hp; have := h p hp; simp; omega
      simp [nearBoth, this]
  unfold xCentroid
  rw [hn]
  simp [weightedMean, wsum, wtotal, List.map_map, Function.comp_def]

-- regional mode, two cells at the two edges: the mean is in the middle
example : xCentroid false 360 [(0, 1), (359, 1)] = 359 / 2 := by decide +kernel

theorem wsum_shift {l : List (Nat × ℚ)} {v : Nat → ℚ} {k : ℚ} (h : ∀ p ∈ l, v p.1 = p.1 + k) :
    wsum (l.map fun p => (v p.1, p.2)) = wsum (l.map fun p => ((p.1 : ℚ), p.2)) + k * wtotal l := by
  unfold wsum wtotal
  induction l with
  | nil => simp
  | cons a l ih =>
    have h1 := ih (fun p hp => h p (by simp [hp]))
    have h2 := h a (by simp)
    simp only [List.map_cons, List.sum_cons]
    simp only [List.map_map] at h1 ⊢
    rw [h1, h2]; ring

/-- **C25**, proved part: let an object occupy columns `(s + d) mod nx` with all offsets `d < L`, where `L` is at most half the grid and
`L + 198 < nx` (the second condition follows from the first on grids of more than 396 columns). If, when the object reaches across the
seam, it has cells within 100 columns of the seam on both sides, then its centroid is `s` plus the weighted mean offset, wrapped into
`[0, nx)`. In particular rotating the object rotates its centroid by the same amount modulo `nx`.
Missing: objects on coarse grids and objects crossing the seam without cells near it (`C25_coarse_grid_fails`, `C25_inner_object_fails`,
`C25_pieces_fails`). -/
theorem C25_rotates_partial (nx s L : Nat) (off : List (Nat × ℚ)) (hne : off ≠ []) (hw : ∀ p ∈ off, 0 < p.2)
    (hs : s < nx) (hL : ∀ p ∈ off, p.1 < L) (hhalf : 2 * L ≤ nx) (hcoarse : L + 198 < nx)
    (hseam : nx < s + L → (∃ p ∈ off, (s + p.1) % nx < 100) ∧ ∃ p ∈ off, nx ≤ (s + p.1) % nx + 100) :
    WrapsTo nx (s + weightedMean (off.map fun p => ((p.1 : ℚ), p.2))) (xCentroid true nx (placed nx s off)) := by
  have hr := C146_in_range true nx (placed nx s off) (by simpa [placed] using hne)
    (by intro p hp; obtain ⟨q, hq, rfl⟩ := List.mem_map.mp hp; exact hw q hq)
    (by intro p hp; obtain ⟨q, hq, rfl⟩ := List.mem_map.mp hp; exact Nat.mod_lt _ (by omega))
  refine ⟨hr.1, hr.2, ?_⟩
  have ht := wtotal_pos hne hw
  have htot : wtotal (placed nx s off) = wtotal off := by
    unfold wtotal placed; rw [List.map_map]; rfl
  have hmean : weightedMean (off.map fun p => ((p.1 : ℚ), p.2)) = wsum (off.map fun p => ((p.1 : ℚ), p.2)) / wtotal off := by
    unfold weightedMean wsum wtotal; rw [List.map_map (g := fun x : ℚ × ℚ => x.2)]; rfl
  rw [hmean]
  by_cases hcross : nx < s + L
  · obtain ⟨⟨p, hp, hp1⟩, q, hq, hq1⟩ := hseam hcross
    have hnb : nearBoth nx (placed nx s off) = true := by
      unfold nearBoth
      rw [Bool.and_eq_true, List.any_eq_true, List.any_eq_true]
      exact ⟨⟨_, List.mem_map_of_mem hp, by simpa using hp1⟩, ⟨_, List.mem_map_of_mem hq, by simpa using hq1⟩⟩
    unfold xCentroid
    rw [if_pos (by simp [hnb]), htot]
    have hsum : wsum ((placed nx s off).map fun p => (adjCol nx p.1, p.2))
        = wsum (off.map fun p => ((p.1 : ℚ), p.2)) + ((s : ℚ) - nx) * wtotal off := by
      rw [← wsum_shift (v := fun d => adjCol nx ((s + d) % nx))]
      · unfold placed; rw [List.map_map]; rfl
      · intro p hp
        have hpL := hL p hp
        unfold adjCol
        by_cases hc : s + p.1 < nx
        · rw [Nat.mod_eq_of_lt hc, if_pos (by omega)]; push_cast; ring
        · have h3 : (s + p.1) % nx = s + p.1 - nx := by
            rw [Nat.mod_eq_sub_mod (by omega), Nat.mod_eq_of_lt (by omega)]
          rw [h3, if_neg (by omega), Nat.cast_sub (by omega)]; push_cast; ring
    rw [hsum]
    have hdiv : (wsum (off.map fun p => ((p.1 : ℚ), p.2)) + ((s : ℚ) - nx) * wtotal off) / wtotal off
        = wsum (off.map fun p => ((p.1 : ℚ), p.2)) / wtotal off + (s - nx) := by
      rw [add_div, mul_div_cancel_right₀ _ (ne_of_gt ht)]
    rw [hdiv]
    dsimp only
    split
    · exact ⟨0, by push_cast; ring⟩
    · exact ⟨-1, by push_cast; ring⟩
  · have hmod : ∀ p ∈ off, (s + p.1) % nx = s + p.1 := fun p hp => Nat.mod_eq_of_lt (by have := hL p hp; omega)
    have hnb : ¬ nearBoth nx (placed nx s off) = true := by
      unfold nearBoth
      rw [Bool.and_eq_true, List.any_eq_true, List.any_eq_true]
      rintro ⟨⟨a, ha, ha1⟩, b, hb, hb1⟩
      obtain ⟨p, hp, rfl⟩ := List.mem_map.mp ha
      obtain ⟨q, hq, rfl⟩ := List.mem_map.mp hb
      simp only [decide_eq_true_eq, hmod p hp, hmod q hq] at ha1 hb1
      have := hL q hq
      omega
    unfold xCentroid
    rw [if_neg (by simpa using hnb), htot]
    have hsum : wsum ((placed nx s off).map fun p => ((p.1 : ℚ), p.2))
        = wsum (off.map fun p => ((p.1 : ℚ), p.2)) + (s : ℚ) * wtotal off := by
      rw [← wsum_shift (v := fun d => (((s + d) % nx : Nat) : ℚ))]
      · unfold placed; rw [List.map_map]; rfl
      · intro p hp
        rw [hmod p hp]; push_cast; ring
    rw [hsum, add_div, mul_div_cancel_right₀ _ (ne_of_gt ht)]
    exact ⟨0, by push_cast; ring⟩

-- non-vacuity: an object of width 20 across the seam of a 1440-column grid
example : let off : List (Nat × ℚ) := (List.range 20).map fun d => (d, 1)
    xCentroid true 1440 (placed 1440 1435 off) = 1435 + 19/2 - 1440 ∧ xCentroid true 1440 (placed 1440 700 off) = 700 + 19/2 ∧
    (1440 : Nat) < 1435 + 20 ∧ (∃ p ∈ off, (1435 + p.1) % 1440 < 100) ∧ ∃ p ∈ off, 1440 ≤ (1435 + p.1) % 1440 + 100 := by
  refine ⟨by decide +kernel, by decide +kernel, by decide +kernel, ⟨(10, 1), by decide +kernel, by decide +kernel⟩, ⟨(0, 1), by decide +kernel, by decide +kernel⟩⟩

/-- **C25** fails on every grid with 4 to 100 columns: an object of two neighbouring cells in the middle of the grid, at columns
`nx / 2` and `nx / 2 + 1`, gets a centroid near column 0, on the opposite side of the globe. -/
theorem C25_coarse_grid_fails (nx : Nat) (h4 : 4 ≤ nx) (h100 : nx ≤ 100) :
    xCentroid true nx [(nx / 2, 1), (nx / 2 + 1, 1)] = if nx % 2 = 0 then 1 / 2 else 0 := by
  have hnb : nearBoth nx [((nx / 2 : Nat), (1 : ℚ)), (nx / 2 + 1, 1)] = true := by
    simp [nearBoth]; omega
  have a1 : adjCol nx (nx / 2) = ((nx / 2 : Nat) : ℚ) := by unfold adjCol; exact if_neg (by omega)
  have a2 : adjCol nx (nx / 2 + 1) = ((nx / 2 : Nat) : ℚ) + 1 - nx := by
    unfold adjCol; rw [if_pos (by omega)]; rw [Nat.cast_add, Nat.cast_one]
  have h : ((nx / 2 : Nat) : ℚ) * 2 + ((nx % 2 : Nat) : ℚ) = nx := by
    exact_mod_cast (by omega : nx / 2 * 2 + nx % 2 = nx)
  unfold xCentroid
  rw [if_pos (by simp [hnb])]
  simp only [wsum, wtotal, List.map_cons, List.map_nil, List.sum_cons, List.sum_nil, a1, a2]
  generalize ((nx / 2 : Nat) : ℚ) = k at h
  rw [← h]
  rcases Nat.mod_two_eq_zero_or_one nx with h0 | h0
  · rw [h0]
    ring_nf
    norm_num
  · rw [h0]
    ring_nf
    norm_num

theorem wsum_split {l : List (Nat × ℚ)} {v : Nat → ℚ} {k m : ℚ} (P : Nat → Bool) (h : ∀ p ∈ l, v p.1 = p.1 + k - if P p.1 then m else 0) :
    wsum (l.map fun p => (v p.1, p.2)) = wsum (l.map fun p => ((p.1 : ℚ), p.2)) + k * wtotal l - m * wtotal (l.filter fun p => P p.1) := by
  unfold wsum wtotal
  induction l with
  | nil => simp
  | cons a l ih =>
    have h1 := ih (fun p hp => h p (by simp [hp]))
    have h2 := h a (by simp)
    simp only [List.map_cons, List.sum_cons, List.filter_cons]
    simp only [List.map_map] at h1 ⊢
    rw [h1, h2]
    cases P a.1 <;> simp <;> ring

/-- Weight on both sides of a division of the cells. -/
theorem wtotal_filter_between {l : List (Nat × ℚ)} (hw : ∀ p ∈ l, 0 < p.2) (P : Nat → Bool) (h1 : ∃ p ∈ l, P p.1 = true) (h2 : ∃ p ∈ l, P p.1 = false) :
    0 < wtotal (l.filter fun p => P p.1) ∧ wtotal (l.filter fun p => P p.1) < wtotal l := by
  have hsum : wtotal l = wtotal (l.filter fun p => P p.1) + wtotal (l.filter fun p => !P p.1) := by
    unfold wtotal
    clear h1 h2 hw
    induction l with
    | nil => simp
    | cons a l ih =>
      simp only [List.map_cons, List.sum_cons, List.filter_cons, ih]
      cases P a.1 <;> simp <;> ring
  obtain ⟨p, hp, hp1⟩ := h1
  obtain ⟨q, hq, hq1⟩ := h2
  have a1 := wtotal_pos (l := l.filter fun p => P p.1) (List.ne_nil_of_mem (List.mem_filter.2 ⟨hp, hp1⟩)) (fun r hr => hw r (List.mem_filter.1 hr).1)
  have a2 := wtotal_pos (l := l.filter fun p => !P p.1) (List.ne_nil_of_mem (List.mem_filter.2 ⟨hq, by simp [hq1]⟩)) (fun r hr => hw r (List.mem_filter.1 hr).1)
  exact ⟨a1, by linarith⟩

/-- A centroid that is off by a proper fraction of a turn is not the true one. -/
theorem not_wrapsTo {nx : Nat} (hnx : 0 < nx) {x y f : ℚ} (hy : ∃ j : ℤ, y = x - nx * f + j * nx) (h0 : 0 < f) (h1 : f < 1) : ¬ WrapsTo nx x y := by
  rintro ⟨_, _, k, hk⟩
  obtain ⟨j, hj⟩ := hy
  have hn : (nx : ℚ) ≠ 0 := by positivity
  have hf : f = ((j - k : ℤ) : ℚ) := by
    have : (nx : ℚ) * f = nx * ((j - k : ℤ) : ℚ) := by push_cast; linarith
    exact mul_left_cancel₀ hn this
  rw [hf] at h0 h1
  have a : 0 < j - k := by exact_mod_cast h0
  have b : j - k < 1 := by exact_mod_cast h1
  omega

/-- **C25** fails for every object that does not cross the seam, has cells within 100 columns of both edges of the grid and cells in both halves: its centroid is
not the mean of its columns, not even up to whole turns. On grids of at most 396 columns (1° and coarser) there are such objects of at most half
the grid, on grids of fewer than 200 columns every object across the middle is one. -/
theorem C25_inner_object_fails (nx s : Nat) (off : List (Nat × ℚ)) (hw : ∀ p ∈ off, 0 < p.2) (hin : ∀ p ∈ off, s + p.1 < nx)
    (hl : ∃ p ∈ off, s + p.1 < 100) (hr : ∃ p ∈ off, nx ≤ s + p.1 + 100) (h1 : ∃ p ∈ off, s + p.1 ≤ nx / 2) (h2 : ∃ p ∈ off, nx / 2 < s + p.1) :
    ¬ WrapsTo nx (s + weightedMean (off.map fun p => ((p.1 : ℚ), p.2))) (xCentroid true nx (placed nx s off)) := by
  obtain ⟨p1, hp1, _⟩ := h1
  have hnx : 0 < nx := Nat.lt_of_le_of_lt (Nat.zero_le _) (hin p1 hp1)
  have hne : off ≠ [] := List.ne_nil_of_mem hp1
  have ht := wtotal_pos hne hw
  have hmod : ∀ p ∈ off, (s + p.1) % nx = s + p.1 := fun p hp => Nat.mod_eq_of_lt (hin p hp)
  have htot : wtotal (placed nx s off) = wtotal off := by
    unfold wtotal placed; rw [List.map_map]; rfl
  have hmean : weightedMean (off.map fun p => ((p.1 : ℚ), p.2)) = wsum (off.map fun p => ((p.1 : ℚ), p.2)) / wtotal off := by
    unfold weightedMean wsum wtotal; rw [List.map_map (g := fun x : ℚ × ℚ => x.2)]; rfl
  have hnb : nearBoth nx (placed nx s off) = true := by
    obtain ⟨a, ha, ha1⟩ := hl
    obtain ⟨b, hb, hb1⟩ := hr
    unfold nearBoth
    rw [Bool.and_eq_true, List.any_eq_true, List.any_eq_true]
    exact ⟨⟨_, List.mem_map_of_mem ha, by simpa [hmod a ha] using ha1⟩, ⟨_, List.mem_map_of_mem hb, by simpa [hmod b hb] using hb1⟩⟩
  obtain ⟨f0, f1⟩ := wtotal_filter_between hw (fun d => decide (nx / 2 < s + d)) (by obtain ⟨q, hq, h⟩ := h2; exact ⟨q, hq, by simpa using h⟩)
    ⟨p1, hp1, by simpa using (by assumption : s + p1.1 ≤ nx / 2)⟩
  have hsum : wsum ((placed nx s off).map fun p => (adjCol nx p.1, p.2)) =
      wsum (off.map fun p => ((p.1 : ℚ), p.2)) + (s : ℚ) * wtotal off - (nx : ℚ) * wtotal (off.filter fun p => decide (nx / 2 < s + p.1)) := by
    rw [← wsum_split (v := fun d => adjCol nx ((s + d) % nx)) (fun d => decide (nx / 2 < s + d))]
    · unfold placed; rw [List.map_map]; rfl
    · intro p hp
      rw [hmod p hp]
      unfold adjCol
      by_cases h : nx / 2 < s + p.1
      · simp only [h, if_true, decide_true]; push_cast; ring
      · simp only [h, if_false, decide_false]; push_cast; simp; ring
  have hc : wsum ((placed nx s off).map fun p => (adjCol nx p.1, p.2)) / wtotal (placed nx s off) =
      s + weightedMean (off.map fun p => ((p.1 : ℚ), p.2)) - nx * (wtotal (off.filter fun p => decide (nx / 2 < s + p.1)) / wtotal off) := by
    rw [hsum, htot, hmean]
    field_simp
    ring
  refine not_wrapsTo hnx ?_ (div_pos f0 ht) ((div_lt_one ht).2 f1)
  unfold xCentroid
  rw [if_pos (by simp [hnb])]
  dsimp only
  rw [hc]
  split
  · exact ⟨1, by push_cast; ring⟩
  · exact ⟨0, by push_cast; ring⟩

/-- On a 1° grid an object of 162 columns (fewer than half), from column 99 to column 260, has its middle at column 179.5 but gets the centroid column
1.72…; moved by 40 columns it gets the right centroid 219.5. -/
example : let off : List (Nat × ℚ) := (List.range 162).map fun d => (d, 1)
    (¬ WrapsTo 360 ((99 : Nat) + weightedMean (off.map fun p => ((p.1 : ℚ), p.2))) (xCentroid true 360 (placed 360 99 off))) ∧
    xCentroid true 360 (placed 360 99 off) = 179 + 1 / 2 - 360 * 80 / 162 ∧ xCentroid true 360 (placed 360 139 off) = 219 + 1 / 2 := by
  refine ⟨C25_inner_object_fails 360 99 _ (by simp) ?_ ⟨(0, 1), by decide +kernel, by decide⟩ ⟨(161, 1), by decide +kernel, by decide⟩
    ⟨(0, 1), by decide +kernel, by decide⟩ ⟨(161, 1), by decide +kernel, by decide⟩, by decide +kernel, by decide +kernel⟩
  simp
  omega

/-- **C25** fails for every event across the seam with no cell within 100 columns of it on one of its sides (an event made of separate pieces): its centroid is
not where it is, not even up to whole turns. -/
theorem C25_pieces_fails (nx s : Nat) (off : List (Nat × ℚ)) (hw : ∀ p ∈ off, 0 < p.2) (hs : s < nx) (hL : ∀ p ∈ off, p.1 < nx)
    (hfar : (∀ p ∈ off, 100 ≤ (s + p.1) % nx) ∨ ∀ p ∈ off, (s + p.1) % nx + 100 < nx)
    (h1 : ∃ p ∈ off, s + p.1 < nx) (h2 : ∃ p ∈ off, nx ≤ s + p.1) :
    ¬ WrapsTo nx (s + weightedMean (off.map fun p => ((p.1 : ℚ), p.2))) (xCentroid true nx (placed nx s off)) := by
  have hnx : 0 < nx := by omega
  obtain ⟨p1, hp1, hq1⟩ := h1
  have hne : off ≠ [] := List.ne_nil_of_mem hp1
  have ht := wtotal_pos hne hw
  have htot : wtotal (placed nx s off) = wtotal off := by
    unfold wtotal placed; rw [List.map_map]; rfl
  have hmean : weightedMean (off.map fun p => ((p.1 : ℚ), p.2)) = wsum (off.map fun p => ((p.1 : ℚ), p.2)) / wtotal off := by
    unfold weightedMean wsum wtotal; rw [List.map_map (g := fun x : ℚ × ℚ => x.2)]; rfl
  have hnb : ¬ nearBoth nx (placed nx s off) = true := by
    unfold nearBoth
    rw [Bool.and_eq_true, List.any_eq_true, List.any_eq_true]
    rintro ⟨⟨a, ha, ha1⟩, b, hb, hb1⟩
    obtain ⟨p, hp, rfl⟩ := List.mem_map.mp ha
    obtain ⟨q, hq, rfl⟩ := List.mem_map.mp hb
    simp only [decide_eq_true_eq] at ha1 hb1
    rcases hfar with h | h
    · have := h p hp; omega
    · have := h q hq; omega
  obtain ⟨f0, f1⟩ := wtotal_filter_between hw (fun d => decide (nx ≤ s + d)) (by obtain ⟨q, hq, h⟩ := h2; exact ⟨q, hq, by simpa using h⟩)
    ⟨p1, hp1, by simpa using hq1⟩
  have hsum : wsum ((placed nx s off).map fun p => ((p.1 : ℚ), p.2)) =
      wsum (off.map fun p => ((p.1 : ℚ), p.2)) + (s : ℚ) * wtotal off - (nx : ℚ) * wtotal (off.filter fun p => decide (nx ≤ s + p.1)) := by
    rw [← wsum_split (v := fun d => (((s + d) % nx : Nat) : ℚ)) (fun d => decide (nx ≤ s + d))]
    · unfold placed; rw [List.map_map]; rfl
    · intro p hp
      have := hL p hp
      by_cases h : nx ≤ s + p.1
      · rw [Nat.mod_eq_sub_mod h, Nat.mod_eq_of_lt (by omega), Nat.cast_sub h]
        simp only [h, if_true, decide_true]; push_cast; ring
      · rw [Nat.mod_eq_of_lt (by omega)]
        simp only [h, if_false, decide_false]; push_cast; simp; ring
  refine not_wrapsTo (f := wtotal (off.filter fun p => decide (nx ≤ s + p.1)) / wtotal off) hnx ⟨0, ?_⟩ (div_pos f0 ht) ((div_lt_one ht).2 f1)
  unfold xCentroid
  rw [if_neg (by simpa using hnb), hsum, htot, hmean]
  field_simp
  push_cast
  ring

/-- On 1440 columns an event at columns 1300 and 140 (280 columns wide) gets its centroid at column 720 instead of 0. -/
example : (¬ WrapsTo 1440 ((1300 : Nat) + weightedMean ([((0 : Nat), (1 : ℚ)), (280, 1)].map fun p => ((p.1 : ℚ), p.2))) (xCentroid true 1440 (placed 1440 1300 [(0, 1), (280, 1)]))) ∧
    xCentroid true 1440 [(1300, 1), (140, 1)] = 720 :=
  ⟨C25_pieces_fails 1440 1300 _ (by simp) (by norm_num) (by simp) (by simp) (by simp) (by simp), by decide +kernel⟩

/-- **C146**, longitude of the centroid on an evenly spaced grid: for a centroid up to the last column the reported longitude is exact;
beyond it (between the last column and the seam) it is the last longitude. Hence it is never off by more than one grid spacing. -/
theorem C146_longitude (nx : Nat) (hnx : 0 < nx) (lon0 dx c : ℚ) (h0 : 0 ≤ c) :
    npInterp nx (fun k => lon0 + dx * k) c = lon0 + dx * min c (nx - 1) := by
  unfold npInterp
  have h1 : ((nx - 1 : Nat) : ℚ) = nx - 1 := by rw [Nat.cast_sub (by omega)]; simp
  split
  · rename_i h
    have : c = 0 := le_antisymm h h0
    have h2 : (1 : ℚ) ≤ nx := by exact_mod_cast hnx
    rw [this, min_eq_left (by linarith)]; simp
  · split
    · rename_i h; rw [min_eq_right h, ← h1]
    · rename_i h
      rw [min_eq_left (by linarith)]
      have hf : ((⌊c⌋.toNat : Nat) : ℚ) = ⌊c⌋ := by
        have h3 : (0 : ℤ) ≤ ⌊c⌋ := Int.floor_nonneg.mpr h0
        have : ((⌊c⌋.toNat : Nat) : ℤ) = ⌊c⌋ := Int.toNat_of_nonneg h3
        exact_mod_cast this
      push_cast
      rw [hf]; ring

example : npInterp 4 (fun k => 10 + 90 * k) (7/2) = 280 ∧ npInterp 4 (fun k => 10 + 90 * k) (5/2) = 235 := by decide +kernel

end MarEx.Props
