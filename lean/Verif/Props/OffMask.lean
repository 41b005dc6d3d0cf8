import Verif.Props.Pipeline
import Verif.Props.AreaStats
import Verif.Props.Morphology
import Verif.Props.Mesh
/-! C184: marks outside the mask. -/
namespace MarEx.Props
open MarEx Spec

/-- Two records have the same length and the same marks on the cells of the mask. -/
def SameOnMask {n : Nat} (mask : Fin n → Bool) (data data' : List (Fin n → Bool)) : Prop :=
  List.Forall₂ (fun f g => ∀ i, mask i = true → f i = g i) data data'

/-- **C184**, structured grids without hole filling (`R_fill = 0`), every time-gap length, area criterion, merging setting and chunking: two records that
agree on the cells of the mask give the same preprocessed field and the same `ID_field`, or the same error.  Missing: `R_fill ≥ 1`. -/
theorem C184_grid_without_filling_partial (cc : Labeller) {ny nx : Nat} (p : GridRun ny nx) (hR : p.R = 0) (chunks : List Nat)
    (data data' : List (Fin (ny * nx) → Bool)) (h : SameOnMask p.mask data data') :
    runGrid cc p chunks data = runGrid cc p chunks data' := by
  have hmap : data.map (fillFrameGrid p.regional ny nx p.mask p.R) = data'.map (fillFrameGrid p.regional ny nx p.mask p.R) := by
    rw [hR]
    induction h with
    | nil => rfl
    | cons h12 _ ih =>
      rw [List.map_cons, List.map_cons, ih]
      congr 1
      funext i
      rw [Bool.eq_iff_iff]
      unfold fillFrameGrid ofImg
      rw [C06_radius_zero, C06_radius_zero, toImg_ofImg, toImg_ofImg, toImg_ofImg]
      constructor
      · rintro ⟨h1, h2⟩; exact ⟨by rw [← h12 i h2]; exact h1, h2⟩
      · rintro ⟨h1, h2⟩; exact ⟨by rw [h12 i h2]; exact h1, h2⟩
  have hs : fillStagesGrid p data = fillStagesGrid p data' := by
    unfold fillStagesGrid; rw [hmap]
  unfold runGrid preprocessGrid
  rw [hs]

/-- An example of such records: a mark on the first cell, which is outside the mask. -/
example : SameOnMask (n := 3) (fun i => i ≠ 0) [fun i => i = 1, fun _ => true] [fun i => i.val ≤ 1, fun i => i ≠ 0] := by
  unfold SameOnMask
  refine .cons (by decide) (.cons (by decide) .nil)

theorem closeTimeGaps_cell {n : Nat} (T : Nat) (hT : T % 2 = 0) (fs gs : List (Fin n → Bool)) (c : Fin n)
    (h : ∀ t, ExtremeAt fs t c ↔ ExtremeAt gs t c) (t : Nat) : ExtremeAt (closeTimeGaps T fs) t c ↔ ExtremeAt (closeTimeGaps T gs) t c := by
  rw [(C01_time_gaps_filled_exactly T hT fs).2, (C01_time_gaps_filled_exactly T hT gs).2]
  unfold InGap
  simp only [h]

theorem SameOnMask.iff {n : Nat} {mask : Fin n → Bool} {fs gs : List (Fin n → Bool)} :
    SameOnMask mask fs gs ↔ fs.length = gs.length ∧ ∀ i, mask i = true → ∀ t, ExtremeAt fs t i ↔ ExtremeAt gs t i := by
  unfold SameOnMask
  rw [List.forall₂_iff_get]
  constructor
  · rintro ⟨hl, h⟩
    refine ⟨hl, fun i hi t => ?_⟩
    unfold ExtremeAt
    by_cases ht : t < fs.length
    · have := h t ht (hl ▸ ht) i hi
      rw [List.getElem?_eq_getElem ht, List.getElem?_eq_getElem (hl ▸ ht)]
      simp only [Option.some.injEq, exists_eq_left']
      simp only [List.get_eq_getElem] at this
      rw [this]
    · rw [List.getElem?_eq_none (by omega), List.getElem?_eq_none (by omega)]
  · rintro ⟨hl, h⟩
    refine ⟨hl, fun t h1 h2 i hi => ?_⟩
    have := h i hi t
    unfold ExtremeAt at this
    rw [List.getElem?_eq_getElem h1, List.getElem?_eq_getElem h2] at this
    simp only [Option.some.injEq, exists_eq_left'] at this
    rw [Bool.eq_iff_iff]
    exact this

theorem SameOnMask.map {n : Nat} {mask : Fin n → Bool} {fs gs : List (Fin n → Bool)} (h : SameOnMask mask fs gs)
    (F : (Fin n → Bool) → Fin n → Bool) (hF : ∀ f i, mask i = true → F f i = f i) : SameOnMask mask (fs.map F) (gs.map F) := by
  unfold SameOnMask at *
  rw [List.forall₂_map_left_iff, List.forall₂_map_right_iff]
  exact h.imp fun f g hfg i hi => by rw [hF f i hi, hF g i hi, hfg i hi]

/-- **C184**, meshes without hole filling (`R_fill = 0`), every time-gap length the tracker accepts (even), every area criterion: two records that agree on
the cells of the mask give the same preprocessed field and the same `ID_field`, or the same error.  Missing: `R_fill ≥ 1`. -/
theorem C184_mesh_without_filling_partial (cc : Labeller) {n : Nat} (p : MeshRun n) (hR : p.R = 0) (hT : p.T % 2 = 0)
    (data data' : List (Fin n → Bool)) (h : SameOnMask p.mask data data') : runMesh cc p data = runMesh cc p data' := by
  have hz : ∀ f i, p.mask i = true → fillHolesMesh (dilationRow p.nbr) p.mask 0 f i = f i :=
    fun f i hi => C04_radius_zero p.nbr p.mask f i hi
  have h1 := h.map (fillHolesMesh (dilationRow p.nbr) p.mask 0) hz
  have h2 : SameOnMask p.mask
      (fillTimeGaps (fillHolesMesh (dilationRow p.nbr) p.mask) p.T p.R (data.map (fillHolesMesh (dilationRow p.nbr) p.mask p.R)))
      (fillTimeGaps (fillHolesMesh (dilationRow p.nbr) p.mask) p.T p.R (data'.map (fillHolesMesh (dilationRow p.nbr) p.mask p.R))) := by
    rw [hR]
    unfold fillTimeGaps
    split
    · exact h1
    · refine SameOnMask.map ?_ _ hz
      rw [SameOnMask.iff] at h1 ⊢
      refine ⟨by rw [length_closeTimeGaps, length_closeTimeGaps]; exact h1.1, fun i hi t => ?_⟩
      exact closeTimeGaps_cell p.T hT _ _ i (h1.2 i hi) t
  have h3 : ∀ fs gs, SameOnMask p.mask fs gs → fs.map (identifyObjectsMesh cc p.nbr p.mask) = gs.map (identifyObjectsMesh cc p.nbr p.mask) := by
    intro fs gs hs
    unfold SameOnMask at hs
    induction hs with
    | nil => rfl
    | @cons f g fs gs h12 _ ih =>
      rw [List.map_cons, List.map_cons, ih]
      congr 1
      unfold identifyObjectsMesh
      have : (fun i => p.mask i && f i) = fun i => p.mask i && g i := by
        funext i
        cases hm : p.mask i
        · rfl
        · rw [h12 i hm]
      rw [this]
  unfold runMesh preprocessMesh
  rw [h3 _ _ h2]

/-- **C184** fails for every `R_fill ≥ 1` on meshes: wherever every ocean cell has a cell outside the mask within `R_fill` hops, marks on the cells outside
the mask, and nowhere else, make every ocean cell extreme after hole filling, while a record without marks stays empty. -/
theorem C184_mesh_filling_fails {n : Nat} (nbr : NbrTable n) (hs : SymmetricTable nbr) (mask : Fin n → Bool) (R : Nat)
    (hland : ∀ l, mask l = true → ∃ m, mask m = false ∧ WithinHops nbr R l m) :
    SameOnMask mask [fun i => !mask i] [fun _ => false] ∧
    ∀ i, mask i = true → fillHolesMesh (dilationRow nbr) mask R (fun i => !mask i) i = true ∧
      fillHolesMesh (dilationRow nbr) mask R (fun _ => false) i = false := by
  refine ⟨.cons (fun i hi => by simp [hi]) .nil, fun i hi => ⟨?_, ?_⟩⟩
  · rw [C04_open_close_characterisation]
    refine ⟨i, .here _ _, fun k _ _ l _ hl => ?_⟩
    obtain ⟨m, hm, hw⟩ := hland l hl
    exact ⟨m, by simp [hm], hw⟩
  · rw [Bool.eq_false_iff]
    intro hc
    obtain ⟨k, hk, _⟩ := C144_single_fill_invents_nothing nbr hs mask _ R i hi hc
    cases hk

/-- A strip of five cells with two cells outside the mask. -/
example : SymmetricTable (strip 5) ∧ ∀ l : Fin 5, (fun i : Fin 5 => decide (i ≠ 1 ∧ i ≠ 3)) l = true →
    ∃ m, (fun i : Fin 5 => decide (i ≠ 1 ∧ i ≠ 3)) m = false ∧ WithinHops (strip 5) 1 l m := by
  refine ⟨strip_symmetric 5, ?_⟩
  have h : ∀ a b : Fin 5, (∃ v : Fin 3, strip 5 v a = (b.val : Int) + 1) → WithinHops (strip 5) 1 a b := fun a b hab => .hop hab (.here _ _)
  intro l hl
  have : l = 0 ∨ l = 2 ∨ l = 4 := by revert hl; revert l; decide
  rcases this with rfl | rfl | rfl
  · exact ⟨1, by decide, h _ _ (by decide)⟩
  · exact ⟨1, by decide, h _ _ (by decide)⟩
  · exact ⟨3, by decide, h _ _ (by decide)⟩

/-- **C184** fails for every `R_fill ≥ 1` on grids: on every map, global or regional, on which every cell has a cell outside the mask within distance
`R_fill`, marks on the cells outside the mask, and nowhere else, make every ocean cell at least `2 R_fill` from the edges extreme after hole
filling, while a record without marks stays empty. -/
theorem C184_grid_filling_fails (regional : Bool) (ny nx : Int) (mask : Img) (R : Nat) (f : Img) (hf : ∀ y x, f y x = !mask y x)
    (hland : ∀ y x, ∃ y' x', Within R y x y' x' ∧ Continued regional ny nx f y' x') (y x : Int)
    (hy : 2 * (R : Int) ≤ y ∧ y < ny - 2 * R) (hx : 2 * (R : Int) ≤ x ∧ x < nx - 2 * R) (hm : mask y x = true) :
    f y x = false ∧ fillHolesGrid regional ny nx mask R f y x = true ∧ fillHolesGrid regional ny nx mask R (fun _ _ => false) y x = false := by
  refine ⟨by rw [hf, hm]; rfl, ?_, ?_⟩
  · rw [C87_open_close_partial regional ny nx mask R f y x hy hx]
    refine ⟨hm, y, x, by unfold Within; nlinarith [sq_nonneg (R : Int)], fun y₁ x₁ _ y₂ x₂ _ => hland y₂ x₂⟩
  · rw [Bool.eq_false_iff]
    intro hc
    obtain ⟨dy, dx, _, h⟩ := C06_invents_nothing regional ny nx mask R _ y x ⟨by omega, by omega⟩ ⟨by omega, by omega⟩ hc
    split at h <;> cases h

/-- Every other column of a global map of 12 by 12 cells is outside the mask. -/
example : ∀ y x : Int, ∃ y' x', Within 1 y x y' x' ∧ Continued false 12 12 (fun _ x => decide (x % 2 = 0)) y' x' := by
  intro y x
  rcases Int.emod_two_eq_zero_or_one x with h | h
  · refine ⟨y, x, by unfold Within; norm_num, ?_⟩
    unfold Continued
    simp only [Bool.false_eq_true, if_false, decide_eq_true_eq]
    omega
  · refine ⟨y, x + 1, by unfold Within; norm_num, ?_⟩
    unfold Continued
    simp only [Bool.false_eq_true, if_false, decide_eq_true_eq]
    omega

/-- **C184** fails for the statistics even without filling: the objects are those of the mask, but every mark outside the mask counts in
`preprocessed_area_fraction`.  Of two records with the same objects the one with more marks reports the larger fraction. -/
theorem C184_area_fraction_fails {n : Nat} (labels : List (Fin n → Nat)) (hu : UniqueLabels labels) (c : AreaCriterion) (raw raw' : List (Fin n → Bool))
    (hmore : cellsSet raw < cellsSet raw') (fr : FilterResult n) (r : AreaStats) (h : gridStats c raw labels = .ok (fr, r)) :
    ∃ r', gridStats c raw' labels = .ok (fr, r') ∧ r.preprocessedFraction < r'.preprocessedFraction := by
  obtain ⟨hfr, _, _, hpos, hfrac, _⟩ := (C182_grid labels hu c raw).2.2 fr r h
  have hok : ∃ r', gridStats c raw' labels = .ok (fr, r') := by
    unfold gridStats areaStats at h ⊢
    rw [hfr] at h ⊢
    simp only [] at h ⊢
    split at h
    · cases h
    rename_i s hs
    split at hs
    · cases hs
    rename_i a1
    split at hs
    · cases hs
    rename_i a2
    rw [if_neg a1, if_neg a2]
    exact ⟨_, rfl⟩
  obtain ⟨r', hg⟩ := hok
  refine ⟨r', hg, ?_⟩
  obtain ⟨_, _, _, _, hfrac', _⟩ := (C182_grid labels hu c raw').2.2 fr r' hg
  rw [hfrac, hfrac']
  have : (0 : ℚ) < cellsSet fr.field := by exact_mod_cast hpos
  exact (div_lt_div_iff_of_pos_right this).2 (by exact_mod_cast hmore)

/-- Two cells, two steps; the second record has one more mark, outside the mask. -/
example : (match gridStats (.absolute 1) [fun i : Fin 3 => i = 0, fun i => i = 0] [fun i : Fin 3 => if i = 0 then 1 else 0, fun i => if i = 0 then 2 else 0] with
    | .ok _ => true | .error _ => false) = true ∧
    cellsSet [fun i : Fin 3 => decide (i = 0), fun i => decide (i = 0)] < cellsSet [fun i : Fin 3 => decide (i ≠ 2), fun i => decide (i = 0)] := by
  decide +kernel

end MarEx.Props
