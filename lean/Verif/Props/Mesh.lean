import Verif.Lemmas.Mesh
import Verif.Props.TimeGaps
/-! # C03, C04, C53: hole filling on unstructured meshes -/
namespace MarEx.Props
open MarEx Spec

variable {n : Nat}

/-- **C03.** Dilation by `R` marks a cell iff a marked cell lies within `R` neighbour hops; missing neighbours
(entries `≤ 0`) connect nothing because only entries `j+1` with `0 ≤ j < n` are `ListsNeighbour`. -/
theorem C03_dilation_is_hop_ball (nbr : NbrTable n) (f : Fin n → Bool) (R : Nat) (i : Fin n) :
    sparseBoolPower (dilationRow nbr) f R i = true ↔ ∃ j, f j = true ∧ WithinHops nbr R i j :=
  power_iff

/-- **C03**, which neighbour tables are accepted: the tracker is set up iff no entry names a cell beyond the last one; then a dilation by one
step marks a cell iff the cell itself or one of the neighbours its column lists is marked. -/
theorem C03_table_accepted (nbr : NbrTable n) :
    ((buildDilation nbr).isSome = true ↔ ∀ v c, nbr v c ≤ n) ∧
    ∀ rows, buildDilation nbr = some rows → ∀ (f : Fin n → Bool) (i : Fin n),
      sparseBoolPower rows f 1 i = true ↔ f i = true ∨ ∃ (v : Fin 3) (j : Fin n), nbr v i = (j.val : Int) + 1 ∧ f j = true := by
  have hfit : tableFits nbr = true ↔ ∀ v c, nbr v c ≤ n := by
    unfold tableFits neighboursInt
    simp only [List.all_eq_true, List.mem_finRange, true_implies, decide_eq_true_eq]
    constructor
    · intro h v c; have := h c v; omega
    · intro h c v; have := h v c; omega
  constructor
  · unfold buildDilation
    rw [← hfit]
    by_cases h : tableFits nbr = true <;> simp [h]
  · intro rows hrows f i
    unfold buildDilation at hrows
    split at hrows
    · cases hrows
      simp only [sparseBoolPower, sparseStep, dilationRow, List.any_append, List.any_cons, List.any_nil, Bool.or_false,
        Bool.or_eq_true, List.any_eq_true, List.mem_filterMap, List.mem_finRange, true_and]
      constructor
      · rintro (⟨j, ⟨v, hv⟩, hj⟩ | h)
        · right
          unfold toCell neighboursInt at hv
          split at hv
          · rename_i hk
            cases hv
            exact ⟨v, _, by simp only; omega, hj⟩
          · cases hv
        · exact .inl h
      · rintro (h | ⟨v, j, hv, hj⟩)
        · exact .inr h
        · left
          refine ⟨j, ⟨v, ?_⟩, hj⟩
          unfold toCell neighboursInt
          rw [hv]
          have : 0 ≤ (j.val : Int) + 1 - 1 ∧ ((j.val : Int) + 1 - 1).toNat < n := by have := j.isLt; omega
          rw [dif_pos this]
          congr 1
          apply Fin.ext
          simp
    · cases hrows

-- two cells that are neighbours of each other are accepted; a table naming a third cell is not
example : (buildDilation (n := 2) fun v c => if v = 0 then 2 - (c.val : Int) else 0).isSome = true ∧
    (buildDilation (n := 2) fun _ _ => 3).isSome = false := by decide

/-- **C03**, radius zero and radii adding up. -/
theorem C03_powers_compose (nbr : NbrTable n) (f : Fin n → Bool) (R S : Nat) :
    sparseBoolPower (dilationRow nbr) f 0 = f ∧
    sparseBoolPower (dilationRow nbr) (sparseBoolPower (dilationRow nbr) f S) R
      = sparseBoolPower (dilationRow nbr) f (R + S) := by
  refine ⟨rfl, ?_⟩
  induction R with
  | zero => simp [sparseBoolPower]
  | succ R ih =>
    rw [Nat.add_right_comm]
    simp only [sparseBoolPower, ih]

/-- A strip of `n` cells, each with its left and right neighbour (third neighbour missing): a small real mesh. -/
def strip (n : Nat) : NbrTable n := fun v c =>
  if v = 0 then (c.val : Int)                                   -- left neighbour, 1-based; 0 for the first cell
  else if v = 1 then (if c.val + 1 < n then (c.val : Int) + 2 else 0)   -- right neighbour
  else 0

theorem strip_symmetric (n : Nat) : SymmetricTable (strip n) := by
  rintro i j ⟨v, hv⟩
  have hj := j.isLt
  have hi := i.isLt
  unfold strip at hv
  split at hv
  · refine ⟨1, ?_⟩
    unfold strip
    rw [if_neg (by decide), if_pos rfl, if_pos (by omega)]; omega
  · split at hv
    · refine ⟨0, ?_⟩
      unfold strip
      rw [if_pos rfl]
      split at hv <;> omega
    · omega

example : (List.finRange 9).map (sparseBoolPower (dilationRow (strip 9)) (fun i => i == 4) 2)
    = [false, false, true, true, true, true, true, false, false] := by decide

/-- **C04**, monotone. -/
theorem C04_monotone (nbr : NbrTable n) (mask f g : Fin n → Bool) (R : Nat)
    (hfg : ∀ i, f i = true → g i = true) (i : Fin n)
    (h : fillHolesMesh (dilationRow nbr) mask R f i = true) :
    fillHolesMesh (dilationRow nbr) mask R g i = true := by
  unfold fillHolesMesh at *
  rw [openMesh_iff] at *
  obtain ⟨j, hj, h⟩ := h
  refine ⟨j, hj, fun k hk hm => ?_⟩
  have := h k hk hm
  rw [closeMesh_iff] at *
  intro l hl hml
  obtain ⟨m, hm1, hm2⟩ := this l hl hml
  exact ⟨m, hfg m hm1, hm2⟩

/-- **C04**, radius 0 leaves ocean cells unchanged. -/
theorem C04_radius_zero (nbr : NbrTable n) (mask f : Fin n → Bool) (i : Fin n) (hi : mask i = true) :
    fillHolesMesh (dilationRow nbr) mask 0 f i = f i := by
  simp [fillHolesMesh, openMesh, closeMesh, dilateMesh, erodeMesh, sparseBoolPower, setLandTrue, hi]

/-- **C04**, on a symmetric mesh the closing half never removes an extreme cell. -/
theorem C04_closing_extensive (nbr : NbrTable n) (hs : SymmetricTable nbr) (mask f : Fin n → Bool) (R : Nat)
    (i : Fin n) (h : f i = true) : closeMesh (dilationRow nbr) mask R f i = true := by
  rw [closeMesh_iff]
  intro j hj _
  exact ⟨i, h, hj.symm hs⟩

/-- **C04**, on a symmetric mesh the opening half never adds an ocean cell. -/
theorem C04_opening_antiextensive (nbr : NbrTable n) (hs : SymmetricTable nbr) (mask f : Fin n → Bool) (R : Nat)
    (i : Fin n) (hi : mask i = true) (h : openMesh (dilationRow nbr) mask R f i = true) : f i = true := by
  rw [openMesh_iff] at h
  obtain ⟨j, hj, h⟩ := h
  exact h i (hj.symm hs) hi

/-- **C04**, hole filling does fill holes and remove specks: an ocean cell is extreme after hole filling iff it
lies, together with a full hop-ball of radius `R` (land counting as filled), in the closed field; and the closed
field holds a cell iff every ocean cell of its own `R`-ball is within `R` hops of an extreme cell. -/
theorem C04_open_close_characterisation (nbr : NbrTable n) (mask f : Fin n → Bool) (R : Nat) (i : Fin n) :
    fillHolesMesh (dilationRow nbr) mask R f i = true ↔
      ∃ j, WithinHops nbr R i j ∧ ∀ k, WithinHops nbr R j k → mask k = true →
        ∀ l, WithinHops nbr R k l → mask l = true → ∃ m, f m = true ∧ WithinHops nbr R l m := by
  unfold fillHolesMesh
  rw [openMesh_iff]
  simp only [closeMesh_iff]

/-- **C04**, with no land, filling a filled field changes nothing. -/
theorem C04_idempotent_without_land (nbr : NbrTable n) (hs : SymmetricTable nbr) (f : Fin n → Bool) (R : Nat) :
    fillHolesMesh (dilationRow nbr) (fun _ => true) R (fillHolesMesh (dilationRow nbr) (fun _ => true) R f)
      = fillHolesMesh (dilationRow nbr) (fun _ => true) R f := by
  funext i
  rw [Bool.eq_iff_iff]
  generalize hrows : dilationRow nbr = rows
  generalize hmask : (fun _ : Fin n => true) = mask
  have hm : ∀ i, mask i = true := by intro i; rw [← hmask]
  constructor
  · intro h
    -- open (close (open (close f))) ⊆ open (close (close f)) = open (close f)
    unfold fillHolesMesh at *
    subst hrows
    rw [openMesh_iff] at *
    obtain ⟨j, hj, h⟩ := h
    refine ⟨j, hj, fun k hk hmk => ?_⟩
    have h2 := h k hk hmk
    rw [closeMesh_iff] at *
    intro l hl hml
    obtain ⟨m, hm1, hm2⟩ := h2 l hl hml
    have hm3 := C04_opening_antiextensive nbr hs mask _ R m (hm m) hm1
    rw [closeMesh_iff] at hm3
    exact hm3 l (hm2.symm hs) hml
  · intro h
    subst hrows
    -- open (close f) = open (open (close f)) ⊆ open (close (open (close f)))
    unfold fillHolesMesh at *
    have h' := openMesh_iff.1 h
    obtain ⟨j, hj, hk⟩ := h'
    rw [openMesh_iff]
    refine ⟨j, hj, fun k hk1 hmk => ?_⟩
    apply C04_closing_extensive nbr hs
    rw [openMesh_iff]
    exact ⟨j, hk1.symm hs, hk⟩

-- a hole of width 2 is filled, a gap of width 4 stays, and an isolated speck is removed (R = 1, no land)
example : (List.finRange 18).map (fillHolesMesh (dilationRow (strip 18)) (fun _ => true) 1
      (fun i => i ∈ ([2, 3, 4, 7, 8, 9, 14] : List (Fin 18))))
    = [false, false, true, true, true, true, true, true, true, true,
       false, false, false, false, false, false, false, false] := by decide

/-- **C144**, one call of hole filling: on a symmetric mesh every extreme *ocean* cell of the filled field is
within `R_fill` hops of a cell that was extreme in the input. -/
theorem C144_single_fill_invents_nothing (nbr : NbrTable n) (hs : SymmetricTable nbr) (mask f : Fin n → Bool)
    (R : Nat) (i : Fin n) (hi : mask i = true)
    (h : fillHolesMesh (dilationRow nbr) mask R f i = true) : ∃ k, f k = true ∧ WithinHops nbr R i k := by
  have := C04_opening_antiextensive nbr hs mask _ R i hi h
  rw [closeMesh_iff] at this
  exact this i (.here _ _) hi

/-- The filling stages of `run_preprocess` on a mesh (track.py 1289–1301): hole filling of every frame, then
time-gap filling with its second round of hole filling. Nothing is masked in between. -/
def fillStagesMesh (nbr : NbrTable n) (mask : Fin n → Bool) (R T : Nat) (fs : Frames (Fin n)) : Frames (Fin n) :=
  fillTimeGaps (fillHolesMesh (dilationRow nbr) mask) T R (fs.map (fillHolesMesh (dilationRow nbr) mask R))

/-- **C53 fails for the two filling stages together.** Cell 0 is the only ocean cell, next to three land cells.
The input has no extreme cell at all; with `R_fill = 2`, `T_fill = 2` cell 0 is extreme at every step after the
filling stages: the first stage leaves land marked, and the second one dilates the land marks into the ocean. -/
theorem C53_filling_invents_nothing_fails :
    ∃ (n : Nat) (nbr : NbrTable n) (mask : Fin n → Bool) (R T : Nat) (fs : Frames (Fin n)) (i : Fin n),
      SymmetricTable nbr ∧ T % 2 = 0 ∧ mask i = true ∧
      (∀ t c, ¬ ExtremeAt fs t c) ∧ ExtremeAt (fillStagesMesh nbr mask R T fs) 0 i := by
  refine ⟨4, strip 4, fun c => c == 0, 2, 2, [fun _ => false], 0, strip_symmetric 4, by decide, by decide, ?_, ?_⟩
  · rintro t c ⟨f, hf, hc⟩
    cases t with
    | zero => simp at hf; subst hf; simp at hc
    | succ t => simp at hf
  · have h1 : fillHolesMesh (dilationRow (strip 4)) (fun c => c == 0) 2 (fun _ => false)
        = (fun c : Fin 4 => !(c == 0)) := by
      funext c; revert c; decide +kernel
    have h2 : closeTimeGaps 2 [(fun c : Fin 4 => !(c == 0))] = [(fun c : Fin 4 => !(c == 0))] := by
      have : ∀ c : Fin 4, (closeTimeGaps 2 [(fun c : Fin 4 => !(c == 0))]).map (· c) = [!(c == 0)] := by decide
      apply List.ext_getElem (by rw [length_closeTimeGaps])
      intro t ht1 ht2
      have ht : t = 0 := by simp at ht2; exact ht2
      subst ht
      funext c
      have h := this c
      have h3 := congrArg (fun l : List Bool => l[0]?) h
      simp only [List.getElem?_map, List.getElem?_eq_getElem ht1] at h3
      simpa using h3
    have h3 : fillHolesMesh (dilationRow (strip 4)) (fun c => c == 0) 1 (fun c : Fin 4 => !(c == 0)) 0 = true := by
      decide
    unfold fillStagesMesh fillTimeGaps
    simp only [List.map_cons, List.map_nil, h1, h2]
    exact ⟨_, rfl, h3⟩

/-- **C53**, what does hold: without time-gap filling, or with `R_fill ≤ 1`, every ocean cell that is extreme after
the filling stages is within `R_fill` hops of a cell that is extreme in the input at some step (at the same step
when `T_fill = 0`). Missing: `T_fill > 0` with `R_fill ≥ 2`, where it fails. -/
theorem C53_filling_invents_nothing_partial (nbr : NbrTable n) (hs : SymmetricTable nbr) (mask : Fin n → Bool)
    (R T : Nat) (hT : T % 2 = 0) (hRT : T = 0 ∨ R ≤ 1) (fs : Frames (Fin n)) (t : Nat) (i : Fin n)
    (hi : mask i = true) (h : ExtremeAt (fillStagesMesh nbr mask R T fs) t i) :
    ∃ s k, ExtremeAt fs s k ∧ WithinHops nbr R i k ∧ (T = 0 → s = t) := by
  have hmap : ∀ s, ExtremeAt (fs.map (fillHolesMesh (dilationRow nbr) mask R)) s i →
      ∃ k, ExtremeAt fs s k ∧ WithinHops nbr R i k := by
    rintro s ⟨g, hg, hc⟩
    rw [List.getElem?_map, Option.map_eq_some_iff] at hg
    obtain ⟨f, hf, rfl⟩ := hg
    obtain ⟨k, hk, hw⟩ := C144_single_fill_invents_nothing nbr hs mask f R i hi hc
    exact ⟨k, ⟨f, hf, hk⟩, hw⟩
  unfold fillStagesMesh fillTimeGaps at h
  split at h
  · rename_i h0
    obtain ⟨k, hk, hw⟩ := hmap t h
    exact ⟨t, k, hk, hw, fun _ => rfl⟩
  · rename_i h0
    have hR : R / 2 = 0 := by omega
    obtain ⟨g, hg, hc⟩ := h
    rw [hR, List.getElem?_map, Option.map_eq_some_iff] at hg
    obtain ⟨f, hf, rfl⟩ := hg
    rw [C04_radius_zero nbr mask f i hi] at hc
    have hE : ExtremeAt (closeTimeGaps T (fs.map (fillHolesMesh (dilationRow nbr) mask R))) t i := ⟨f, hf, hc⟩
    rw [(C01_time_gaps_filled_exactly T hT _).2] at hE
    have : ∃ s, ExtremeAt (fs.map (fillHolesMesh (dilationRow nbr) mask R)) s i := by
      rcases hE with h | ⟨a, _, _, _, h, _⟩
      · exact ⟨t, h⟩
      · exact ⟨a, h⟩
    obtain ⟨s, hs'⟩ := this
    obtain ⟨k, hk, hw⟩ := hmap s hs'
    exact ⟨s, k, hk, hw, fun h => absurd h h0⟩

-- non-vacuity: on a strip of 7 cells with one land cell, a gap of one step at cells 2..4 is filled
example : ExtremeAt (fillStagesMesh (strip 7) (fun c => c != 6) 1 2
    [fun c => decide (c.val ∈ [2, 3, 4]), fun _ => false, fun c => decide (c.val ∈ [2, 3, 4])]) 1 3 := by
  refine ⟨_, rfl, ?_⟩; decide

end MarEx.Props
