import Verif.Model.AreaStats
import Verif.Props.Checkpoint
import Mathlib.Algebra.BigOperators.Fin
/-! Properties C124 (accepted fraction on structured grids) and C182 (statistics of whole records). -/
namespace MarEx.Props
open MarEx MarEx.Spec

variable {n : Nat}

/-- The number of cells of a record that are set. -/
def cellsSet (fs : List (Fin n → Bool)) : Nat := (fs.map fun g => (Finset.univ.filter fun i => g i = true).card).sum

/-- The cells of the objects selected by `P` (on the ID and the size), counted object by object. -/
theorem sum_objectTable_filter' (labels : List (Fin n → Nat)) (P : Nat × Nat → Bool) :
    (((objectTable labels).filter P).map (·.2)).sum =
      (labels.map fun f => (Finset.univ.filter fun i => 0 < f i ∧ P (f i, size f (f i)) = true).card).sum := by
  induction labels with
  | nil => rfl
  | cons f fs ih =>
    rw [objectTable_cons, List.filter_append, List.map_append, List.sum_append, ih, List.map_cons, List.sum_cons]
    congr 1
    have e : ((stepTable f).filter P).map (·.2) = ((idsOf f).filter fun k => P (k, size f k)).map (size f) := by
      simp only [stepTable, List.filter_map, List.map_map, cellCount_size]
      simp [Function.comp_def, cellCount_size]
    have hnd : ((idsOf f).filter fun k => P (k, size f k)).Nodup := (show (idsOf f).Nodup from nodup_npUnique _).filter _
    rw [e, ← List.sum_toFinset _ hnd]
    rw [Finset.card_eq_sum_card_fiberwise (f := f) (t := ((idsOf f).filter fun k => P (k, size f k)).toFinset)]
    · apply Finset.sum_congr rfl
      intro k hk
      simp only [List.mem_toFinset, List.mem_filter, mem_idsOf] at hk
      unfold size
      congr 1
      ext i
      simp only [Finset.mem_filter, Finset.mem_univ, true_and]
      constructor
      · rintro rfl; exact ⟨⟨by omega, hk.2⟩, rfl⟩
      · rintro ⟨_, h⟩; exact h
    · intro i hi
      simp only [Finset.coe_filter, Finset.mem_univ, true_and, Set.mem_setOf_eq] at hi
      simp only [List.coe_toFinset, Set.mem_setOf_eq, List.mem_filter, mem_idsOf]
      exact ⟨⟨hi.1, i, rfl⟩, hi.2⟩

theorem computeArea_one (f : Fin n → Bool) : computeArea (fun _ => 1) f = ((Finset.univ.filter fun i => f i = true).card : ℚ) := by
  unfold computeArea
  rw [← Fin.sum_univ_def]
  simp

theorem totalArea_one (fs : List (Fin n → Bool)) : totalArea (fun _ => 1) fs = (cellsSet fs : ℚ) := by
  unfold totalArea cellsSet
  induction fs with
  | nil => simp
  | cons f fs ih => simp [computeArea_one, ih]

theorem computeArea_sum (w : Fin n → ℚ) (f : Fin n → Bool) : computeArea w f = ∑ i, if f i = true then w i else 0 := by
  unfold computeArea
  rw [← Fin.sum_univ_def]

theorem cast_sum (l : List (Nat × Nat)) : (l.map fun e => (e.2 : ℚ)).sum = (((l.map (·.2)).sum : Nat) : ℚ) := by
  induction l with
  | nil => simp
  | cons a l ih => simp [ih]

/-- The cells kept by the grid filter, in terms of the table of objects: those of every object but the first one that reach the threshold. -/
theorem cellsSet_grid (labels : List (Fin n → Nat)) (hu : UniqueLabels labels) (c : AreaCriterion) (fr : FilterResult n) (hf : filterGrid c labels = .ok fr)
    (e0 : Nat × Nat) (rest : List (Nat × Nat)) (ht : objectTable labels = e0 :: rest) :
    cellsSet fr.field = ((rest.filter fun e => decide (fr.threshold ≤ (e.2 : ℚ))).map (·.2)).sum := by
  have hfield : fr.field = labels.map fun f => fun i => decide (0 < f i ∧ (fr.threshold ≤ (size f (f i) : ℚ) ∧ e0.1 ≠ f i)) := by
    apply List.ext_getElem?
    intro t
    rw [List.getElem?_map]
    have hlen : fr.field.length = labels.length := by
      unfold filterGrid at hf
      dsimp only at hf
      split at hf
      · cases hf
      · cases hf; simp
    cases hl : labels[t]? with
    | none =>
      rw [Option.map_none, List.getElem?_eq_none_iff, hlen]
      exact List.getElem?_eq_none_iff.mp hl
    | some f =>
      obtain ⟨g, hg, hgi⟩ := kept_grid labels hu c fr hf t f hl
      rw [hg, Option.map_some]
      congr 1
      funext i
      have := hgi i
      rw [ht, cellCount_size] at this
      simp only [List.map_cons, List.head?_cons, ne_eq, Option.some.injEq] at this
      rw [Bool.eq_iff_iff, this, decide_eq_true_eq]
  have hk := sum_objectTable_filter' labels fun e => decide (fr.threshold ≤ (e.2 : ℚ) ∧ e0.1 ≠ e.1)
  simp only [decide_eq_true_eq] at hk
  have hnd := objectTable_nodup labels hu
  rw [ht] at hnd hk
  simp only [List.map_cons, List.nodup_cons] at hnd
  have hrest : rest.filter (fun e => decide (fr.threshold ≤ (e.2 : ℚ) ∧ e0.1 ≠ e.1)) = rest.filter fun e => decide (fr.threshold ≤ (e.2 : ℚ)) := by
    apply List.filter_congr
    intro e he
    have : e0.1 ≠ e.1 := fun h => hnd.1 (h ▸ List.mem_map_of_mem he)
    simp [this]
  rw [List.filter_cons_of_neg (by simp), hrest] at hk
  rw [hk, hfield]
  unfold cellsSet
  rw [List.map_map]
  simp only [Function.comp_def, decide_eq_true_eq]

/-- C124, partial: what the accepted area fraction on a structured grid is. As a number of cells it is that of the cells which the filter keeps, less the cells of
the kept objects that are exactly at the threshold, plus the cells of the first object of the record if that is above the threshold, although it is always
lost. Missing: equality with the kept share (`C124_fraction_of_kept_fails`, `C124_all_at_threshold_fails`) and records of which nothing is kept
(`C124_nothing_kept_raises_fails`, `C124_one_object_fails`). -/
theorem C124_fraction_partial (labels : List (Fin n → Nat)) (hu : UniqueLabels labels) (c : AreaCriterion) (raw : List (Fin n → Bool)) (fr : FilterResult n)
    (r : AreaStats) (h : gridStats c raw labels = .ok (fr, r)) :
    ∃ (t : Nat) (f : Fin n → Nat) (k : Nat), labels[t]? = some f ∧ 0 < k ∧ (∃ i, f i = k) ∧ IsFirst labels t k ∧
      r.acceptedFraction * r.totalIded + ((labels.map fun f => (Finset.univ.filter fun i => 0 < f i ∧ (size f (f i) : ℚ) = fr.threshold ∧ f i ≠ k).card).sum : Nat) =
        (cellsSet fr.field : Nat) + (if fr.threshold < (size f k : ℚ) then (size f k : ℚ) else 0) := by
  unfold gridStats at h
  cases hf : filterGrid c labels with
  | error e => rw [hf] at h; cases h
  | ok fr' =>
    rw [hf] at h
    dsimp only at h
    split at h
    · cases h
    · rename_i s hs
      simp only [Except.ok.injEq, Prod.mk.injEq] at h
      obtain ⟨rfl, rfl⟩ := h
      cases ht : objectTable labels with
      | nil =>
        unfold filterGrid at hf
        rw [ht] at hf
        simp at hf
      | cons e0 rest =>
        have hmem : e0 ∈ objectTable labels := by rw [ht]; simp
        obtain ⟨f, hfm, hfe⟩ := List.mem_flatMap.mp hmem
        obtain ⟨⟨hp, i, hi⟩, hsz⟩ := mem_stepTable.mp hfe
        obtain ⟨t, htl⟩ := List.getElem?_of_mem hfm
        have hfirst : IsFirst labels t (f i) := (head_objectTable labels hu t f htl i (by omega)).mp (by rw [ht, hi]; rfl)
        refine ⟨t, f, e0.1, htl, hp, ⟨i, hi⟩, hi ▸ hfirst, ?_⟩
        rw [cellsSet_grid labels hu c fr' hf e0 rest ht]
        have hk := sum_objectTable_filter' labels fun e => decide ((e.2 : ℚ) = fr'.threshold ∧ e.1 ≠ e0.1)
        simp only [decide_eq_true_eq] at hk
        rw [← hk, ht]
        have hnd := objectTable_nodup labels hu
        rw [ht] at hnd hs
        simp only [List.map_cons, List.nodup_cons] at hnd
        have hrest : rest.filter (fun e => decide ((e.2 : ℚ) = fr'.threshold ∧ e.1 ≠ e0.1)) = rest.filter fun e => decide ((e.2 : ℚ) = fr'.threshold) := by
          apply List.filter_congr
          intro e he
          have : e.1 ≠ e0.1 := fun h => hnd.1 (h ▸ List.mem_map_of_mem he)
          simp [this]
        rw [List.filter_cons_of_neg (by simp), hrest]
        have hsize : size f e0.1 = e0.2 := by rw [hsz, cellCount_size]
        rw [hsize]
        have hsum : (((rest.map fun e => (e.2 : ℚ)).filter fun a => decide (fr'.threshold < a)).sum : ℚ) + (((rest.filter fun e => decide ((e.2 : ℚ) = fr'.threshold)).map (·.2)).sum : Nat) =
            (((rest.filter fun e => decide (fr'.threshold ≤ (e.2 : ℚ))).map (·.2)).sum : Nat) := by
          clear hnd hs hk hrest ht
          induction rest with
          | nil => simp
          | cons a l ih =>
            rcases lt_trichotomy fr'.threshold (a.2 : ℚ) with h | h | h
            · rw [List.map_cons, List.filter_cons_of_pos (by simpa using h), List.filter_cons_of_neg (by simpa using h.ne'), List.filter_cons_of_pos (by simpa using h.le)]
              simp only [List.sum_cons, List.map_cons]; push_cast; push_cast at ih; linarith
            · rw [List.map_cons, List.filter_cons_of_neg (by simp [h]), List.filter_cons_of_pos (by simp [h]), List.filter_cons_of_pos (by simp [h])]
              simp only [List.sum_cons, List.map_cons]; push_cast; push_cast at ih; linarith
            · rw [List.map_cons, List.filter_cons_of_neg (by simpa using h.le), List.filter_cons_of_neg (by simpa using h.ne), List.filter_cons_of_neg (by simpa using h)]
              exact ih
        unfold areaStats at hs
        dsimp only at hs
        split at hs
        · cases hs
        · rename_i h0
          split at hs
          · cases hs
          · cases hs
            dsimp only
            rw [div_mul_cancel₀ _ h0, List.map_cons]
            by_cases h : fr'.threshold < (e0.2 : ℚ)
            · rw [List.filter_cons_of_pos (by simpa using h), if_pos h, List.sum_cons]; linarith
            · rw [List.filter_cons_of_neg (by simpa using h), if_neg h]; linarith

-- objects of 4, 3 and 2 cells, `area_filter_absolute = 3`: the second one is kept, the fraction is that of the first one, 4 of 9 cells
example : (match gridStats (n := 9) (.absolute 3) [fun _ => true] [fun i => [1, 1, 1, 1, 2, 2, 2, 3, 3].getD i.val 0] with
    | .ok (fr, r) => decide (r = ⟨9, 3, 4 / 9, 9 / 3⟩ ∧ cellsSet fr.field = 3)
    | .error _ => false) = true := by decide +kernel

theorem objectTable_nil_iff (labels : List (Fin n → Nat)) : objectTable labels = [] ↔ ∀ f ∈ labels, ∀ i, f i = 0 := by
  constructor
  · intro h f hf i
    by_contra hi
    have : (f i, cellCount f (f i)) ∈ objectTable labels := List.mem_flatMap.mpr ⟨f, hf, mem_stepTable.mpr ⟨⟨by dsimp only; omega, i, rfl⟩, rfl⟩⟩
    rw [h] at this
    simp at this
  · intro h
    rw [List.eq_nil_iff_forall_not_mem]
    intro e he
    obtain ⟨f, hf, hfe⟩ := List.mem_flatMap.mp he
    obtain ⟨⟨hp, i, hi⟩, _⟩ := mem_stepTable.mp hfe
    have := h f hf i
    omega

theorem objectTable_pos (labels : List (Fin n → Nat)) : ∀ e ∈ objectTable labels, 0 < e.2 := by
  intro e he
  obtain ⟨f, hf, hfe⟩ := List.mem_flatMap.mp he
  obtain ⟨⟨hp, i, hi⟩, hs⟩ := mem_stepTable.mp hfe
  rw [hs, cellCount_size]
  exact Finset.card_pos.mpr ⟨i, by simp [hi]⟩

theorem cellsSet_zero_iff (fs : List (Fin n → Bool)) : cellsSet fs = 0 ↔ ∀ g ∈ fs, ∀ i, g i = false := by
  unfold cellsSet
  rw [List.sum_eq_zero_iff]
  simp only [List.mem_map, forall_exists_index, and_imp, forall_apply_eq_imp_iff₂, Finset.card_eq_zero, Finset.filter_eq_empty_iff, Finset.mem_univ, forall_const,
    Bool.not_eq_true]

theorem sum_table (labels : List (Fin n → Nat)) : ((objectTable labels).map (·.2)).sum = (labels.map fun f => (Finset.univ.filter fun i => 0 < f i).card).sum := by
  have := sum_objectTable_filter' labels fun _ => true
  simpa using this

theorem areaStats_error {areas : List ℚ} {thr raw processed : ℚ} {e : PErr} (h : areaStats areas thr raw processed = .error e) :
    e = .zeroDivision ∧ (areas.sum = 0 ∨ processed = 0) := by
  unfold areaStats at h
  dsimp only at h
  split at h
  · rename_i h0; cases h; exact ⟨rfl, .inl h0⟩
  · split at h
    · rename_i h0; cases h; exact ⟨rfl, .inr h0⟩
    · cases h

/-- C182, structured grids. No objects: the error of the filter says so. Objects, none of which is kept: a division by zero. Otherwise the total is the number of
cells of the filled record that are extreme, the fraction of the areas is the number of extreme cells before filling and filtering over the number after,
and without filling it exceeds one. -/
theorem C182_grid (labels : List (Fin n → Nat)) (hu : UniqueLabels labels) (c : AreaCriterion) (raw : List (Fin n → Bool)) :
    (gridStats c raw labels = .error .noObjects ↔ ∀ f ∈ labels, ∀ i, f i = 0) ∧
    (gridStats c raw labels = .error .zeroDivision ↔ ∃ fr, filterGrid c labels = .ok fr ∧ ∀ g ∈ fr.field, ∀ i, g i = false) ∧
    ∀ fr r, gridStats c raw labels = .ok (fr, r) → filterGrid c labels = .ok fr ∧
      r.totalIded = ((labels.map fun f => (Finset.univ.filter fun i => 0 < f i).card).sum : Nat) ∧
      r.threshold = fr.threshold ∧ 0 < cellsSet fr.field ∧ r.preprocessedFraction = (cellsSet raw : ℚ) / cellsSet fr.field ∧
      (raw = labels.map (fun f => fun i => decide (0 < f i)) → 1 < r.preprocessedFraction) := by
  have hcase : (objectTable labels = [] ∧ ∃ e, filterGrid c labels = .error e) ∨ (objectTable labels ≠ [] ∧ ∃ fr, filterGrid c labels = .ok fr) := by
    unfold filterGrid
    by_cases h : objectTable labels = []
    · exact .inl ⟨h, by simp [h]⟩
    · exact .inr ⟨h, by simp [h]⟩
  rw [← objectTable_nil_iff]
  rcases hcase with ⟨ht, e, he⟩ | ⟨ht, fr, hfr⟩
  · have hg : gridStats c raw labels = .error .noObjects := by unfold gridStats; rw [he]
    rw [hg, he]
    exact ⟨by simp [ht], by simp, by simp⟩
  · rw [hfr]
    have hsum : ((objectTable labels).map fun e => (e.2 : ℚ)).sum ≠ 0 := by
      rw [cast_sum]
      cases hT : objectTable labels with
      | nil => exact absurd hT ht
      | cons e0 rest =>
        have := objectTable_pos labels e0 (by rw [hT]; simp)
        simp only [List.map_cons, List.sum_cons]
        have h2 : 0 < e0.2 + (rest.map (·.2)).sum := by omega
        exact_mod_cast h2.ne'
    have hg : gridStats c raw labels = if cellsSet fr.field = 0 then .error .zeroDivision else .ok (fr, ⟨((objectTable labels).map fun e => (e.2 : ℚ)).sum, fr.threshold,
        (((objectTable labels).map fun e => (e.2 : ℚ)).filter fun a => decide (fr.threshold < a)).sum / ((objectTable labels).map fun e => (e.2 : ℚ)).sum,
        (cellsSet raw : ℚ) / cellsSet fr.field⟩) := by
      unfold gridStats areaStats
      rw [hfr]
      dsimp only
      rw [if_neg hsum, totalArea_one, totalArea_one]
      by_cases h : cellsSet fr.field = 0
      · simp [h]
      · simp [h]
    rw [hg]
    refine ⟨?_, ?_, ?_⟩
    · simp only [ht, iff_false]; split <;> simp
    · constructor
      · intro h
        split at h
        · rename_i h0; exact ⟨fr, rfl, (cellsSet_zero_iff _).mp h0⟩
        · cases h
      · rintro ⟨fr', h1, h2⟩
        cases h1
        rw [if_pos ((cellsSet_zero_iff _).mpr h2)]
    · intro fr' r h
      split at h
      · cases h
      · rename_i h0
        simp only [Except.ok.injEq, Prod.mk.injEq] at h
        obtain ⟨rfl, rfl⟩ := h
        refine ⟨rfl, ?_, rfl, by omega, rfl, ?_⟩
        · dsimp only
          rw [cast_sum, sum_table]
        · intro hraw
          dsimp only
          cases hT : objectTable labels with
          | nil => exact absurd hT ht
          | cons e0 rest =>
            have h1 : cellsSet raw = ((objectTable labels).map (·.2)).sum := by
              rw [sum_table, hraw]
              unfold cellsSet
              rw [List.map_map]
              simp only [Function.comp_def, decide_eq_true_eq]
            have h2 := cellsSet_grid labels hu c fr hfr e0 rest hT
            have h3 : ((rest.filter fun e => decide (fr.threshold ≤ (e.2 : ℚ))).map (·.2)).sum ≤ (rest.map (·.2)).sum :=
              (List.filter_sublist.map _).sum_le_sum (fun _ _ => Nat.zero_le _)
            have h4 := objectTable_pos labels e0 (by rw [hT]; simp)
            rw [hT, List.map_cons, List.sum_cons] at h1
            rw [one_lt_div (by exact_mod_cast Nat.pos_of_ne_zero h0)]
            exact_mod_cast (by omega : cellsSet fr.field < cellsSet raw)

/-- C124 fails for every record of a structured grid that has a single object after filling: the object is lost and the statistics raise a division by zero, whatever
its size and whatever the criterion. -/
theorem C124_one_object_fails (labels : List (Fin n → Nat)) (hu : UniqueLabels labels) (c : AreaCriterion) (raw : List (Fin n → Bool)) (k : Nat)
    (hone : ∀ f ∈ labels, ∀ i, f i = 0 ∨ f i = k) (hsome : ∃ f ∈ labels, ∃ i, f i ≠ 0) : gridStats c raw labels = .error .zeroDivision := by
  obtain ⟨f, hf, i, hi⟩ := hsome
  cases hfr : filterGrid c labels with
  | error e =>
    exfalso
    unfold filterGrid at hfr
    dsimp only at hfr
    split at hfr
    · rename_i h
      exact hi ((objectTable_nil_iff labels).mp (List.eq_nil_of_length_eq_zero h) f hf i)
    · cases hfr
  | ok fr =>
    refine (C182_grid labels hu c raw).2.1.mpr ⟨fr, hfr, ?_⟩
    rw [← cellsSet_zero_iff]
    cases hT : objectTable labels with
    | nil => exact absurd ((objectTable_nil_iff labels).mp hT f hf i) hi
    | cons e0 rest =>
      have hid : ∀ e ∈ objectTable labels, e.1 = k := by
        intro e he
        obtain ⟨g, hg, hge⟩ := List.mem_flatMap.mp he
        obtain ⟨⟨hp, j, hj⟩, _⟩ := mem_stepTable.mp hge
        rcases hone g hg j with h | h <;> omega
      have hnd := objectTable_nodup labels hu
      rw [hT] at hnd hid
      cases rest with
      | nil => rw [cellsSet_grid labels hu c fr hfr e0 [] hT]; rfl
      | cons e1 rest =>
        exfalso
        have h0 := hid e0 (by simp)
        have h1 := hid e1 (by simp)
        simp [h0, h1] at hnd

-- one object of 8 cells among 9
example : gridStats (n := 9) (.quartile (1 / 2)) [fun _ => true] [fun i => if i.val < 8 then 1 else 0] = .error .zeroDivision := by
  refine C124_one_object_fails _ ?_ _ _ 1 (by simp; intro i; omega) ⟨_, List.mem_singleton.mpr rfl, 0, by decide⟩
  intro t t' f f' h1 h2 i j _ _
  have a := (List.getElem?_eq_some_iff.mp h1).1
  have b := (List.getElem?_eq_some_iff.mp h2).1
  simp at a b; omega

/-- The largest number of cells of an object that the filter of a mesh does not look at (track.py 1809–1813). -/
def notLookedAt : AreaCriterion → Nat
  | .quartile _ => 50
  | .absolute _ => 5

theorem computeArea_mono (w : Fin n → ℚ) (hw : ∀ i, 0 < w i) (f g : Fin n → Bool) (h : ∀ i, f i = true → g i = true) : computeArea w f ≤ computeArea w g := by
  rw [computeArea_sum, computeArea_sum]
  apply Finset.sum_le_sum
  intro i _
  by_cases hf : f i = true
  · simp [hf, h i hf]
  · rw [if_neg hf]; split
    · exact (hw i).le
    · exact le_rfl

theorem computeArea_nonneg (w : Fin n → ℚ) (hw : ∀ i, 0 < w i) (f : Fin n → Bool) : 0 ≤ computeArea w f := by
  rw [computeArea_sum]
  exact Finset.sum_nonneg fun i _ => by split; exacts [(hw i).le, le_rfl]

theorem computeArea_zero_iff (w : Fin n → ℚ) (hw : ∀ i, 0 < w i) (f : Fin n → Bool) : computeArea w f = 0 ↔ ∀ i, f i = false := by
  rw [computeArea_sum, Finset.sum_eq_zero_iff_of_nonneg (fun i _ => by split; exacts [(hw i).le, le_rfl])]
  simp only [Finset.mem_univ, forall_const]
  refine forall_congr' fun i => ?_
  have := (hw i).ne'
  cases f i <;> simp [this]

theorem totalArea_zero_iff (w : Fin n → ℚ) (hw : ∀ i, 0 < w i) (fs : List (Fin n → Bool)) : totalArea w fs = 0 ↔ ∀ g ∈ fs, ∀ i, g i = false := by
  unfold totalArea
  induction fs with
  | nil => simp
  | cons f fs ih =>
    have h1 := computeArea_nonneg w hw f
    have h2 : 0 ≤ (fs.map (computeArea w)).sum := List.sum_nonneg (by simp only [List.mem_map]; rintro _ ⟨g, _, rfl⟩; exact computeArea_nonneg w hw g)
    simp only [List.map_cons, List.sum_cons, List.forall_mem_cons, ← ih, ← computeArea_zero_iff w hw f]
    constructor
    · intro h; constructor <;> linarith
    · rintro ⟨a, b⟩; linarith

theorem totalArea_nonneg (w : Fin n → ℚ) (hw : ∀ i, 0 < w i) (fs : List (Fin n → Bool)) : 0 ≤ totalArea w fs :=
  List.sum_nonneg (by simp only [List.mem_map]; rintro _ ⟨g, _, rfl⟩; exact computeArea_nonneg w hw g)

/-- The filter of a mesh fails exactly on records without objects that it looks at. -/
theorem filterMesh_error_iff (c : AreaCriterion) (labels : List (Fin n → Nat)) :
    (∃ e, filterMesh c labels = .error e) ↔ ∀ f ∈ labels, ∀ i, 0 < f i → size f (f i) ≤ notLookedAt c := by
  have hs : prefilterSize c = notLookedAt c := by cases c <;> rfl
  have key : (((objectTable labels).map (·.2)).filter fun (s : Nat) => decide (prefilterSize c < s)) = [] ↔ ∀ f ∈ labels, ∀ i, 0 < f i → size f (f i) ≤ notLookedAt c := by
    rw [List.filter_eq_nil_iff, hs]
    simp only [List.mem_map, decide_eq_true_eq, not_lt]
    constructor
    · intro h f hf i hi
      have := h (cellCount f (f i)) ⟨(f i, cellCount f (f i)), List.mem_flatMap.mpr ⟨f, hf, mem_stepTable.mpr ⟨⟨hi, i, rfl⟩, rfl⟩⟩, rfl⟩
      rwa [cellCount_size] at this
    · rintro h _ ⟨e, he, rfl⟩
      obtain ⟨f, hf, hfe⟩ := List.mem_flatMap.mp he
      obtain ⟨⟨hp, i, hi⟩, hsz⟩ := mem_stepTable.mp hfe
      rw [hsz, cellCount_size, ← hi]
      exact h f hf i (by omega)
  rw [← key]
  unfold filterMesh
  dsimp only
  split
  · rename_i h; exact ⟨fun _ => List.eq_nil_of_length_eq_zero h, fun _ => ⟨_, rfl⟩⟩
  · rename_i h
    refine ⟨fun h => ?_, fun h' => absurd (by rw [h']; rfl) h⟩
    obtain ⟨e, he⟩ := h
    cases he

/-- C182, meshes, partial: as on structured grids, with every cell counted by its area in the ratio of the areas (and as one cell in the total). Missing: the error of
the filter says that there are no objects also for records whose objects are all small (`C182_small_objects_fails`). -/
theorem C182_mesh_partial (w : Fin n → ℚ) (hw : ∀ i, 0 < w i) (labels : List (Fin n → Nat)) (c : AreaCriterion) (raw : List (Fin n → Bool)) :
    (meshStats w c raw labels = .error .noObjects ↔ ∀ f ∈ labels, ∀ i, 0 < f i → size f (f i) ≤ notLookedAt c) ∧
    (meshStats w c raw labels = .error .zeroDivision ↔ ∃ fr, filterMesh c labels = .ok fr ∧ ∀ g ∈ fr.field, ∀ i, g i = false) ∧
    ∀ fr r, meshStats w c raw labels = .ok (fr, r) → filterMesh c labels = .ok fr ∧
      r.totalIded = ((labels.map fun f => (Finset.univ.filter fun i => 0 < f i).card).sum : Nat) ∧
      r.threshold = fr.threshold ∧ 0 < totalArea w fr.field ∧ r.preprocessedFraction = totalArea w raw / totalArea w fr.field ∧
      (raw = labels.map (fun f => fun i => decide (0 < f i)) → 1 ≤ r.preprocessedFraction) := by
  rw [← filterMesh_error_iff]
  cases hfr : filterMesh c labels with
  | error e =>
    have hg : meshStats w c raw labels = .error .noObjects := by unfold meshStats; rw [hfr]
    rw [hg]
    exact ⟨by simp, by simp, by simp⟩
  | ok fr =>
    have ht : objectTable labels ≠ [] := by
      intro h
      unfold filterMesh at hfr
      rw [h] at hfr
      simp at hfr
    have hsum : ((objectTable labels).map fun e => (e.2 : ℚ)).sum ≠ 0 := by
      rw [cast_sum]
      cases hT : objectTable labels with
      | nil => exact absurd hT ht
      | cons e0 rest =>
        have := objectTable_pos labels e0 (by rw [hT]; simp)
        simp only [List.map_cons, List.sum_cons]
        have h2 : 0 < e0.2 + (rest.map (·.2)).sum := by omega
        exact_mod_cast h2.ne'
    have hg : meshStats w c raw labels = if totalArea w fr.field = 0 then .error .zeroDivision else .ok (fr, ⟨((objectTable labels).map fun e => (e.2 : ℚ)).sum, fr.threshold,
        (((objectTable labels).map fun e => (e.2 : ℚ)).filter fun a => decide (fr.threshold < a)).sum / ((objectTable labels).map fun e => (e.2 : ℚ)).sum,
        totalArea w raw / totalArea w fr.field⟩) := by
      unfold meshStats areaStats
      rw [hfr]
      dsimp only
      rw [if_neg hsum]
      by_cases h : totalArea w fr.field = 0
      · simp [h]
      · simp [h]
    rw [hg]
    refine ⟨?_, ?_, ?_⟩
    · refine ⟨fun h => ?_, fun h => ?_⟩
      · split at h <;> cases h
      · obtain ⟨e, he⟩ := h; cases he
    · constructor
      · intro h
        split at h
        · rename_i h0; exact ⟨fr, rfl, (totalArea_zero_iff w hw _).mp h0⟩
        · cases h
      · rintro ⟨fr', h1, h2⟩
        cases h1
        rw [if_pos ((totalArea_zero_iff w hw _).mpr h2)]
    · intro fr' r h
      split at h
      · cases h
      · rename_i h0
        simp only [Except.ok.injEq, Prod.mk.injEq] at h
        obtain ⟨rfl, rfl⟩ := h
        have hpos : 0 < totalArea w fr.field := lt_of_le_of_ne (totalArea_nonneg w hw _) (Ne.symm h0)
        refine ⟨rfl, ?_, rfl, hpos, rfl, ?_⟩
        · dsimp only
          rw [cast_sum, sum_table]
        · intro hraw
          dsimp only
          rw [one_le_div hpos, hraw]
          unfold totalArea
          have hlen := (keptObjects_survivors labels c fr hfr).1
          apply List.Forall₂.sum_le_sum
          rw [List.forall₂_map_left_iff, List.forall₂_map_right_iff, List.forall₂_map_right_iff, List.forall₂_iff_get]
          refine ⟨hlen, fun t h1 h2 => ?_⟩
          obtain ⟨g, hg, hgi⟩ := C08_keeps_exactly_larger labels c fr hfr t labels[t] (List.getElem?_eq_getElem h2)
          rw [List.getElem?_eq_getElem h1] at hg
          cases hg
          exact computeArea_mono w hw _ _ fun i hi => decide_eq_true ((hgi i).mp hi).1

/-- C182 fails on meshes for every record whose objects all have at most 50 cells (5 with `area_filter_absolute`): it is refused as a record without objects. -/
theorem C182_small_objects_fails (w : Fin n → ℚ) (labels : List (Fin n → Nat)) (c : AreaCriterion) (raw : List (Fin n → Bool))
    (hsmall : ∀ f ∈ labels, ∀ i, 0 < f i → size f (f i) ≤ notLookedAt c) (_hsome : ∃ f ∈ labels, ∃ i, 0 < f i) : meshStats w c raw labels = .error .noObjects := by
  obtain ⟨e, he⟩ := (filterMesh_error_iff c labels).mpr hsmall
  unfold meshStats
  rw [he]

-- fifty cells that are all extreme
example : meshStats (n := 50) (fun _ => 1) (.quartile (1 / 2)) [fun _ => true] [fun _ => 1] = .error .noObjects :=
  C182_small_objects_fails _ _ _ _ (by simp [size, notLookedAt]) ⟨_, List.mem_singleton.mpr rfl, 0, by decide⟩

-- a record for which everything is reported: objects of 7 and 3 cells of area 2, `area_filter_absolute = 6`
example : (match meshStats (n := 11) (fun _ => 2) (.absolute 6) [fun i => decide (i.val < 9)] [fun i => if i.val < 7 then 1 else if i.val < 10 then 2 else 0] with
    | .ok (fr, r) => decide (r = ⟨10, 6, 7 / 10, 18 / 14⟩ ∧ cellsSet fr.field = 7)
    | .error _ => false) = true := by decide +kernel

/-- C124 fails on meshes for every record whose objects of more than 50 cells all have the same size, whatever the quartile: none is kept and the statistics
raise a division by zero. -/
theorem C124_mesh_equal_objects_fails (w : Fin n → ℚ) (hw : ∀ i, 0 < w i) (labels : List (Fin n → Nat)) (q : ℚ) (h0 : 0 ≤ q) (h1 : q ≤ 1) (raw : List (Fin n → Bool))
    (k : Nat) (hk : 50 < k) (hall : ∀ f ∈ labels, ∀ i, 0 < f i → size f (f i) ≤ 50 ∨ size f (f i) = k) (hsome : ∃ f ∈ labels, ∃ i, 0 < f i ∧ size f (f i) = k) :
    meshStats w (.quartile q) raw labels = .error .zeroDivision := by
  obtain ⟨f, hf, i, hi, hik⟩ := hsome
  cases hfr : filterMesh (.quartile q) labels with
  | error e =>
    have := (filterMesh_error_iff (.quartile q) labels).mp ⟨e, hfr⟩ f hf i hi
    simp only [notLookedAt] at this
    omega
  | ok fr =>
    refine (C182_mesh_partial w hw labels (.quartile q) raw).2.1.mpr ⟨fr, hfr, ?_⟩
    have hthr : (k : ℚ) ≤ fr.threshold := by
      have hfr' := hfr
      unfold filterMesh at hfr'
      dsimp only at hfr'
      split at hfr'
      · cases hfr'
      · rename_i hne
        cases hfr'
        dsimp only [areaThreshold]
        obtain ⟨⟨a, ha, hle⟩, _⟩ := percentile_bounds ((((objectTable labels).map (·.2)).filter fun (s : Nat) => decide (prefilterSize (.quartile q) < s)).map fun (a : Nat) => (a : ℚ)) q
          (by intro h; rw [List.map_eq_nil_iff] at h; rw [h] at hne; exact hne rfl) h0 h1
        obtain ⟨b, hb, rfl⟩ := List.mem_map.mp ha
        obtain ⟨hb1, hb2⟩ := List.mem_filter.mp hb
        obtain ⟨e, he, rfl⟩ := List.mem_map.mp hb1
        obtain ⟨g, hg, hge⟩ := List.mem_flatMap.mp he
        obtain ⟨⟨hp, j, hj⟩, hsz⟩ := mem_stepTable.mp hge
        have hb3 : 50 < e.2 := of_decide_eq_true hb2
        have := hall g hg j (by omega)
        rw [hj, ← cellCount_size, ← hsz] at this
        have : e.2 = k := by omega
        rw [← this]
        exact hle
    intro g hg j
    obtain ⟨t, ht⟩ := List.getElem?_of_mem hg
    have htl : t < labels.length := by
      rw [← (keptObjects_survivors labels (.quartile q) fr hfr).1]
      exact (List.getElem?_eq_some_iff.mp ht).1
    obtain ⟨g', hg', hgi⟩ := C08_keeps_exactly_larger labels (.quartile q) fr hfr t labels[t] (List.getElem?_eq_getElem htl)
    rw [ht] at hg'
    cases hg'
    cases hgj : g j with
    | false => rfl
    | true =>
      exfalso
      obtain ⟨hp, hlt⟩ := (hgi j).mp hgj
      have hle : size labels[t] (labels[t] j) ≤ k := by
        rcases hall _ (List.getElem_mem htl) j hp with h | h <;> omega
      have : (size labels[t] (labels[t] j) : ℚ) ≤ k := by exact_mod_cast hle
      linarith

-- one object of 60 cells
example : meshStats (n := 60) (fun _ => 1) (.quartile (1 / 2)) [fun _ => true] [fun _ => 1] = .error .zeroDivision :=
  C124_mesh_equal_objects_fails _ (by simp) _ _ (by norm_num) (by norm_num) _ 60 (by norm_num) (by simp [size]) ⟨_, List.mem_singleton.mpr rfl, 0, by simp [size]⟩

end MarEx.Props
