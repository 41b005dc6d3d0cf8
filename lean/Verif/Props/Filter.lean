import Verif.Model.Filter
import Verif.Lemmas.Quantiles
/-! Properties C07, C08, C09: the area filter. -/
namespace MarEx
variable {n : Nat}

theorem mem_idsOf {f : Fin n → Nat} {k : Nat} : k ∈ idsOf f ↔ 0 < k ∧ ∃ i, f i = k := by
  unfold idsOf
  rw [mem_npUnique]
  simp only [List.mem_filter, List.mem_map, List.mem_finRange, true_and, decide_eq_true_eq]
  tauto

theorem mem_stepTable {f : Fin n → Nat} {e : Nat × Nat} :
    e ∈ stepTable f ↔ (0 < e.1 ∧ ∃ i, f i = e.1) ∧ e.2 = cellCount f e.1 := by
  unfold stepTable
  simp only [List.mem_map, mem_idsOf]
  constructor
  · rintro ⟨k, h, rfl⟩; exact ⟨h, rfl⟩
  · rintro ⟨h, h2⟩; exact ⟨e.1, h, by rw [← h2]⟩

open MarEx.Spec

theorem cellCount_size (f : Fin n → Nat) (k : Nat) : cellCount f k = size f k := cellCount_eq_size f k

theorem idsOf_objectsOf (f : Fin n → Nat) : (objectsOf f).val = (idsOf f : Multiset Nat) := by
  have h : (idsOf f).toFinset = objectsOf f := by
    ext k
    simp only [List.mem_toFinset, mem_idsOf, objectsOf, Finset.mem_filter, Finset.mem_image, Finset.mem_univ, true_and]
    tauto
  rw [← h, List.toFinset_val, (show (idsOf f).Nodup from nodup_npUnique _).dedup]

theorem objectTable_cons (f : Fin n → Nat) (fs : List (Fin n → Nat)) : objectTable (f :: fs) = stepTable f ++ objectTable fs := rfl

theorem allSizes_eq (labels : List (Fin n → Nat)) : allSizes labels = (((objectTable labels).map (·.2) : List Nat) : Multiset Nat) := by
  induction labels with
  | nil => rfl
  | cons f fs ih =>
    rw [allSizes, ih, objectTable_cons, List.map_append, ← Multiset.coe_add, idsOf_objectsOf, Multiset.map_coe]
    congr 2
    simp [stepTable, Function.comp_def, cellCount_size]

end MarEx

namespace MarEx.Props
open MarEx MarEx.Spec

variable {n : Nat}

/-- The area threshold a criterion asks for, given the sizes of the objects it looks at: the absolute value itself, or the quantile of
the sizes. -/
def IsAreaThreshold (c : AreaCriterion) (sizes : Multiset Nat) (thr : ℚ) : Prop :=
  match c with
  | .absolute a => thr = a
  | .quartile q => 0 ≤ q → q ≤ 1 → IsQuantile (sizes.map fun (s : Nat) => (s : ℚ)) q thr

theorem areaThreshold_spec (c : AreaCriterion) (areas : List Nat) (hne : areas ≠ []) :
    IsAreaThreshold c (areas : Multiset Nat) (areaThreshold c areas) := by
  cases c with
  | absolute a => rfl
  | quartile q =>
    intro h0 h1
    have := percentile_isQuantile (areas.map fun (a : Nat) => (a : ℚ)) q (by simpa using hne) h0 h1
    rwa [← Multiset.map_coe] at this

/-- The labels come from a labeller that never uses a positive ID at two steps (`dask_image.ndmeasure.label` with a
structure that does not connect in time). -/
def UniqueLabels (labels : List (Fin n → Nat)) : Prop :=
  ∀ (t t' : Nat) (f f' : Fin n → Nat), labels[t]? = some f → labels[t']? = some f' → ∀ i j, 0 < f i → f i = f' j → t = t'

/-- C07 as stated: after filtering, a cell is extreme iff it belongs to an object with at least `threshold` cells. -/
def KeepsExactlyLarge (labels : List (Fin n → Nat)) (r : FilterResult n) : Prop :=
  ∀ (t : Nat) (f : Fin n → Nat), labels[t]? = some f → ∃ g : Fin n → Bool, r.field[t]? = some g ∧
    ∀ i, g i = true ↔ (0 < f i ∧ r.threshold ≤ (size f (f i) : ℚ))

/-- **C07 fails**: with `area_filter_absolute = 1` a record holding one object of two cells is emptied. -/
theorem C07_keeps_exactly_large_fails :
    ¬ ∀ (n : Nat) (labels : List (Fin n → Nat)) (c : AreaCriterion) (r : FilterResult n),
      UniqueLabels labels → filterGrid c labels = .ok r → KeepsExactlyLarge labels r := by
  intro h
  have hu : UniqueLabels (n := 3) [fun i => if i.val < 2 then 1 else 0] := by
    intro t t' f f' h1 h2 i j _ _
    have a := (List.getElem?_eq_some_iff.mp h1).1
    have b := (List.getElem?_eq_some_iff.mp h2).1
    simp at a b; omega
  obtain ⟨g, hg, hi⟩ := h 3 _ (.absolute 1) _ hu rfl 0 _ rfl
  have h1 := (hi 0).mpr ⟨by decide, by decide +kernel⟩
  simp only [List.map_cons, List.getElem?_cons_zero, Option.some.injEq] at hg
  subst hg
  revert h1
  decide +kernel

/-- Distinct objects have distinct IDs in the table. -/
theorem objectTable_nodup (labels : List (Fin n → Nat)) (hu : UniqueLabels labels) :
    ((objectTable labels).map (·.1)).Nodup := by
  induction labels with
  | nil => simp [objectTable]
  | cons f fs ih =>
    have ih' := ih (by
      intro t t' g g' h1 h2 i j hp he
      have := hu (t + 1) (t' + 1) g g' (by simpa using h1) (by simpa using h2) i j hp he
      omega)
    have e : (objectTable (f :: fs)).map (·.1) = idsOf f ++ (objectTable fs).map (·.1) := by
      simp [objectTable, stepTable, Function.comp_def]
    rw [e, List.nodup_append]
    refine ⟨nodup_npUnique _, ih', ?_⟩
    intro a ha b hb hab
    subst hab
    obtain ⟨hp, i, hi⟩ := mem_idsOf.mp ha
    obtain ⟨e, he, rfl⟩ := List.mem_map.mp hb
    obtain ⟨g, hg, hge⟩ := List.mem_flatMap.mp he
    obtain ⟨⟨_, j, hj⟩, _⟩ := mem_stepTable.mp hge
    obtain ⟨t, ht⟩ := List.getElem?_of_mem hg
    have := hu 0 (t + 1) f g rfl (by simpa using ht) i j (by omega) (by omega)
    omega

theorem kept_grid (labels : List (Fin n → Nat)) (hu : UniqueLabels labels) (c : AreaCriterion)
    (r : FilterResult n) (hr : filterGrid c labels = .ok r) (t : Nat) (f : Fin n → Nat) (hf : labels[t]? = some f) :
    ∃ g, r.field[t]? = some g ∧ ∀ i, g i = true ↔
      (0 < f i ∧ r.threshold ≤ (cellCount f (f i) : ℚ) ∧ ((objectTable labels).map (·.1)).head? ≠ some (f i)) := by
  unfold filterGrid at hr
  dsimp only at hr
  split at hr
  · cases hr
  · cases hr
    dsimp only
    set thr := areaThreshold c ((objectTable labels).map (·.2)) with hthr
    refine ⟨_, by rw [List.getElem?_map, hf]; rfl, fun i => ?_⟩
    have hnd := objectTable_nodup labels hu
    -- membership of the kept list
    have key : (keepIdsGrid thr (objectTable labels)).contains ((f i : Nat) : Int) = true ↔
        ∃ e ∈ (objectTable labels).tail, e.1 = f i ∧ thr ≤ (e.2 : ℚ) := by
      unfold keepIdsGrid
      cases hT : objectTable labels with
      | nil => simp
      | cons a l =>
        simp only [List.map_cons, List.set_cons_zero, List.contains_iff_mem, List.mem_cons, List.tail_cons, List.mem_map]
        constructor
        · rintro (h | ⟨e, he, h⟩)
          · omega
          · split at h
            · exact ⟨e, he, by omega, by assumption⟩
            · omega
        · rintro ⟨e, he, h1, h2⟩
          exact .inr ⟨e, he, by rw [if_pos h2, h1]⟩
    rw [key]
    -- an ID of step `t` occurs in the table exactly with its own cell count
    have unique : ∀ e ∈ objectTable labels, e.1 = f i → 0 < f i ∧ e.2 = cellCount f (f i) := by
      intro e he h1
      obtain ⟨g, hg, hge⟩ := List.mem_flatMap.mp he
      obtain ⟨⟨hp, j, hj⟩, h2⟩ := mem_stepTable.mp hge
      obtain ⟨t', ht'⟩ := List.getElem?_of_mem hg
      have := hu t t' f g hf ht' i j (by omega) (by omega)
      subst this
      rw [hf] at ht'; cases ht'
      exact ⟨by omega, by rw [h2, h1]⟩
    have present : 0 < f i → (f i, cellCount f (f i)) ∈ objectTable labels := by
      intro hp
      exact List.mem_flatMap.mpr ⟨f, List.mem_of_getElem? hf, mem_stepTable.mpr ⟨⟨hp, i, rfl⟩, rfl⟩⟩
    constructor
    · rintro ⟨e, he, h1, h2⟩
      obtain ⟨hp, hc⟩ := unique e (List.mem_of_mem_tail he) h1
      refine ⟨hp, by rw [← hc]; exact h2, ?_⟩
      cases hT : objectTable labels with
      | nil => rw [hT] at he; simp at he
      | cons a l =>
        rw [hT] at he hnd
        simp only [List.map_cons, List.head?_cons, ne_eq, Option.some.injEq]
        simp only [List.map_cons, List.nodup_cons] at hnd
        intro ha
        exact hnd.1 (List.mem_map.mpr ⟨e, he, by rw [h1, ha]⟩)
    · rintro ⟨hp, hthr', hne⟩
      have hm := present hp
      cases hT : objectTable labels with
      | nil => rw [hT] at hm; simp at hm
      | cons a l =>
        rw [hT] at hm hne
        simp only [List.map_cons, List.head?_cons, ne_eq, Option.some.injEq] at hne
        rcases List.mem_cons.mp hm with h | h
        · exact absurd (by rw [← h]) hne
        · exact ⟨_, h, rfl, hthr'⟩

/-- The head of the table is the first object of the record. -/
theorem head_objectTable (labels : List (Fin n → Nat)) (hu : UniqueLabels labels) (t : Nat) (f : Fin n → Nat) (hf : labels[t]? = some f)
    (i : Fin n) (hi : 0 < f i) : ((objectTable labels).map (·.1)).head? = some (f i) ↔ IsFirst labels t (f i) := by
  induction labels generalizing t with
  | nil => simp at hf
  | cons g fs ih =>
    have e : (objectTable (g :: fs)).map (·.1) = idsOf g ++ (objectTable fs).map (·.1) := by
      simp [objectTable, stepTable, Function.comp_def]
    rw [e]
    cases hg : idsOf g with
    | nil =>
      have hz : ∀ j, g j = 0 := by
        intro j
        by_contra h
        have : g j ∈ idsOf g := mem_idsOf.mpr ⟨by omega, j, rfl⟩
        rw [hg] at this; simp at this
      cases t with
      | zero => simp only [List.getElem?_cons_zero, Option.some.injEq] at hf; subst hf; have := hz i; omega
      | succ t =>
        rw [List.getElem?_cons_succ] at hf
        rw [List.nil_append, ih (by
          intro t t' g g' h1 h2 i j hp he
          have := hu (t + 1) (t' + 1) g g' (by simpa using h1) (by simpa using h2) i j hp he
          omega) t hf]
        constructor
        · rintro ⟨h1, h2⟩
          refine ⟨?_, by simpa using h2⟩
          intro s f' hs hf'
          cases s with
          | zero => simp only [List.getElem?_cons_zero, Option.some.injEq] at hf'; subst hf'; exact hz
          | succ s => exact h1 s f' (by omega) (by simpa using hf')
        · rintro ⟨h1, h2⟩
          exact ⟨fun s f' hs hf' => h1 (s + 1) f' (by omega) (by simpa using hf'), by simpa using h2⟩
    | cons a l =>
      obtain ⟨hap, ja, hja⟩ := mem_idsOf.mp (show a ∈ idsOf g by rw [hg]; simp)
      rw [List.cons_append, List.head?_cons, Option.some.injEq]
      cases t with
      | zero =>
        simp only [List.getElem?_cons_zero, Option.some.injEq] at hf; subst hf
        have hmin : ∀ b ∈ idsOf g, a ≤ b := by
          intro b hb
          have hs := sorted_npUnique (((List.finRange n).map g).filter fun k => decide (0 < k))
          change (idsOf g).Pairwise _ at hs
          rw [hg] at hs hb
          rcases List.mem_cons.mp hb with rfl | hb
          · exact le_refl _
          · exact le_of_lt ((List.pairwise_cons.mp hs).1 b hb)
        constructor
        · rintro rfl
          refine ⟨fun s f' hs => by omega, fun f' hf' j hj => ?_⟩
          simp only [List.getElem?_cons_zero, Option.some.injEq] at hf'; subst hf'
          exact hmin _ (mem_idsOf.mpr ⟨hj, j, rfl⟩)
        · rintro ⟨_, h2⟩
          have h3 := h2 g rfl ja (by omega)
          have h4 := hmin (g i) (mem_idsOf.mpr ⟨hi, i, rfl⟩)
          omega
      | succ t =>
        constructor
        · intro h
          have := hu 0 (t + 1) g f rfl hf ja i (by omega) (by omega)
          omega
        · rintro ⟨h1, _⟩
          have := h1 0 g (by omega) rfl ja
          omega

/-- **C145**, the threshold: it is the absolute value, or the quantile of the sizes of all objects of the record; and filtering fails
exactly when the record has no object at all. -/
theorem C145_threshold (labels : List (Fin n → Nat)) (c : AreaCriterion) :
    (filterGrid c labels = .error .noObjects ↔ ∀ f ∈ labels, ∀ i, f i = 0) ∧
    ∀ r, filterGrid c labels = .ok r → IsAreaThreshold c (allSizes labels) r.threshold ∧ r.nBefore = (allSizes labels).card := by
  constructor
  · unfold filterGrid
    dsimp only
    split
    · rename_i h
      simp only [true_iff]
      intro f hf i
      by_contra h0
      have : (f i, cellCount f (f i)) ∈ objectTable labels :=
        List.mem_flatMap.mpr ⟨f, hf, mem_stepTable.mpr ⟨⟨by show 0 < f i; omega, i, rfl⟩, rfl⟩⟩
      rw [List.length_eq_zero_iff.mp h] at this
      simp at this
    · rename_i h
      simp only [reduceCtorEq, false_iff, not_forall]
      obtain ⟨e, he⟩ := List.exists_mem_of_length_pos (Nat.pos_of_ne_zero h)
      obtain ⟨g, hg, hge⟩ := List.mem_flatMap.mp he
      obtain ⟨⟨hp, j, hj⟩, _⟩ := mem_stepTable.mp hge
      exact ⟨g, hg, j, by omega⟩
  · intro r hr
    unfold filterGrid at hr
    dsimp only at hr
    split at hr
    · cases hr
    · rename_i h
      cases hr
      rw [allSizes_eq]
      refine ⟨areaThreshold_spec _ _ ?_, by simp⟩
      intro h'
      exact h (by simpa using h')

/-- **C07**, what the code does: a cell is extreme after filtering iff it belongs to an object with at least `threshold`
cells *and that object is not the first one of the record*. So the property holds for every object but the
first, which is always removed. -/
theorem C07_keeps_exactly_large_partial (labels : List (Fin n → Nat)) (hu : UniqueLabels labels) (c : AreaCriterion)
    (r : FilterResult n) (hr : filterGrid c labels = .ok r) (t : Nat) (f : Fin n → Nat) (hf : labels[t]? = some f) :
    ∃ g, r.field[t]? = some g ∧ ∀ i, g i = true ↔
      (0 < f i ∧ r.threshold ≤ (size f (f i) : ℚ) ∧ ¬ IsFirst labels t (f i)) := by
  have main : ∃ g, r.field[t]? = some g ∧ ∀ i, g i = true ↔
      (0 < f i ∧ r.threshold ≤ (cellCount f (f i) : ℚ) ∧ ((objectTable labels).map (·.1)).head? ≠ some (f i)) := kept_grid labels hu c r hr t f hf
  obtain ⟨g, hg, h⟩ := main
  refine ⟨g, hg, fun i => ?_⟩
  rw [h i, cellCount_size]
  constructor
  · rintro ⟨h1, h2, h3⟩
    exact ⟨h1, h2, fun h' => h3 ((head_objectTable labels hu t f hf i h1).mpr h')⟩
  · rintro ⟨h1, h2, h3⟩
    exact ⟨h1, h2, fun h' => h3 ((head_objectTable labels hu t f hf i h1).mp h')⟩

/-- **C07 fails** for every record and every criterion: whenever filtering succeeds, the record's first object loses all its cells, however
large it is. -/
theorem C07_first_object_always_lost_fails (labels : List (Fin n → Nat)) (hu : UniqueLabels labels) (c : AreaCriterion)
    (r : FilterResult n) (hr : filterGrid c labels = .ok r) :
    ∃ (t : Nat) (f : Fin n → Nat) (g : Fin n → Bool) (i : Fin n), labels[t]? = some f ∧ r.field[t]? = some g ∧ 0 < f i ∧
      IsFirst labels t (f i) ∧ ∀ j, f j = f i → g j = false := by
  obtain ⟨a, ha⟩ : ∃ a, ((objectTable labels).map (·.1)).head? = some a := by
    unfold filterGrid at hr
    dsimp only at hr
    split at hr
    · cases hr
    · rename_i h
      cases hT : objectTable labels with
      | nil => rw [hT] at h; simp at h
      | cons a l => exact ⟨a.1, rfl⟩
  obtain ⟨e, he, rfl⟩ := List.mem_map.mp (List.mem_of_head? ha)
  obtain ⟨f, hf, hfe⟩ := List.mem_flatMap.mp he
  obtain ⟨⟨hp, i, hi⟩, _⟩ := mem_stepTable.mp hfe
  obtain ⟨t, ht⟩ := List.getElem?_of_mem hf
  obtain ⟨g, hg, h⟩ := C07_keeps_exactly_large_partial labels hu c r hr t f ht
  have hfirst : IsFirst labels t (f i) := (head_objectTable labels hu t f ht i (by omega)).mp (by rw [ha, hi])
  refine ⟨t, f, g, i, ht, hg, by omega, hfirst, fun j hj => ?_⟩
  cases hgj : g j with
  | false => rfl
  | true => exact absurd (by rw [hj]; exact hfirst) ((h j).mp hgj).2.2

theorem nAfter_grid (labels : List (Fin n → Nat)) (c : AreaCriterion) (r : FilterResult n)
    (hr : filterGrid c labels = .ok r) :
    r.nAfter = ((objectTable labels).tail.filter fun e => decide (r.threshold ≤ (e.2 : ℚ))).length := by
  unfold filterGrid at hr
  dsimp only at hr
  split at hr
  · cases hr
  · cases hr
    dsimp only
    set thr := areaThreshold c ((objectTable labels).map (·.2)) with hthr
    have hpos : ∀ e ∈ objectTable labels, 0 < e.1 := by
      intro e he
      obtain ⟨g, _, hge⟩ := List.mem_flatMap.mp he
      exact (mem_stepTable.mp hge).1.1
    unfold keepIdsGrid
    cases hT : objectTable labels with
    | nil => simp
    | cons a l =>
      rw [hT] at hpos
      simp only [List.map_cons, List.set_cons_zero, List.tail_cons]
      rw [List.filter_cons_of_neg (by simp)]
      have hl : ∀ e ∈ l, 0 < e.1 := fun e he => hpos e (List.mem_cons_of_mem _ he)
      clear hT hpos
      induction l with
      | nil => simp
      | cons e l ih =>
        have he := hl e List.mem_cons_self
        have ih := ih (fun e h => hl e (List.mem_cons_of_mem _ h))
        simp only [List.map_cons]
        by_cases h : thr ≤ (e.2 : ℚ)
        · rw [if_pos h, List.filter_cons_of_pos (by simpa using he), List.filter_cons_of_pos (by simpa using h)]
          simp [ih]
        · rw [if_neg h, List.filter_cons_of_neg (by simp), List.filter_cons_of_neg (by simpa using h)]
          exact ih

/-- The number of surviving objects of a step, in terms of the step's table. -/
theorem survivors_eq (f : Fin n → Nat) (g : Fin n → Bool) (P : Nat → Bool) (h : ∀ i, g i = true ↔ 0 < f i ∧ P (f i) = true) :
    survivors f g = ((idsOf f).filter P).length := by
  unfold survivors
  have e : (objectsOf f).filter (fun k => ∃ i, f i = k ∧ g i = true) = ((idsOf f).filter P).toFinset := by
    ext k
    simp only [Finset.mem_filter, objectsOf, Finset.mem_image, Finset.mem_univ, true_and, List.mem_toFinset, List.mem_filter, mem_idsOf]
    constructor
    · rintro ⟨⟨⟨i, _⟩, hk⟩, j, hj, hg⟩
      exact ⟨⟨hk, j, hj⟩, by rw [← hj]; exact ((h j).mp hg).2⟩
    · rintro ⟨⟨hk, j, hj⟩, hP⟩
      exact ⟨⟨⟨j, hj⟩, hk⟩, j, hj, (h j).mpr ⟨by omega, by rw [hj]; exact hP⟩⟩
  rw [e, List.toFinset_card_of_nodup ((show (idsOf f).Nodup from nodup_npUnique _).filter _)]

/-- Summing the survivors over the steps counts table rows. -/
theorem sum_survivors (labels : List (Fin n → Nat)) (field : List (Fin n → Bool)) (P : Nat × Nat → Bool) (hl : field.length = labels.length)
    (h : ∀ (t : Nat) (f : Fin n → Nat) (g : Fin n → Bool), labels[t]? = some f → field[t]? = some g →
      ∀ i, g i = true ↔ 0 < f i ∧ P (f i, cellCount f (f i)) = true) :
    ((labels.zip field).map fun p => survivors p.1 p.2).sum = ((objectTable labels).filter P).length := by
  induction labels generalizing field with
  | nil => simp [objectTable]
  | cons f fs ih =>
    cases field with
    | nil => simp at hl
    | cons g gs =>
      rw [List.zip_cons_cons, List.map_cons, List.sum_cons, objectTable_cons, List.filter_append, List.length_append,
        ih gs (by simpa using hl) (fun t f' g' h1 h2 => h (t + 1) f' g' (by simpa using h1) (by simpa using h2)),
        survivors_eq f g (fun k => P (k, cellCount f k)) (h 0 f g rfl rfl)]
      simp [stepTable, List.filter_map, Function.comp_def]

/-- **C145**: the reported number of objects after filtering is the number of objects that still have cells. -/
theorem C145_reported_count (labels : List (Fin n → Nat)) (hu : UniqueLabels labels) (c : AreaCriterion) (r : FilterResult n)
    (hr : filterGrid c labels = .ok r) :
    r.field.length = labels.length ∧ r.nAfter = ((labels.zip r.field).map fun p => survivors p.1 p.2).sum := by
  have hlen : r.field.length = labels.length := by
    unfold filterGrid at hr
    dsimp only at hr
    split at hr
    · cases hr
    · cases hr; simp
  refine ⟨hlen, ?_⟩
  rw [nAfter_grid labels c r hr, sum_survivors labels r.field
    (fun e => decide (r.threshold ≤ (e.2 : ℚ)) && decide (((objectTable labels).map (·.1)).head? ≠ some e.1)) hlen]
  · have hnd := objectTable_nodup labels hu
    cases hT : objectTable labels with
    | nil => rfl
    | cons a l =>
      rw [hT] at hnd
      simp only [List.map_cons, List.nodup_cons] at hnd
      rw [List.tail_cons, List.filter_cons_of_neg (by simp)]
      congr 1
      apply List.filter_congr
      intro e he
      have : a.1 ≠ e.1 := fun h => hnd.1 (List.mem_map.mpr ⟨e, he, h.symm⟩)
      simp [this]
  · intro t f g hf hg i
    obtain ⟨g', hg', h⟩ := kept_grid labels hu c r hr t f hf
    rw [hg] at hg'; cases hg'
    rw [h i]
    simp

-- non-vacuity: three objects (sizes 2, 1, 3) over two steps, threshold 2: the third survives, the first is lost
example : (filterGrid (n := 4) (.absolute 2)
      [fun i => if i.val < 2 then 1 else if i.val = 3 then 2 else 0, fun i => if i.val < 3 then 3 else 0]).toOption.map
        (fun r => (r.field.map (fun g => (List.finRange 4).map g), r.nAfter))
    = some ([[false, false, false, false], [true, true, true, false]], 1) := by decide +kernel

/-- **C08**, first half: on a mesh a cell is extreme after filtering iff it belongs to an object of its step with more than
`threshold` cells. -/
theorem C08_keeps_exactly_larger (labels : List (Fin n → Nat)) (c : AreaCriterion) (r : FilterResult n)
    (hr : filterMesh c labels = .ok r) (t : Nat) (f : Fin n → Nat) (hf : labels[t]? = some f) :
    ∃ g, r.field[t]? = some g ∧ ∀ i, g i = true ↔ (0 < f i ∧ r.threshold < (size f (f i) : ℚ)) := by
  simp only [← cellCount_size]
  unfold filterMesh at hr
  dsimp only at hr
  split at hr
  · cases hr
  · cases hr
    dsimp only
    refine ⟨_, by rw [List.getElem?_map, hf]; rfl, fun i => ?_⟩
    dsimp only
    simp only [List.contains_iff_mem, List.mem_filter, List.mem_map, decide_eq_true_eq, mem_stepTable]
    constructor
    · rintro ⟨⟨e, ⟨⟨hp, hex⟩, hc⟩, h⟩, hpos⟩
      split at h
      · rename_i hlt
        rw [hc, h] at hlt
        exact ⟨hpos, hlt⟩
      · omega
    · rintro ⟨hp, hlt⟩
      exact ⟨⟨(f i, cellCount f (f i)), ⟨⟨hp, i, rfl⟩, rfl⟩, by rw [if_pos hlt]⟩, hp⟩

/-- Number of objects larger than the threshold, over all steps. -/
def keptObjects (labels : List (Fin n → Nat)) (thr : ℚ) : Nat :=
  (labels.map fun f => ((idsOf f).filter fun k => decide (thr < (cellCount f k : ℚ))).length).sum

theorem keptObjects_eq (labels : List (Fin n → Nat)) (thr : ℚ) :
    keptObjects labels thr = (((objectTable labels).map (·.2)).filter fun (s : Nat) => decide (thr < (s : ℚ))).length := by
  unfold keptObjects objectTable
  induction labels with
  | nil => rfl
  | cons f fs ih =>
    rw [List.map_cons, List.sum_cons, ih, List.flatMap_cons, List.map_append, List.filter_append, List.length_append]
    congr 1
    simp [stepTable, List.filter_map, Function.comp_def]

/-- The mesh filter's kept objects are the surviving ones. -/
theorem keptObjects_survivors (labels : List (Fin n → Nat)) (c : AreaCriterion) (r : FilterResult n) (hr : filterMesh c labels = .ok r) :
    r.field.length = labels.length ∧ keptObjects labels r.threshold = ((labels.zip r.field).map fun p => survivors p.1 p.2).sum := by
  have hlen : r.field.length = labels.length := by
    unfold filterMesh at hr
    dsimp only at hr
    split at hr
    · cases hr
    · cases hr; simp
  refine ⟨hlen, ?_⟩
  rw [sum_survivors labels r.field (fun e => decide (r.threshold < (e.2 : ℚ))) hlen, keptObjects_eq, List.filter_map, List.length_map]
  · rfl
  · intro t f g hf hg i
    obtain ⟨g', hg', h⟩ := C08_keeps_exactly_larger labels c r hr t f hf
    rw [hg] at hg'; cases hg'
    rw [h i, cellCount_size]
    simp

/-- **C08**, the threshold: on a mesh it is the absolute value, or the quantile of the sizes of the objects of more than 50 cells (5 with an
absolute threshold); filtering fails exactly when there is no such object. -/
theorem C08_threshold (labels : List (Fin n → Nat)) (c : AreaCriterion) (small : Nat)
    (hs : small = match c with | .quartile _ => 50 | .absolute _ => 5) :
    (filterMesh c labels = .error .noObjects ↔ ∀ f ∈ labels, ∀ i, 0 < f i → size f (f i) ≤ small) ∧
    ∀ r, filterMesh c labels = .ok r → IsAreaThreshold c ((allSizes labels).filter fun s => small < s) r.threshold ∧
      r.nBefore = ((allSizes labels).filter fun s => small < s).card := by
  have hsm : prefilterSize c = small := by rw [hs]; cases c <;> rfl
  constructor
  · unfold filterMesh
    dsimp only
    rw [hsm]
    split
    · rename_i h
      simp only [true_iff]
      intro f hf i hi
      by_contra h0
      have h1 : (f i, cellCount f (f i)) ∈ objectTable labels :=
        List.mem_flatMap.mpr ⟨f, hf, mem_stepTable.mpr ⟨⟨by show 0 < f i; omega, i, rfl⟩, rfl⟩⟩
      have h2 : cellCount f (f i) ∈ ((objectTable labels).map (·.2)).filter fun (s : Nat) => decide (small < s) :=
        List.mem_filter.mpr ⟨List.mem_map.mpr ⟨_, h1, rfl⟩, by rw [cellCount_size]; simpa using h0⟩
      rw [List.length_eq_zero_iff.mp h] at h2
      simp at h2
    · rename_i h
      simp only [reduceCtorEq, false_iff, not_forall]
      obtain ⟨m, hm⟩ := List.exists_mem_of_length_pos (Nat.pos_of_ne_zero h)
      obtain ⟨hm, hlt⟩ := List.mem_filter.mp hm
      obtain ⟨e, he, rfl⟩ := List.mem_map.mp hm
      obtain ⟨g, hg, hge⟩ := List.mem_flatMap.mp he
      obtain ⟨⟨hp, j, hj⟩, h2⟩ := mem_stepTable.mp hge
      refine ⟨g, hg, j, by omega, ?_⟩
      rw [h2, cellCount_size] at hlt
      rw [hj]
      simpa using hlt
  · intro r hr
    unfold filterMesh at hr
    dsimp only at hr
    rw [hsm] at hr
    split at hr
    · cases hr
    · rename_i h
      cases hr
      rw [allSizes_eq, Multiset.filter_coe]
      refine ⟨areaThreshold_spec _ _ ?_, by simp⟩
      intro h'
      exact h (by rw [h']; rfl)

theorem filter_filter_of_imp {l : List Nat} {p q : Nat → Bool} (h : ∀ a ∈ l, q a = true → p a = true) :
    (l.filter p).filter q = l.filter q := by
  rw [List.filter_filter]
  apply List.filter_congr
  intro a ha
  have := h a ha
  cases hq : q a <;> simp [hq] at this ⊢
  exact this

/-- **C127**, second half, with the percentile criterion: the reported number of objects after filtering is the number of
kept objects. -/
theorem C127_reported_count_quartile (labels : List (Fin n → Nat)) (q : ℚ) (hq0 : 0 ≤ q) (hq1 : q ≤ 1)
    (r : FilterResult n) (hr : filterMesh (.quartile q) labels = .ok r) : 
      r.nAfter = ((labels.zip r.field).map fun p => survivors p.1 p.2).sum := by
  rw [← (keptObjects_survivors labels _ r hr).2]
  unfold filterMesh at hr
  dsimp only at hr
  split at hr
  · cases hr
  · rename_i hne
    cases hr
    dsimp only
    rw [keptObjects_eq]
    congr 1
    apply filter_filter_of_imp
    intro a _ ha
    have ha := of_decide_eq_true ha
    refine decide_eq_true ?_
    show 50 < a
    generalize hareas : (((objectTable labels).map (·.2)).filter
      fun (s : Nat) => decide (prefilterSize (.quartile q) < s)) = areas at ha hne
    simp only [areaThreshold] at ha
    obtain ⟨⟨b, hb, hle⟩, _⟩ := percentile_bounds (areas.map fun (a : Nat) => (a : ℚ)) q (by
      intro h; apply hne; rw [List.map_eq_nil_iff] at h; rw [h]; rfl) hq0 hq1
    obtain ⟨m, hm, rfl⟩ := List.mem_map.mp hb
    have h50 : 50 < m := by
      rw [← hareas] at hm
      exact of_decide_eq_true (List.mem_filter.mp hm).2
    have : (m : ℚ) < a := lt_of_le_of_lt hle ha
    have : m < a := by exact_mod_cast this
    omega

/-- **C127**, second half, absolute criterion: it holds for thresholds of at least 5 cells. Missing: thresholds below 5,
where `C127_reported_count_absolute_fails`. -/
theorem C127_reported_count_absolute_partial (labels : List (Fin n → Nat)) (a : ℚ) (ha : 5 ≤ a)
    (r : FilterResult n) (hr : filterMesh (.absolute a) labels = .ok r) : 
      r.nAfter = ((labels.zip r.field).map fun p => survivors p.1 p.2).sum := by
  rw [← (keptObjects_survivors labels _ r hr).2]
  unfold filterMesh at hr
  dsimp only at hr
  split at hr
  · cases hr
  · cases hr
    dsimp only
    rw [keptObjects_eq]
    congr 1
    apply filter_filter_of_imp
    intro s _ hs
    have hs : a < (s : ℚ) := of_decide_eq_true hs
    refine decide_eq_true ?_
    show 5 < s
    have : (5 : ℚ) < s := lt_of_le_of_lt ha hs
    exact_mod_cast this

/-- **C127 fails** for small absolute thresholds: whenever the filter keeps an object of at most 5 cells, fewer objects are reported than are kept. -/
theorem C127_reported_count_absolute_fails (labels : List (Fin n → Nat)) (a : ℚ) (r : FilterResult n)
    (hr : filterMesh (.absolute a) labels = .ok r) (f : Fin n → Nat) (hf : f ∈ labels) (i : Fin n) (hi : 0 < f i)
    (hkept : a < size f (f i)) (hsmall : size f (f i) ≤ 5) :
    r.nAfter < ((labels.zip r.field).map fun p => survivors p.1 p.2).sum := by
  rw [← (keptObjects_survivors labels _ r hr).2]
  have hmem : size f (f i) ∈ (objectTable labels).map (·.2) := by
    refine List.mem_map.mpr ⟨(f i, cellCount f (f i)), List.mem_flatMap.mpr ⟨f, hf, mem_stepTable.mpr ⟨⟨hi, i, rfl⟩, rfl⟩⟩, ?_⟩
    exact cellCount_size f (f i)
  unfold filterMesh at hr
  dsimp only at hr
  split at hr
  · cases hr
  · cases hr
    dsimp only
    rw [keptObjects_eq]
    show (List.filter (fun s : Nat => decide (a < (s : ℚ))) (List.filter (fun s => decide (5 < s)) _)).length < (List.filter (fun s : Nat => decide (a < (s : ℚ))) _).length
    generalize (objectTable labels).map (·.2) = l at hmem ⊢
    rw [List.filter_comm, ← List.countP_eq_length_filter]
    refine Nat.lt_of_le_of_ne List.countP_le_length ?_
    intro h
    have := List.countP_eq_length.mp h (size f (f i)) (List.mem_filter.mpr ⟨hmem, by simpa using hkept⟩)
    simp at this
    omega

-- non-vacuity: with `area_filter_absolute = 1` and objects of 6 and 2 cells both are kept, but only one is counted
example : ∃ r, filterMesh (.absolute 1) [fun i : Fin 8 => if i.val < 6 then 1 else 2] = .ok r ∧ r.nAfter = 1 ∧
    (([fun i : Fin 8 => if i.val < 6 then 1 else 2].zip r.field).map fun p => survivors p.1 p.2).sum = 2 :=
  ⟨_, rfl, by decide +kernel, by decide +kernel⟩

-- non-vacuity: a mesh step with objects of 7 and 3 cells, threshold 5 keeps exactly the larger one
example : (filterMesh (n := 11) (.absolute 5) [fun i => if i.val < 7 then 1 else if i.val < 10 then 2 else 0]).toOption.map
        (fun r => (r.field.map (fun g => (List.finRange 11).map g), r.nAfter))
    = some ([[true, true, true, true, true, true, true, false, false, false, false]], 1) := by decide +kernel

/-- **C09**: the decision table of the two optional parameters. -/
theorem C09_exactly_one_criterion (quartile absolute : Option ℚ) :
    (∀ c, resolveAreaFilter quartile absolute = .ok c ↔
      (quartile = none ∧ absolute = none ∧ c = .quartile (1 / 2)) ∨
      (∃ q, quartile = some q ∧ absolute = none ∧ 0 ≤ q ∧ q ≤ 1 ∧ c = .quartile q) ∨
      (∃ a, quartile = none ∧ absolute = some a ∧ 0 < a ∧ c = .absolute a)) ∧
    (resolveAreaFilter quartile absolute = .error .bothGiven ↔ quartile.isSome = true ∧ absolute.isSome = true) := by
  unfold resolveAreaFilter
  constructor
  · intro c
    cases quartile <;> cases absolute
    · simp [eq_comm]
    · rename_i a
      by_cases h : a ≤ 0
      · simp [h, not_lt.mpr h]
      · simp [h, not_le.mp h, eq_comm]
    · rename_i q
      by_cases h : q < 0 ∨ q > 1
      · dsimp only
        rw [if_pos h]
        constructor
        · intro h'; cases h'
        · rintro (⟨h', _⟩ | ⟨q', h', _, h0, h1, _⟩ | ⟨a, h', _⟩)
          · cases h'
          · cases h'; rcases h with h | h
            · exact absurd h0 (not_le.mpr h)
            · exact absurd h1 (not_le.mpr h)
          · cases h'
      · dsimp only
        rw [if_neg h]
        simp only [not_or, not_lt] at h
        simp [h.1, h.2, eq_comm]
    · simp
  · cases quartile <;> cases absolute <;> simp
    all_goals split <;> simp

-- non-vacuity: an accepted quartile, an accepted absolute value, the default, and the rejected combination
example : resolveAreaFilter (some (3 / 4)) none = .ok (.quartile (3 / 4)) := by
  dsimp only [resolveAreaFilter]; rw [if_neg (by decide +kernel)]
example : resolveAreaFilter (some (3 / 4)) (some 5) = .error .bothGiven := rfl

end MarEx.Props
