import Verif.Model.Components
import Verif.Spec.Components
import Verif.Spec.Mesh
import Verif.Lemmas.Mesh
/-! Lemmas about connected components. -/
namespace MarEx
open Spec

theorem Spec.Linked.trans {V : Type} {E : V → V → Prop} {a b c : V} (h1 : Linked E a b) (h2 : Linked E b c) : Linked E a c := by
  induction h2 with
  | refl => exact h1
  | fwd _ h ih => exact .fwd ih h
  | bwd _ h ih => exact .bwd ih h

theorem Spec.Linked.symm {V : Type} {E : V → V → Prop} {a b : V} (h : Linked E a b) : Linked E b a := by
  induction h with
  | refl => exact .refl _
  | fwd _ h ih => exact Linked.trans (.bwd (.refl _) h) ih
  | bwd _ h ih => exact Linked.trans (.fwd (.refl _) h) ih

theorem Spec.Linked.mono {V : Type} {E F : V → V → Prop} (hEF : ∀ a b, E a b → F a b) {a b : V} (h : Linked E a b) :
    Linked F a b := by
  induction h with
  | refl => exact .refl _
  | fwd _ h ih => exact .fwd ih (hEF _ _ h)
  | bwd _ h ih => exact .bwd ih (hEF _ _ h)

theorem Spec.Linked.map {V U : Type} {E : V → V → Prop} {F : U → U → Prop} (φ : V → U)
    (hEF : ∀ a b, E a b → Linked F (φ a) (φ b)) {a b : V} (h : Linked E a b) : Linked F (φ a) (φ b) := by
  induction h with
  | refl => exact .refl _
  | fwd _ h ih => exact ih.trans (hEF _ _ h)
  | bwd _ h ih => exact ih.trans (hEF _ _ h).symm

/-- Any function that is constant along edges is constant along chains. -/
theorem Spec.Linked.invariant {V U : Type} {E : V → V → Prop} (φ : V → U) (hE : ∀ a b, E a b → φ a = φ b) {a b : V}
    (h : Linked E a b) : φ a = φ b := by
  induction h with
  | refl => rfl
  | fwd _ h ih => rw [ih, hE _ _ h]
  | bwd _ h ih => rw [ih, hE _ _ h]

theorem nodup_eraseDups {α : Type} [BEq α] [LawfulBEq α] (l : List α) : l.eraseDups.Nodup := by
  generalize hn : l.length = n
  induction n using Nat.strongRecOn generalizing l with
  | ind n ih =>
    cases l with
    | nil => simp
    | cons a as =>
      rw [List.eraseDups_cons]
      rw [List.nodup_cons]
      refine ⟨?_, ih (as.filter fun b => !b == a).length ?_ _ rfl⟩
      · rw [List.mem_eraseDups]; simp
      · have := List.length_filter_le (fun b => !b == a) as
        simp at hn; omega

theorem quickMerge_aux (edges : List (Nat × Nat)) (l : Nat → Nat) (E : Nat → Nat → Prop)
    (hl : ∀ a b, l a = l b ↔ Linked E a b) :
    ∀ a b, (edges.foldl (fun l e => fun v => if l v = l e.2 then l e.1 else l v) l) a
      = (edges.foldl (fun l e => fun v => if l v = l e.2 then l e.1 else l v) l) b
      ↔ Linked (fun u v => E u v ∨ (u, v) ∈ edges) a b := by
  induction edges generalizing l E with
  | nil => intro a b; simp only [List.foldl_nil, hl]; simp
  | cons e es ih =>
    intro a b
    simp only [List.foldl_cons]
    rw [ih _ (fun u v => E u v ∨ (u, v) = e)]
    · constructor
      · refine Linked.mono fun u v h => ?_
        rcases h with (h | h) | h
        · exact .inl h
        · exact .inr (by rw [h]; exact List.mem_cons_self)
        · exact .inr (List.mem_cons_of_mem _ h)
      · refine Linked.mono fun u v h => ?_
        rcases h with h | h
        · exact .inl (.inl h)
        · rcases List.mem_cons.mp h with h | h
          · exact .inl (.inr h)
          · exact .inr h
    · have up : ∀ {u v}, Linked E u v → Linked (fun u v => E u v ∨ (u, v) = e) u v := Linked.mono fun _ _ h => .inl h
      have ed : Linked (fun u v => E u v ∨ (u, v) = e) e.1 e.2 := .fwd (.refl _) (.inr rfl)
      intro u v
      constructor
      · intro h
        split at h <;> split at h <;> rename_i h1 h2
        · exact up ((hl _ _).mp (h1.trans h2.symm))
        · exact (up ((hl _ _).mp h1)).trans (ed.symm.trans (up ((hl _ _).mp h)))
        · exact (up ((hl _ _).mp h)).trans (ed.trans (up ((hl _ _).mp h2)).symm)
        · exact up ((hl _ _).mp h)
      · intro h
        refine Linked.invariant (fun v => if l v = l e.2 then l e.1 else l v) ?_ h
        rintro p q (h | h)
        · have : l p = l q := (hl p q).mpr (.fwd (.refl _) h)
          simp only [this]
        · subst h
          simp

theorem quickMerge_iff (edges : List (Nat × Nat)) (a b : Nat) :
    quickMerge edges a = quickMerge edges b ↔ Linked (fun u v => (u, v) ∈ edges) a b := by
  have := quickMerge_aux edges id (fun _ _ => False) (by
    intro a b
    constructor
    · intro h; cases h; exact .refl _
    · intro h; exact Linked.invariant id (fun _ _ h => h.elim) h) a b
  unfold quickMerge
  rw [this]
  simp

theorem quickFind_correct : CorrectLabeller quickFind := by
  intro n edges _
  constructor
  · intro a b ha hb
    rw [← quickMerge_iff]
    simp only [quickFind]
    have ma : quickMerge edges a ∈ ((List.range n).map (quickMerge edges)).eraseDups := by
      rw [List.mem_eraseDups]; exact List.mem_map_of_mem (List.mem_range.mpr ha)
    constructor
    · intro h
      have hlt := List.idxOf_lt_length_of_mem ma
      have e1 := List.getElem_idxOf hlt
      have mb : quickMerge edges b ∈ ((List.range n).map (quickMerge edges)).eraseDups := by
        rw [List.mem_eraseDups]; exact List.mem_map_of_mem (List.mem_range.mpr hb)
      have e2 := List.getElem_idxOf (List.idxOf_lt_length_of_mem mb)
      rw [← e1, ← e2]
      congr 1
    · intro h; rw [h]
  · intro k
    simp only [quickFind]
    constructor
    · intro hk
      have hm : (((List.range n).map (quickMerge edges)).eraseDups)[k] ∈ ((List.range n).map (quickMerge edges)).eraseDups :=
        List.getElem_mem hk
      have hm' := hm
      rw [List.mem_eraseDups] at hm'
      obtain ⟨a, ha, he⟩ := List.mem_map.mp hm'
      refine ⟨a, List.mem_range.mp ha, ?_⟩
      rw [he, List.Nodup.idxOf_getElem (nodup_eraseDups _)]
    · rintro ⟨a, ha, rfl⟩
      apply List.idxOf_lt_length_of_mem
      rw [List.mem_eraseDups]; exact List.mem_map_of_mem (List.mem_range.mpr ha)

variable {n : Nat}

theorem mem_trueIndices {arr : Fin n → Bool} {i : Fin n} : i ∈ trueIndices arr ↔ arr i = true := by
  simp [trueIndices]

theorem nodup_trueIndices {arr : Fin n → Bool} : (trueIndices arr).Nodup :=
  (List.nodup_finRange n).filter _

theorem mem_mappedEdges {nbr : NbrTable n} {arr : Fin n → Bool} {e : Nat × Nat} :
    e ∈ mappedEdges nbr arr ↔ ∃ c r, ListsNeighbour nbr c r ∧ arr c = true ∧ arr r = true ∧
      e = ((trueIndices arr).idxOf r, (trueIndices arr).idxOf c) := by
  unfold mappedEdges ListsNeighbour
  simp only [List.mem_flatMap, List.mem_filterMap, List.mem_finRange, true_and]
  constructor
  · rintro ⟨v, c, h⟩
    split at h
    · cases h
    · rename_i r hr
      rw [toCell_eq_some, neighboursInt] at hr
      split at h
      · rename_i hc
        simp only [Bool.and_eq_true, List.contains_iff_mem, mem_trueIndices] at hc
        cases h
        exact ⟨c, r, ⟨v, by omega⟩, hc.2, hc.1.1, rfl⟩
      · cases h
  · rintro ⟨c, r, ⟨v, hv⟩, hc, hr, rfl⟩
    refine ⟨v, c, ?_⟩
    have : toCell n (neighboursInt nbr v c) = some r := by
      rw [toCell_eq_some, neighboursInt]; omega
    simp only [this]
    rw [if_pos]
    simp [mem_trueIndices, hc, hr]

theorem mappedEdges_below {nbr : NbrTable n} {arr : Fin n → Bool} :
    EdgesBelow (trueIndices arr).length (mappedEdges nbr arr) := by
  intro e he
  obtain ⟨c, r, _, hc, hr, rfl⟩ := mem_mappedEdges.mp he
  exact ⟨List.idxOf_lt_length_of_mem (mem_trueIndices.mpr hr), List.idxOf_lt_length_of_mem (mem_trueIndices.mpr hc)⟩

/-- Adjacent extreme cells. -/
def Adjacent (nbr : NbrTable n) (arr : Fin n → Bool) (a b : Fin n) : Prop :=
  ListsNeighbour nbr a b ∧ arr a = true ∧ arr b = true

theorem linked_mapped_iff {nbr : NbrTable n} {arr : Fin n → Bool} {i j : Fin n} (hi : arr i = true) (hj : arr j = true) :
    Linked (fun u v => (u, v) ∈ mappedEdges nbr arr) ((trueIndices arr).idxOf i) ((trueIndices arr).idxOf j)
      ↔ Linked (Adjacent nbr arr) i j := by
  have back : ∀ k, arr k = true → (trueIndices arr).getD ((trueIndices arr).idxOf k) i = k := by
    intro k hk
    have hlt := List.idxOf_lt_length_of_mem (mem_trueIndices.mpr hk)
    rw [List.getD_eq_getElem?_getD, List.getElem?_eq_getElem hlt, List.getElem_idxOf hlt]; rfl
  constructor
  · intro h
    have := Linked.map (F := Adjacent nbr arr) (fun k => (trueIndices arr).getD k i) ?_ h
    · rwa [back i hi, back j hj] at this
    · intro u v huv
      obtain ⟨c, r, hcr, hc, hr, he⟩ := mem_mappedEdges.mp huv
      cases he
      rw [back c hc, back r hr]
      exact .bwd (.refl _) ⟨hcr, hc, hr⟩
  · intro h
    refine Linked.map (fun k => (trueIndices arr).idxOf k) ?_ h
    rintro a b ⟨hab, ha, hb⟩
    exact .bwd (.refl _) (mem_mappedEdges.mpr ⟨a, b, hab, ha, hb, rfl⟩)

theorem clusterTrueValues_pos {cc : Labeller} {nbr : NbrTable n} {arr : Fin n → Bool} {i : Fin n} :
    0 < clusterTrueValues cc nbr arr i ↔ arr i = true := by
  unfold clusterTrueValues
  simp only [List.contains_iff_mem, mem_trueIndices]
  split
  · rename_i h; simp [h]
  · rename_i h; simp [h]

theorem clusterTrueValues_same {cc : Labeller} (hcc : CorrectLabeller cc) {nbr : NbrTable n} {arr : Fin n → Bool}
    {i j : Fin n} (hi : arr i = true) (hj : arr j = true) :
    clusterTrueValues cc nbr arr i = clusterTrueValues cc nbr arr j ↔ Linked (Adjacent nbr arr) i j := by
  unfold clusterTrueValues
  simp only [List.contains_iff_mem, mem_trueIndices, hi, hj, if_true]
  rw [Nat.add_right_cancel_iff, (hcc _ _ mappedEdges_below).same_iff, linked_mapped_iff hi hj]
  · exact List.idxOf_lt_length_of_mem (mem_trueIndices.mpr hi)
  · exact List.idxOf_lt_length_of_mem (mem_trueIndices.mpr hj)

theorem clusterTrueValues_labels {cc : Labeller} (hcc : CorrectLabeller cc) (nbr : NbrTable n) (arr : Fin n → Bool) :
    ∃ N, ∀ k, (1 ≤ k ∧ k ≤ N) ↔ (0 < k ∧ ∃ i, clusterTrueValues cc nbr arr i = k) := by
  refine ⟨(cc (trueIndices arr).length (mappedEdges nbr arr)).1, fun k => ?_⟩
  have hl := (hcc _ _ (mappedEdges_below (nbr := nbr) (arr := arr))).labels
  constructor
  · rintro ⟨h1, h2⟩
    obtain ⟨a, ha, hk⟩ := (hl (k - 1)).mp (by omega)
    refine ⟨h1, (trueIndices arr)[a], ?_⟩
    unfold clusterTrueValues
    simp only [List.contains_iff_mem]
    rw [if_pos (List.getElem_mem ha), List.Nodup.idxOf_getElem nodup_trueIndices, hk]
    omega
  · rintro ⟨h1, i, rfl⟩
    have hi := clusterTrueValues_pos.mp h1
    unfold clusterTrueValues at h1 ⊢
    simp only [List.contains_iff_mem, mem_trueIndices, hi, if_true] at h1 ⊢
    have := (hl ((cc (trueIndices arr).length (mappedEdges nbr arr)).2 ((trueIndices arr).idxOf i))).mpr
      ⟨_, List.idxOf_lt_length_of_mem (mem_trueIndices.mpr hi), rfl⟩
    omega

theorem identifyObjectsMesh_eq {cc : Labeller} {nbr : NbrTable n} {mask data : Fin n → Bool} {i : Fin n} :
    identifyObjectsMesh cc nbr mask data i = clusterTrueValues cc nbr (fun i => mask i && data i) i := by
  unfold identifyObjectsMesh
  split
  · rfl
  · rename_i h
    have : ¬ 0 < clusterTrueValues cc nbr (fun i => mask i && data i) i := by
      rw [clusterTrueValues_pos]; simp [h]
    omega

theorem foldl_max_le {α : Type} (f : α → Nat) (l : List α) (m : Nat) :
    m ≤ l.foldl (fun m i => max m (f i)) m ∧ ∀ a ∈ l, f a ≤ l.foldl (fun m i => max m (f i)) m := by
  induction l generalizing m with
  | nil => simp
  | cons x l ih =>
    simp only [List.foldl_cons]
    have := ih (max m (f x))
    refine ⟨by omega, ?_⟩
    intro a ha
    rcases List.mem_cons.mp ha with rfl | ha
    · omega
    · exact this.2 a ha

theorem foldl_max_mem {α : Type} (f : α → Nat) (l : List α) (m : Nat) :
    l.foldl (fun m i => max m (f i)) m = m ∨ ∃ a ∈ l, l.foldl (fun m i => max m (f i)) m = f a := by
  induction l generalizing m with
  | nil => simp
  | cons x l ih =>
    simp only [List.foldl_cons]
    rcases ih (max m (f x)) with h | ⟨a, ha, h⟩
    · rw [h]
      by_cases hx : f x ≤ m
      · left; omega
      · right; exact ⟨x, List.mem_cons_self, by omega⟩
    · exact .inr ⟨a, List.mem_cons_of_mem _ ha, h⟩

theorem le_fieldMax (f : Fin n → Nat) (i : Fin n) : f i ≤ fieldMax f :=
  (foldl_max_le f _ 0).2 i (List.mem_finRange i)

theorem fieldMax_attained (f : Fin n → Nat) : fieldMax f = 0 ∨ ∃ i, fieldMax f = f i := by
  rcases foldl_max_mem f (List.finRange n) 0 with h | ⟨a, _, h⟩
  · exact .inl h
  · exact .inr ⟨a, h⟩

theorem length_uniqueAcrossTime (s : Nat) (fs : List (Fin n → Nat)) : (uniqueAcrossTime s fs).length = fs.length := by
  induction fs generalizing s with
  | nil => rfl
  | cons f fs ih => simp [uniqueAcrossTime, ih]

/-- Every frame is shifted by one amount, which exceeds everything used before. -/
theorem uniqueAcrossTime_get (s : Nat) (fs : List (Fin n → Nat)) (t : Nat) (f : Fin n → Nat) (hf : fs[t]? = some f) :
    ∃ k, s ≤ k ∧ (uniqueAcrossTime s fs)[t]? = some (fun i => if f i > 0 then f i + k else 0) := by
  induction fs generalizing s t with
  | nil => simp at hf
  | cons g fs ih =>
    cases t with
    | zero =>
      simp only [List.getElem?_cons_zero, Option.some.injEq] at hf
      subst hf
      exact ⟨s, Nat.le_refl _, rfl⟩
    | succ t =>
      simp only [List.getElem?_cons_succ] at hf
      obtain ⟨k, hk, h⟩ := ih (s + fieldMax g) t hf
      exact ⟨k, by omega, by simpa [uniqueAcrossTime] using h⟩

theorem uniqueAcrossTime_lt (s : Nat) (fs : List (Fin n → Nat)) (t t' : Nat) (htt : t < t') (g g' : Fin n → Nat)
    (hg : (uniqueAcrossTime s fs)[t]? = some g) (hg' : (uniqueAcrossTime s fs)[t']? = some g')
    (i j : Fin n) (hj : 0 < g' j) : g i < g' j := by
  induction fs generalizing s t t' with
  | nil => simp [uniqueAcrossTime] at hg
  | cons f fs ih =>
    cases t' with
    | zero => omega
    | succ t' =>
      cases t with
      | zero =>
        simp only [uniqueAcrossTime, List.getElem?_cons_zero, Option.some.injEq] at hg
        simp only [uniqueAcrossTime, List.getElem?_cons_succ] at hg'
        have hlt : t' < fs.length := by
          have := (List.getElem?_eq_some_iff.mp hg').1
          rwa [length_uniqueAcrossTime] at this
        obtain ⟨k, hk, hkk⟩ := uniqueAcrossTime_get (s + fieldMax f) fs t' fs[t'] (List.getElem?_eq_getElem hlt)
        rw [hg'] at hkk
        simp only [Option.some.injEq] at hkk
        rw [hkk] at hj ⊢
        rw [← hg]
        have := le_fieldMax f i
        dsimp only at hj ⊢
        split at hj
        · split <;> omega
        · omega
      | succ t =>
        simp only [uniqueAcrossTime, List.getElem?_cons_succ] at hg hg'
        exact ih (s + fieldMax f) t t' (by omega) hg hg'

/-- If every frame uses exactly the labels `1..N`, the shifted frames together use exactly `s+1..s+total`. -/
theorem uniqueAcrossTime_contiguous (s : Nat) (fs : List (Fin n → Nat))
    (h : ∀ f ∈ fs, ∃ N, ∀ k, (1 ≤ k ∧ k ≤ N) ↔ (0 < k ∧ ∃ i, f i = k)) :
    ∃ total, ∀ k, (s + 1 ≤ k ∧ k ≤ s + total) ↔ (0 < k ∧ ∃ g ∈ uniqueAcrossTime s fs, ∃ i, g i = k) := by
  induction fs generalizing s with
  | nil => exact ⟨0, fun k => by simp [uniqueAcrossTime]; omega⟩
  | cons f fs ih =>
    obtain ⟨N, hN⟩ := h f List.mem_cons_self
    obtain ⟨tot, ht⟩ := ih (s + fieldMax f) (fun g hg => h g (List.mem_cons_of_mem _ hg))
    have hmax : fieldMax f = N := by
      apply Nat.le_antisymm
      · rcases fieldMax_attained f with h0 | ⟨i, hi⟩
        · omega
        · by_cases hz : f i = 0
          · omega
          · have := (hN (f i)).mpr ⟨by omega, i, rfl⟩; omega
      · by_cases hz : N = 0
        · omega
        · obtain ⟨_, i, hi⟩ := (hN N).mp ⟨by omega, Nat.le_refl _⟩
          have := le_fieldMax f i; omega
    refine ⟨N + tot, fun k => ?_⟩
    simp only [uniqueAcrossTime, List.mem_cons]
    constructor
    · rintro ⟨h1, h2⟩
      refine ⟨by omega, ?_⟩
      by_cases hk : k ≤ s + N
      · obtain ⟨_, i, hi⟩ := (hN (k - s)).mp ⟨by omega, by omega⟩
        exact ⟨_, .inl rfl, i, by rw [if_pos (by omega)]; omega⟩
      · obtain ⟨_, g, hg, i, hi⟩ := (ht k).mp ⟨by omega, by omega⟩
        exact ⟨g, .inr hg, i, hi⟩
    · rintro ⟨hk, g, rfl | hg, i, hi⟩
      · dsimp only at hi
        split at hi
        · have := (hN (f i)).mpr ⟨by omega, i, rfl⟩; omega
        · omega
      · have := (ht k).mpr ⟨hk, g, hg, i, hi⟩; omega

end MarEx
