import Verif.Model.Pipeline
import Verif.Spec.Grid
import Verif.Lemmas.Components
import Mathlib.Data.List.Nodup
import Mathlib.Data.List.Pairwise
/-! Lemmas about labelling of graphs and grids. -/
namespace MarEx
open Spec

variable {n : Nat} {V : Type} [DecidableEq V]

theorem mem_graphEdges {nodes : List V} {adj : V → V → Bool} {e : Nat × Nat} :
    e ∈ (nodes.flatMap fun a => nodes.filterMap fun b => if adj a b then some (nodes.idxOf a, nodes.idxOf b) else none) ↔
      ∃ a ∈ nodes, ∃ b ∈ nodes, adj a b = true ∧ e = (nodes.idxOf a, nodes.idxOf b) := by
  simp only [List.mem_flatMap, List.mem_filterMap]
  constructor
  · rintro ⟨a, ha, b, hb, h⟩
    split at h
    · rename_i hab; cases h; exact ⟨a, ha, b, hb, hab, rfl⟩
    · cases h
  · rintro ⟨a, ha, b, hb, hab, rfl⟩
    exact ⟨a, ha, b, hb, by rw [if_pos hab]⟩

theorem labelGraph_pos {cc : Labeller} {nodes : List V} {adj : V → V → Bool} {v : V} :
    0 < labelGraph cc nodes adj v ↔ v ∈ nodes := by
  unfold labelGraph
  by_cases h : v ∈ nodes <;> simp [h]

theorem graphEdges_below {nodes : List V} {adj : V → V → Bool} : EdgesBelow nodes.length
    (nodes.flatMap fun a => nodes.filterMap fun b => if adj a b then some (nodes.idxOf a, nodes.idxOf b) else none) := by
  intro e he
  obtain ⟨a, ha, b, hb, _, rfl⟩ := mem_graphEdges.mp he
  exact ⟨List.idxOf_lt_length_of_mem ha, List.idxOf_lt_length_of_mem hb⟩

theorem labelGraph_same {cc : Labeller} (hcc : CorrectLabeller cc) {nodes : List V} {adj : V → V → Bool} {v w : V}
    (hv : v ∈ nodes) (hw : w ∈ nodes) :
    labelGraph cc nodes adj v = labelGraph cc nodes adj w ↔ Linked (fun a b => adj a b = true ∧ a ∈ nodes ∧ b ∈ nodes) v w := by
  have back : ∀ k, k ∈ nodes → nodes.getD (nodes.idxOf k) v = k := by
    intro k hk
    have hlt := List.idxOf_lt_length_of_mem hk
    rw [List.getD_eq_getElem?_getD, List.getElem?_eq_getElem hlt, List.getElem_idxOf hlt]; rfl
  unfold labelGraph
  simp only [List.contains_iff_mem, hv, hw, if_true]
  rw [Nat.add_right_cancel_iff,
    (hcc _ _ graphEdges_below).same_iff _ _ (List.idxOf_lt_length_of_mem hv) (List.idxOf_lt_length_of_mem hw)]
  constructor
  · intro h
    have := Linked.map (F := fun a b => adj a b = true ∧ a ∈ nodes ∧ b ∈ nodes) (fun k => nodes.getD k v) ?_ h
    · rwa [back v hv, back w hw] at this
    · intro x y hxy
      obtain ⟨a, ha, b, hb, hab, he⟩ := mem_graphEdges.mp hxy
      cases he
      rw [back a ha, back b hb]
      exact .fwd (.refl _) ⟨hab, ha, hb⟩
  · intro h
    refine Linked.map (fun k => nodes.idxOf k) ?_ h
    rintro a b ⟨hab, ha, hb⟩
    exact .fwd (.refl _) (mem_graphEdges.mpr ⟨a, ha, b, hb, hab, rfl⟩)

theorem labelGraph_count {cc : Labeller} (hcc : CorrectLabeller cc) {nodes : List V} (hnd : nodes.Nodup) (adj : V → V → Bool) (k : Nat) :
    (1 ≤ k ∧ k ≤ (cc nodes.length (nodes.flatMap fun a => nodes.filterMap fun b => if adj a b then some (nodes.idxOf a, nodes.idxOf b) else none)).1) ↔
      (∃ v ∈ nodes, labelGraph cc nodes adj v = k) := by
  have hl := (hcc nodes.length _ (graphEdges_below (nodes := nodes) (adj := adj))).labels
  constructor
  · rintro ⟨h1, h2⟩
    obtain ⟨a, ha, hk⟩ := (hl (k - 1)).mp (by omega)
    refine ⟨nodes[a], List.getElem_mem ha, ?_⟩
    unfold labelGraph
    simp only [List.contains_iff_mem]
    rw [if_pos (List.getElem_mem ha), List.Nodup.idxOf_getElem hnd, hk]
    omega
  · rintro ⟨v, hv, rfl⟩
    unfold labelGraph
    simp only [List.contains_iff_mem, hv, if_true]
    have := (hl _).mpr ⟨_, List.idxOf_lt_length_of_mem hv, rfl⟩
    omega

theorem labelGraph_labels {cc : Labeller} (hcc : CorrectLabeller cc) {nodes : List V} (hnd : nodes.Nodup) (adj : V → V → Bool) :
    ∃ N, ∀ k, (1 ≤ k ∧ k ≤ N) ↔ (∃ v ∈ nodes, labelGraph cc nodes adj v = k) := ⟨_, labelGraph_count hcc hnd adj⟩

theorem mem_extremeVoxels {data : List (Fin n → Bool)} {v : Nat × Fin n} : v ∈ extremeVoxels data ↔ IsExtreme data v.1 v.2 := by
  obtain ⟨t, i⟩ := v
  unfold extremeVoxels IsExtreme
  simp only [List.mem_flatMap, List.mem_range, List.mem_map, List.mem_filter, List.mem_finRange, true_and, Prod.mk.injEq]
  constructor
  · rintro ⟨s, hs, j, hj, rfl, rfl⟩
    rw [List.getElem?_eq_getElem hs] at hj ⊢
    exact ⟨_, rfl, by simpa using hj⟩
  · rintro ⟨d, hd, hi⟩
    exact ⟨t, (List.getElem?_eq_some_iff.mp hd).1, i, by rw [hd]; simpa using hi, rfl, rfl⟩

theorem nodup_extremeVoxels (data : List (Fin n → Bool)) : (extremeVoxels data).Nodup := by
  unfold extremeVoxels
  rw [List.nodup_flatMap]
  constructor
  · intro t _
    exact ((List.nodup_finRange n).filter _).map (fun a b h => by simpa using h)
  · refine List.nodup_range.imp ?_
    intro a b hab
    simp only [Function.onFun, List.disjoint_left, List.mem_map]
    rintro v ⟨i, _, rfl⟩ ⟨j, _, hj⟩
    simp only [Prod.mk.injEq] at hj
    exact hab hj.1.symm

theorem near_iff {a b : Nat} : near a b = true ↔ ((a : Int) - b).natAbs ≤ 1 := by
  unfold near; rw [decide_eq_true_eq]; omega

/-- The column test of the structuring element is the specification's. -/
theorem touch_iff {regional : Bool} {nx : Nat} (hnx : 0 < nx) {i j : Fin n} :
    (near (i.val / nx) (j.val / nx) && (near (i.val % nx) (j.val % nx) ||
    (!regional && ((i.val % nx == 0 && j.val % nx == nx - 1) || (i.val % nx == nx - 1 && j.val % nx == 0))))) = true
      ↔ Touch regional nx i j := by
  unfold Touch
  rw [Bool.and_eq_true, near_iff]
  refine and_congr ?_ ?_
  · push_cast; rfl
  · have h1 := Nat.mod_lt i.val hnx
    have h2 := Nat.mod_lt j.val hnx
    generalize i.val % nx = a at *
    generalize j.val % nx = b at *
    rw [Bool.or_eq_true, near_iff]
    cases regional with
    | true =>
      simp only [Bool.not_true, Bool.false_and, Bool.false_eq_true, or_false, if_true]
      constructor
      · intro h; exact ⟨(b : Int) - a, by omega, by omega⟩
      · rintro ⟨d, hd, he⟩; omega
    | false =>
      simp only [Bool.not_false, Bool.true_and, Bool.or_eq_true, Bool.and_eq_true, beq_iff_eq, Bool.false_eq_true, if_false]
      have emod : ∀ z : Int, 0 ≤ z → z < nx → z % nx = z := fun z h0 h1 => Int.emod_eq_of_lt h0 h1
      constructor
      · rintro (h | ⟨rfl, rfl⟩ | ⟨rfl, rfl⟩)
        · exact ⟨(b : Int) - a, by omega, by rw [emod] <;> omega⟩
        · refine ⟨-1, by decide, ?_⟩
          rw [← Int.add_emod_right, emod] <;> omega
        · refine ⟨1, by decide, ?_⟩
          rw [← Int.sub_emod_right, emod] <;> omega
      · rintro ⟨d, hd, he⟩
        by_cases hlo : (a : Int) + d < 0
        · rw [← Int.add_emod_right, emod] at he <;> omega
        · by_cases hhi : (a : Int) + d < nx
          · rw [emod] at he <;> omega
          · rw [← Int.sub_emod_right, emod] at he <;> omega

theorem identify_get {cc : Labeller} {tc regional : Bool} {nx : Nat} {data : List (Fin n → Bool)} {t : Nat} {g : Frame n}
    (h : (identifyObjectsGrid cc tc regional nx data)[t]? = some g) :
    t < data.length ∧ ∀ i, g i = labelGraph cc (extremeVoxels data) (voxelAdj tc regional nx) (t, i) := by
  unfold identifyObjectsGrid at h
  dsimp only at h
  rw [List.getElem?_map] at h
  obtain ⟨s, hs, rfl⟩ := Option.map_eq_some_iff.mp h
  obtain ⟨h1, h2⟩ := List.getElem?_eq_some_iff.mp hs
  rw [List.getElem_range] at h2
  subst h2
  exact ⟨by simpa using h1, fun i => rfl⟩

theorem length_identify {cc : Labeller} {tc regional : Bool} {nx : Nat} {data : List (Fin n → Bool)} :
    (identifyObjectsGrid cc tc regional nx data).length = data.length := by
  simp [identifyObjectsGrid]

theorem flatten_chunksOf {α : Type} (ks : List Nat) (l : List α) : (chunksOf ks l).flatten = l := by
  induction ks generalizing l with
  | nil => unfold chunksOf; split <;> simp_all
  | cons k ks ih => simp [chunksOf, ih]

theorem toImg_ofImg {ny nx : Nat} (f : Fin (ny * nx) → Bool) (i : Fin (ny * nx)) :
    toImg ny nx f (i.val / nx : Nat) (i.val % nx : Nat) = f i := by
  unfold toImg
  have : ((i.val / nx : Nat) : Int).toNat * nx + ((i.val % nx : Nat) : Int).toNat = i.val := by
    rw [Int.toNat_natCast, Int.toNat_natCast, Nat.mul_comm]
    exact Nat.div_add_mod _ _
  simp only [this, i.isLt, dite_true]

end MarEx
