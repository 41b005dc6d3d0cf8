import Verif.Lemmas.Overlap
/-! Properties C12, C13: overlap table and link threshold. -/
namespace MarEx.Props
open MarEx

variable {n : Nat}

/-- **C12**, one pair of steps: `(a, b, v)` is listed iff `a`, `b` are positive IDs sharing a cell and `v` is the total weight
of the shared cells; every pair is listed once. -/
theorem C12_overlap_slice_exact (w : Fin n → ℚ) (f g : Fin n → Nat) :
    (∀ a b v, (⟨a, b, v⟩ : Ov) ∈ checkOverlapSlice w f g ↔
      0 < a ∧ 0 < b ∧ (∃ i, f i = a ∧ g i = b) ∧
      v = ((List.finRange n).map fun i => if f i = a ∧ g i = b then w i else 0).sum) ∧
    ((checkOverlapSlice w f g).map fun o => (o.a, o.b)).Nodup :=
  ⟨fun _ _ _ => mem_checkOverlapSlice, pairwise_checkOverlapSlice w f g⟩

/-- **C12**, whole record: `(a, b, v)` is listed iff some cell carries `a` at one step and `b` at the next, `a`, `b` are
positive, and `v` is the weight of all such cells summed over all consecutive steps; every pair is listed once. -/
theorem C12_overlap_list_exact (w : Fin n → ℚ) (fs : List (Fin n → Nat)) :
    (∀ a b v, (⟨a, b, v⟩ : Ov) ∈ findOverlaps w fs ↔
      0 < a ∧ 0 < b ∧ (∃ p ∈ fs.zip fs.tail, ∃ i, p.1 i = a ∧ p.2 i = b) ∧
      v = ((fs.zip fs.tail).map fun p =>
        ((List.finRange n).map fun i => if p.1 i = a ∧ p.2 i = b then w i else 0).sum).sum) ∧
    ((findOverlaps w fs).map fun o => (o.a, o.b)).Nodup :=
  ⟨fun _ _ _ => mem_findOverlaps, nodup_findOverlaps w fs⟩

-- non-vacuity: object 1 overlaps objects 7 and 9, with weights 1+2 and 8
example : checkOverlapSlice (n := 5) (fun i => (2 : ℚ) ^ i.val) (fun _ => 1) (fun i => if i.val < 2 then 7 else if i.val = 3 then 9 else 0)
    = [⟨1, 7, 3⟩, ⟨1, 9, 8⟩] := by decide +kernel

/-- All areas in the table are positive (every listed object has at least one cell of positive area). -/
def PositiveAreas (props : List Obj) : Prop := ∀ k x, areaOf props k = some x → 0 < x

/-- **C13**: a listed overlap is kept iff both objects are in the property table and the overlap is at least
`overlap_threshold` times the smaller of the two areas. -/
theorem C13_link_iff_threshold (thr : ℚ) (props : List Obj) (hp : PositiveAreas props) (ovs : List Ov) (o : Ov) :
    o ∈ enforceOverlap thr props ovs ↔
      o ∈ ovs ∧ ∃ x y, areaOf props o.a = some x ∧ areaOf props o.b = some y ∧ thr * min x y ≤ o.v := by
  unfold enforceOverlap
  rw [List.mem_filter]
  refine and_congr_right fun _ => ?_
  constructor
  · intro h
    split at h
    · rename_i x y hx hy
      have hm : 0 < min x y := lt_min (hp _ _ hx) (hp _ _ hy)
      simp only [fractionAtLeast, if_neg (ne_of_gt hm), decide_eq_true_eq] at h
      exact ⟨x, y, hx, hy, (le_div_iff₀ hm).mp h⟩
    · cases h
  · rintro ⟨x, y, hx, hy, h⟩
    have hm : 0 < min x y := lt_min (hp _ _ hx) (hp _ _ hy)
    simp only [hx, hy, fractionAtLeast, if_neg (ne_of_gt hm), decide_eq_true_eq]
    exact (le_div_iff₀ hm).mpr h

/-- **C13**, objects of area zero (cell areas are not checked): when the smaller area is zero, the threshold plays no part, and a listed
overlap is kept iff it is positive. -/
theorem C13_zero_area (thr : ℚ) (props : List Obj) (ovs : List Ov) (o : Ov) (x y : ℚ) (hx : areaOf props o.a = some x)
    (hy : areaOf props o.b = some y) (h0 : min x y = 0) : o ∈ enforceOverlap thr props ovs ↔ o ∈ ovs ∧ 0 < o.v := by
  unfold enforceOverlap
  rw [List.mem_filter]
  simp [hx, hy, fractionAtLeast, h0]

example : enforceOverlap (1 / 2) [⟨1, 0, (0, 0)⟩, ⟨2, 10, (0, 0)⟩] [⟨1, 2, 0⟩] = [] := by decide +kernel

/-- **C13**: raising the threshold never adds a link. -/
theorem C13_monotone_in_threshold (thr thr' : ℚ) (h : thr ≤ thr') (props : List Obj) (ovs : List Ov) (o : Ov)
    (ho : o ∈ enforceOverlap thr' props ovs) : o ∈ enforceOverlap thr props ovs := by
  unfold enforceOverlap at ho ⊢
  rw [List.mem_filter] at ho ⊢
  refine ⟨ho.1, ?_⟩
  have h2 := ho.2
  split at h2
  · rename_i x y hx hy
    unfold fractionAtLeast at h2 ⊢
    split at h2
    · rename_i h0; rw [if_pos h0]; exact h2
    · rename_i h0; rw [if_neg h0]; simp only [decide_eq_true_eq] at h2 ⊢; exact le_trans h h2
  · cases h2

/-- **C13**: the decision is symmetric under exchanging the two time steps: a link `(a, b)` is accepted between two
consecutive steps iff `(b, a)` is accepted when the steps are exchanged. -/
theorem C13_symmetric (w : Fin n → ℚ) (f g : Fin n → Nat) (thr : ℚ) (props : List Obj) (a b : Nat) (v : ℚ) :
    (⟨a, b, v⟩ : Ov) ∈ enforceOverlap thr props (checkOverlapSlice w f g) ↔
    (⟨b, a, v⟩ : Ov) ∈ enforceOverlap thr props (checkOverlapSlice w g f) := by
  unfold enforceOverlap
  simp only [List.mem_filter, mem_checkOverlapSlice]
  have e : sharedWeight w f g a b = sharedWeight w g f b a := by
    unfold sharedWeight
    congr 1
    apply List.map_congr_left
    intro i _
    congr 1
    rw [eq_iff_iff]; exact and_comm
  rw [e]
  have e2 : (∃ i, f i = a ∧ g i = b) ↔ (∃ i, g i = b ∧ f i = a) := by
    constructor <;> rintro ⟨i, h1, h2⟩ <;> exact ⟨i, h2, h1⟩
  rw [e2]
  cases areaOf props a <;> cases areaOf props b <;> simp [min_comm, and_left_comm]

-- non-vacuity: overlap 3 of areas 6 and 10 is accepted at 1/2 and rejected at 2/3
example : enforceOverlap (1 / 2) [⟨1, 6, (0, 0)⟩, ⟨2, 10, (0, 0)⟩] [⟨1, 2, 3⟩] = [⟨1, 2, 3⟩] ∧
    enforceOverlap (2 / 3) [⟨1, 6, (0, 0)⟩, ⟨2, 10, (0, 0)⟩] [⟨1, 2, 3⟩] = [] := by decide +kernel

end MarEx.Props
