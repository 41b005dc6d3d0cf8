import Verif.Lemmas.MeshPartition
import Verif.Lemmas.SplitMerge
/-! Properties C15–C18 and C56: partition of merged objects. -/
namespace MarEx.Props
open MarEx

variable {n : Nat}

/-! ### C18: distances -/

/-- **C18**: both distance functions used for partitioning on a periodic grid return the squared distance to the nearest
periodic image, for columns of the grid. -/
theorem C18_nearest_image (Nx y1 x1 y2 x2 : ℚ) (hN : 0 < Nx) (h : |x1 - x2| < Nx) :
    Spec.PeriodicDistSq Nx y1 x1 y2 x2 (distSqPoint true Nx y1 x1 y2 x2) ∧
    Spec.PeriodicDistSq Nx y1 x1 y2 x2 (distSqMask true Nx y1 x1 y2 x2) :=
  ⟨by simpa [Spec.DistSq] using distSqPoint_spec true Nx y1 x1 y2 x2 hN h,
   by simpa [Spec.DistSq] using distSqMask_spec true Nx y1 x1 y2 x2 hN h⟩

/-- **C18**, regional grids: without wrapping it is the plain distance. -/
theorem C18_plain (Nx y1 x1 y2 x2 : ℚ) :
    distSqPoint false Nx y1 x1 y2 x2 = (y1 - y2) ^ 2 + (x1 - x2) ^ 2 ∧
    distSqMask false Nx y1 x1 y2 x2 = (y1 - y2) ^ 2 + (x1 - x2) ^ 2 := by
  simp [distSqPoint, distSqMask, wrapDxPoint, wrapDxMask]

theorem periodic_symm {Nx y1 x1 y2 x2 d : ℚ} (h : Spec.PeriodicDistSq Nx y1 x1 y2 x2 d) : Spec.PeriodicDistSq Nx y2 x2 y1 x1 d := by
  obtain ⟨⟨k, hk⟩, h2⟩ := h
  refine ⟨⟨-k, by rw [hk]; push_cast; ring⟩, ?_⟩
  intro j
  have := h2 (-j)
  calc d ≤ _ := this
    _ = _ := by push_cast; ring

/-- **C18**: the distance is symmetric, zero only for the same point, and the x-part never exceeds half the circumference. -/
theorem C18_metric_facts (Nx y1 x1 y2 x2 : ℚ) (hN : 0 < Nx) (h : |x1 - x2| < Nx) :
    distSqPoint true Nx y1 x1 y2 x2 = distSqPoint true Nx y2 x2 y1 x1 ∧
    (distSqPoint true Nx y1 x1 y2 x2 = 0 ↔ y1 = y2 ∧ x1 = x2) ∧
    distSqPoint true Nx y1 x1 y2 x2 ≤ (y1 - y2) ^ 2 + (Nx / 2) ^ 2 ∧
    distSqMask true Nx y1 x1 y2 x2 = distSqPoint true Nx y1 x1 y2 x2 := by
  have h' : |x2 - x1| < Nx := by rw [abs_sub_comm]; exact h
  refine ⟨?_, ?_, ?_, ?_⟩
  · refine DistSq_unique (wrap := true) (distSqPoint_spec true Nx y1 x1 y2 x2 hN h) ?_
    have := distSqPoint_spec true Nx y2 x2 y1 x1 hN h'
    simp only [Spec.DistSq, if_true] at this ⊢
    exact periodic_symm this
  · constructor
    · intro h0
      unfold distSqPoint at h0
      have ha : (y1 - y2) ^ 2 = 0 := le_antisymm (by nlinarith [sq_nonneg (wrapDxPoint true Nx (x1 - x2))]) (sq_nonneg _)
      have hb : (wrapDxPoint true Nx (x1 - x2)) ^ 2 = 0 := by linarith
      have hb' := pow_eq_zero_iff (two_ne_zero) |>.mp hb
      have ha' := pow_eq_zero_iff (two_ne_zero) |>.mp ha
      refine ⟨by linarith, ?_⟩
      unfold wrapDxPoint at hb'
      rw [abs_lt] at h
      simp only [if_true] at hb'
      split at hb'
      · linarith
      · split at hb'
        · linarith
        · linarith
    · rintro ⟨rfl, rfl⟩
      have : ¬ Nx / 2 < 0 := by linarith
      simp [distSqPoint, wrapDxPoint, this]
  · obtain ⟨h1, _⟩ := wrapPoint_range Nx (x1 - x2) hN h
    unfold distSqPoint
    have := sq_le_sq' (by rw [abs_le] at h1; exact h1.1) (by rw [abs_le] at h1; exact h1.2)
    linarith
  · unfold distSqMask distSqPoint; rw [wrap_mask_eq_point true Nx _ hN h]

-- non-vacuity: columns 1 and 9 of a 10-column grid are 2 apart
example : distSqPoint true 10 0 1 3 9 = 9 + 4 ∧ |(1 : ℚ) - 9| < 10 := by
  constructor
  · decide +kernel
  · rw [abs_lt]; norm_num

/-! ### C15: partitioning only relabels -/

/-- Tracker settings on a structured grid of `ny` rows and `nx` columns: unit weights, periodic or not, and one of the two
partition methods. -/
def gridCfg (wrap nn : Bool) (ny nx : Nat) (thr : ℚ) (cen : Frame n → Nat → ℚ × ℚ) : TrackCfg n :=
  { w := fun _ => 1, thr, cen, part := if nn then nnPart wrap ny nx else centroidPart wrap nx }

/-- **C15**: partitioning the child object `child` of a frame, for either method: cells of other objects and background cells
keep their value; a cell of the child gets the child's own ID or one of the fresh IDs, of which there are as many (with the
child's) as parents. -/
theorem C15_partition_only_relabels (wrap nn : Bool) (ny nx : Nat) (thr : ℚ) (cen : Frame n → Nat → ℚ × ℚ) (t : Nat)
    (prev cur : Frame n) (s : SMState) (ovs : List Ov) (child : Nat) (hpar : ∃ o ∈ ovs, o.b = child) :
    let m := (ovs.filter fun o => o.b = child).length
    let r := processChild (gridCfg wrap nn ny nx thr cen) t prev (cur, s, ovs) child
    (∀ i, cur i ≠ child → r.1 i = cur i) ∧
    (∀ i, cur i = child → r.1 i = child ∨ s.nextId ≤ r.1 i ∧ r.1 i < s.nextId + (m - 1)) ∧
    r.2.1.nextId = s.nextId + (m - 1) := by
  have e : ∀ o : Ov, (o.b == child) = decide (o.b = child) := fun o => by
    cases h : decide (o.b = child) <;> simp_all
  simp only [processChild, e, List.length_map]
  generalize hg : ovs.filter (fun o => decide (o.b = child)) = g
  have hgne : g ≠ [] := by
    obtain ⟨o, ho, hb⟩ := hpar
    rw [← hg]; intro h
    have : o ∈ ovs.filter (fun o => decide (o.b = child)) := List.mem_filter.mpr ⟨ho, by simpa using hb⟩
    rw [h] at this; cases this
  have hlen : 0 < g.length := List.length_pos_iff.mpr hgne
  refine ⟨fun i hi => by rw [if_neg hi], fun i hi => ?_, trivial⟩
  rw [if_pos hi]
  have key : (gridCfg wrap nn ny nx thr cen).part prev cur child (g.map (·.a)) (child :: List.range' s.nextId (g.length - 1)) s.props i
      ∈ child :: List.range' s.nextId (g.length - 1) := by
    have hl : (child :: List.range' s.nextId (g.length - 1)).length = g.length := by simp; omega
    unfold gridCfg
    cases nn
    · simp only [Bool.false_eq_true, if_false]
      unfold centroidPart
      have := argmin_lt (l := (g.map (·.a)).map fun p =>
        distSqMask wrap nx (rowOf nx i) (colOf nx i) (cenOf s.props p).1 (cenOf s.props p).2) (by simpa using hgne)
      rw [List.length_map, List.length_map, ← hl] at this
      rw [List.getD_eq_getElem _ _ this]
      exact List.getElem_mem _
    · simp only [if_true]
      unfold nnPart
      dsimp only
      have := nnAssign_lt wrap ny nx (max (sqrtTimes (((g.map (·.a)).map fun p => (areaOf s.props p).getD 0).foldl max 0) 3) 40)
        ((g.map (·.a)).map (cellsWith prev)) ((g.map (·.a)).map (cenOf s.props)) i (by simpa using hgne) (by simp)
      rw [List.length_map, List.length_map, ← hl] at this
      rw [List.getD_eq_getElem _ _ this]
      exact List.getElem_mem _
  rcases List.mem_cons.mp key with h | h
  · left; exact h
  · right; rw [List.mem_range'_1] at h; exact h

-- non-vacuity: child 3 (cells 0–4) with parents 1 and 2 is split between IDs 3 and 4, cell 5 is untouched
example : (List.finRange 6).map (processChild (n := 6) (gridCfg true false 1 6 (1/2) (fun _ _ => (0, 0))) 1
      (fun i => if i.val < 2 then 1 else 2)
      (fun i => if i.val < 5 then 3 else 0, ⟨[⟨1, 2, (0, 1/2)⟩, ⟨2, 3, (0, 3)⟩, ⟨3, 5, (0, 2)⟩], 4, []⟩, [⟨1, 3, 2⟩, ⟨2, 3, 3⟩]) 3).1
    = [3, 3, 4, 4, 4, 0] := by decide +kernel

/-! ### C16: centroid partition -/

theorem nearest_centroid_aux (wrap : Bool) (nx : Nat) (hnx : 0 < nx) (prev cur : Frame n) (child : Nat)
    (parents childIds : List Nat) (hlen : childIds.length = parents.length) (hne : parents ≠ []) (props : List Obj)
    (hcen : ∀ p ∈ parents, 0 ≤ (cenOf props p).2 ∧ (cenOf props p).2 < nx) (i : Fin n) :
    ∃ r p d, parents[r]? = some p ∧ childIds[r]? = some (centroidPart wrap nx prev cur child parents childIds props i) ∧
      Spec.DistSq wrap nx ((i.val / nx : Nat) : ℚ) ((i.val % nx : Nat) : ℚ) (cenOf props p).1 (cenOf props p).2 d ∧
      ∀ (b q : Nat) (e : ℚ), parents[b]? = some q →
        Spec.DistSq wrap nx ((i.val / nx : Nat) : ℚ) ((i.val % nx : Nat) : ℚ) (cenOf props q).1 (cenOf props q).2 e →
        d ≤ e ∧ (b < r → d < e) := by
  have hN : (0 : ℚ) < nx := by exact_mod_cast hnx
  have hdist : ∀ q ∈ parents, Spec.DistSq wrap nx ((i.val / nx : Nat) : ℚ) ((i.val % nx : Nat) : ℚ) (cenOf props q).1 (cenOf props q).2
      (distSqMask wrap nx ((i.val / nx : Nat) : ℚ) ((i.val % nx : Nat) : ℚ) (cenOf props q).1 (cenOf props q).2) := by
    intro q hq
    apply distSqMask_spec _ _ _ _ _ _ hN
    obtain ⟨h1, h2⟩ := hcen q hq
    have h3 : ((i.val % nx : Nat) : ℚ) < nx := by exact_mod_cast Nat.mod_lt _ hnx
    have h4 : (0 : ℚ) ≤ ((i.val % nx : Nat) : ℚ) := by positivity
    rw [abs_lt]; constructor <;> linarith
  obtain ⟨v, hv, hmin⟩ := argmin_spec (l := parents.map fun p =>
    distSqMask wrap nx (rowOf nx i) (colOf nx i) (cenOf props p).1 (cenOf props p).2) (by simpa using hne)
  unfold centroidPart
  generalize argmin (parents.map fun p =>
    distSqMask wrap nx (rowOf nx i) (colOf nx i) (cenOf props p).1 (cenOf props p).2) = r at *
  rw [List.getElem?_map, Option.map_eq_some_iff] at hv
  obtain ⟨p, hp, hpv⟩ := hv
  have hr : r < childIds.length := by rw [hlen]; exact (List.getElem?_eq_some_iff.1 hp).1
  refine ⟨r, p, v, hp, ?_, ?_, ?_⟩
  · rw [List.getD_eq_getElem _ _ hr, List.getElem?_eq_getElem hr]
  · rw [← hpv]; exact hdist p (List.mem_of_getElem? hp)
  · intro b q e hb he
    have := hmin b _ (by rw [List.getElem?_map, hb]; rfl)
    rw [DistSq_unique he (hdist q (List.mem_of_getElem? hb))]
    exact this

/-- `cen p` is the centroid that the object table gives for each object of `ids`. -/
def TableCentroids (props : List Obj) (ids : List Nat) (cen : Nat → ℚ × ℚ) : Prop :=
  ∀ p ∈ ids, (∃ o ∈ props, o.id = p) ∧ ∀ o ∈ props, o.id = p → o.cen = cen p

/-- `area p` is the area that the object table gives for each object of `ids`. -/
def TableAreas (props : List Obj) (ids : List Nat) (area : Nat → ℚ) : Prop :=
  ∀ p ∈ ids, (∃ o ∈ props, o.id = p) ∧ ∀ o ∈ props, o.id = p → o.area = area p

theorem find_row {props : List Obj} {p : Nat} (h : ∃ o ∈ props, o.id = p) :
    ∃ o, props.find? (fun o => o.id == p) = some o ∧ o ∈ props ∧ o.id = p := by
  cases hf : props.find? (fun o => o.id == p) with
  | none =>
    obtain ⟨o, ho, hp⟩ := h
    have := List.find?_eq_none.mp hf o ho
    simp [hp] at this
  | some o => exact ⟨o, rfl, List.mem_of_find?_eq_some hf, by simpa using List.find?_some hf⟩

theorem cenOf_table {props : List Obj} {ids : List Nat} {cen : Nat → ℚ × ℚ} (h : TableCentroids props ids cen) {p : Nat} (hp : p ∈ ids) :
    cenOf props p = cen p := by
  obtain ⟨o, h1, h2, h3⟩ := find_row (h p hp).1
  unfold cenOf
  rw [h1]
  exact (h p hp).2 o h2 h3

theorem areaOf_table {props : List Obj} {ids : List Nat} {area : Nat → ℚ} (h : TableAreas props ids area) {p : Nat} (hp : p ∈ ids) :
    areaOf props p = some (area p) := by
  obtain ⟨o, h1, h2, h3⟩ := find_row (h p hp).1
  unfold areaOf
  rw [h1, Option.map_some, (h p hp).2 o h2 h3]

/-- **C16**, structured grids: the label of a cell is the child ID that belongs to a parent whose centroid is at minimal
(periodic if `wrap`) distance, and to the first such parent. -/
theorem C16_nearest_centroid (wrap : Bool) (nx : Nat) (hnx : 0 < nx) (prev cur : Frame n) (child : Nat)
    (parents childIds : List Nat) (hlen : childIds.length = parents.length) (hne : parents ≠ []) (props : List Obj)
    (cen : Nat → ℚ × ℚ) (ht : TableCentroids props parents cen)
    (hcen : ∀ p ∈ parents, 0 ≤ (cen p).2 ∧ (cen p).2 < nx) (i : Fin n) :
    ∃ r p d, parents[r]? = some p ∧ childIds[r]? = some (centroidPart wrap nx prev cur child parents childIds props i) ∧
      Spec.DistSq wrap nx ((i.val / nx : Nat) : ℚ) ((i.val % nx : Nat) : ℚ) (cen p).1 (cen p).2 d ∧
      ∀ (b q : Nat) (e : ℚ), parents[b]? = some q →
        Spec.DistSq wrap nx ((i.val / nx : Nat) : ℚ) ((i.val % nx : Nat) : ℚ) (cen q).1 (cen q).2 e →
        d ≤ e ∧ (b < r → d < e) := by
  obtain ⟨r, p, d, h1, h2, h3, h4⟩ := nearest_centroid_aux wrap nx hnx prev cur child parents childIds hlen hne props
    (fun p hp => by rw [cenOf_table ht hp]; exact hcen p hp) i
  refine ⟨r, p, d, h1, h2, ?_, ?_⟩
  · rw [← cenOf_table ht (List.mem_of_getElem? h1)]; exact h3
  · intro b q e hb he
    rw [← cenOf_table ht (List.mem_of_getElem? hb)] at he
    exact h4 b q e hb he

-- non-vacuity: on a periodic row of 10 cells, cell 9 is nearest to the centroid at column 1 (parent 2), not the one at 5
example : centroidPart (n := 10) true 10 (fun _ => 0) (fun _ => 3) 3 [1, 2] [3, 4] [⟨1, 1, (0, 5)⟩, ⟨2, 1, (0, 1)⟩] 9 = 4 := by
  decide +kernel

/-- **C113** fails on meshes: writing the labels back raises an error (one label per mesh cell is assigned to the object's cells only)
exactly when the merged object does not cover the whole mesh, so that no object of practical size is partitioned. If it covers the mesh,
every cell gets the child ID of its closest parent. -/
theorem C113_mesh_centroid_partition_raises_fails (f : Frame n) (child : Nat) (childIds : List Nat) (closest : Fin n → Nat) (hn : 2 ≤ n) :
    (meshCentroidStep f child childIds closest = none ↔ ∃ i, f i ≠ child) ∧
    ∀ g, meshCentroidStep f child childIds closest = some g → ∀ i k, childIds[closest i]? = some k → g i = k := by
  by_cases h : ∃ i, f i ≠ child
  · have hnone : meshCentroidStep f child childIds closest = none := by
      unfold meshCentroidStep assignMasked partitionMeshCentroid
      have hlt : ((List.finRange n).filter fun i => f i == child).length < n := by
        obtain ⟨i, hi⟩ := h
        conv_rhs => rw [← List.length_finRange (n := n)]
        apply List.length_filter_lt_length_iff_exists.mpr
        exact ⟨i, List.mem_finRange _, by simpa using hi⟩
      simp only [List.length_map, List.length_finRange]
      rw [if_neg (by omega), if_neg (by omega)]
    refine ⟨by simp [hnone, h], fun g hg => ?_⟩
    rw [hnone] at hg; cases hg
  · have hall : ∀ i, f i = child := by
      intro i; by_contra hi; exact h ⟨i, hi⟩
    have hfil : ((List.finRange n).filter fun i => f i == child) = List.finRange n :=
      List.filter_eq_self.mpr fun i _ => by simp [hall i]
    have hsome : ∃ g, meshCentroidStep f child childIds closest = some g ∧ ∀ i, g i = childIds.getD (closest i) 0 := by
      unfold meshCentroidStep assignMasked partitionMeshCentroid
      rw [hfil, if_pos (by simp)]
      refine ⟨_, rfl, fun i => ?_⟩
      dsimp only
      rw [if_pos (by simp [hall i]), List.idxOf_finRange, List.getD_eq_getElem?_getD]
      simp [hall]
    obtain ⟨g, hg, hgi⟩ := hsome
    refine ⟨by simp [hg, h], fun g' hg' i k hk => ?_⟩
    rw [hg] at hg'; cases hg'
    rw [hgi, List.getD_eq_getElem?_getD, hk, Option.getD_some]

-- non-vacuity: a 4-cell mesh with a 3-cell merged object
example : ∃ i, (fun i : Fin 4 => if i.val < 3 then 7 else 0) i ≠ 7 := ⟨3, by decide⟩

/-! ### C17: nearest-neighbour partition -/

theorem nearest_cell_aux (wrap : Bool) (ny nx : Nat) (hn : n = ny * nx) (prev cur : Frame n) (child : Nat)
    (parents childIds : List Nat) (hlen : childIds.length = parents.length) (props : List Obj) (R : Nat)
    (hR : R = max (sqrtTimes ((parents.map fun p => (areaOf props p).getD 0).foldl max 0) 3) 40)
    (hw : wrap = false ∨ max 2 (R / 4) ∣ nx) (i : Fin n)
    (hnear : ∃ p ∈ parents, ∃ j d, prev j = p ∧ d ≤ ((max 2 (R / 4) : Nat) : ℚ) ^ 2 ∧
      Spec.DistSq wrap nx ((i.val / nx : Nat) : ℚ) ((i.val % nx : Nat) : ℚ) ((j.val / nx : Nat) : ℚ) ((j.val % nx : Nat) : ℚ) d) :
    ∃ r p j d, parents[r]? = some p ∧ childIds[r]? = some (nnPart wrap ny nx prev cur child parents childIds props i) ∧ prev j = p ∧
      Spec.DistSq wrap nx ((i.val / nx : Nat) : ℚ) ((i.val % nx : Nat) : ℚ) ((j.val / nx : Nat) : ℚ) ((j.val % nx : Nat) : ℚ) d ∧
      ∀ (b q : Nat) (j' : Fin n) (e : ℚ), parents[b]? = some q → prev j' = q →
        Spec.DistSq wrap nx ((i.val / nx : Nat) : ℚ) ((i.val % nx : Nat) : ℚ) ((j'.val / nx : Nat) : ℚ) ((j'.val % nx : Nat) : ℚ) e →
        d ≤ e ∧ (b < r → d < e) := by
  have hspec : ∀ j : Fin n, Spec.DistSq wrap nx ((i.val / nx : Nat) : ℚ) ((i.val % nx : Nat) : ℚ) ((j.val / nx : Nat) : ℚ)
      ((j.val % nx : Nat) : ℚ) (cellDistSq wrap nx i j) := by
    intro j
    have h1 := colOf_lt hn i
    have h2 := colOf_lt hn j
    unfold colOf at h1 h2
    apply distSqPoint_spec
    · have : 0 < nx := by omega
      exact_mod_cast this
    · have h3 : ((i.val % nx : Nat) : ℚ) < nx := by exact_mod_cast h1
      have h4 : ((j.val % nx : Nat) : ℚ) < nx := by exact_mod_cast h2
      have h5 : (0 : ℚ) ≤ ((i.val % nx : Nat) : ℚ) := by positivity
      have h6 : (0 : ℚ) ≤ ((j.val % nx : Nat) : ℚ) := by positivity
      rw [abs_lt]; constructor <;> linarith
  have hcells : ∀ p (j : Fin n), j ∈ cellsWith prev p ↔ prev j = p := by
    intro p j; unfold cellsWith; rw [List.mem_filter]; simp
  obtain ⟨p0, hp0, j0, d0, hj0, hd0, hD0⟩ := hnear
  obtain ⟨q, hq, j, hj, hall⟩ := nnAssign_near hn wrap R (by omega) hw (parents.map (cellsWith prev)) (parents.map (cenOf props)) i
    ⟨cellsWith prev p0, List.mem_map_of_mem hp0, j0, (hcells _ _).mpr hj0, by rw [← DistSq_unique hD0 (hspec j0)]; exact hd0⟩
  unfold nnPart
  dsimp only
  rw [← hR]
  generalize nnAssign wrap ny nx R (parents.map (cellsWith prev)) (parents.map (cenOf props)) i = r at *
  rw [List.getElem?_map, Option.map_eq_some_iff] at hq
  obtain ⟨p, hp, hpq⟩ := hq
  have hr : r < childIds.length := by rw [hlen]; exact (List.getElem?_eq_some_iff.1 hp).1
  refine ⟨r, p, j, cellDistSq wrap nx i j, hp, ?_, ?_, hspec j, ?_⟩
  · rw [List.getD_eq_getElem _ _ hr, List.getElem?_eq_getElem hr]
  · rw [← hpq] at hj; exact (hcells _ _).mp hj
  · intro b q' j' e hb hj' he
    rw [DistSq_unique he (hspec j')]
    exact hall b (cellsWith prev q') (by rw [List.getElem?_map, hb]; rfl) j' ((hcells _ _).mpr hj')

/-- `A` is the largest of the areas of `ids`. -/
def LargestArea (area : Nat → ℚ) (ids : List Nat) (A : ℚ) : Prop := (∃ p ∈ ids, area p = A) ∧ ∀ p ∈ ids, area p ≤ A

/-- `R` is `k √A` rounded down, but at least `m`. -/
def SearchRadius (k : Nat) (A : ℚ) (m R : Nat) : Prop :=
  (R = m ∧ (k : ℚ) ^ 2 * A < ((m : ℚ) + 1) ^ 2) ∨ (m ≤ R ∧ (R : ℚ) ^ 2 ≤ (k : ℚ) ^ 2 * A ∧ (k : ℚ) ^ 2 * A < ((R : ℚ) + 1) ^ 2)

theorem sqrtTimes_spec (x : ℚ) (hx : 0 ≤ x) (k : Nat) :
    ((sqrtTimes x k : Nat) : ℚ) ^ 2 ≤ (k : ℚ) ^ 2 * x ∧ (k : ℚ) ^ 2 * x < ((sqrtTimes x k : Nat) + 1 : ℚ) ^ 2 := by
  unfold sqrtTimes
  have h0 : (0 : ℚ) ≤ x * (k : ℚ) ^ 2 := by positivity
  have hf : (0 : Int) ≤ ⌊x * (k : ℚ) ^ 2⌋ := Int.floor_nonneg.mpr h0
  set m := (x * (k : ℚ) ^ 2).floor.toNat with hm
  have hmf : ((m : Nat) : Int) = ⌊x * (k : ℚ) ^ 2⌋ := Int.toNat_of_nonneg hf
  have hmq : ((m : Nat) : ℚ) = ((⌊x * (k : ℚ) ^ 2⌋ : Int) : ℚ) := by rw [← hmf]; simp
  have h1 : (m : ℚ) ≤ x * (k : ℚ) ^ 2 := by rw [hmq]; exact Int.floor_le _
  have h2 : x * (k : ℚ) ^ 2 < (m : ℚ) + 1 := by rw [hmq]; exact Int.lt_floor_add_one _
  have h3 : Nat.sqrt m * Nat.sqrt m ≤ m := Nat.sqrt_le m
  have h4 : m < (Nat.sqrt m + 1) * (Nat.sqrt m + 1) := Nat.sqrt_lt'.mp (Nat.lt_succ_self _) |> fun h => by simpa [pow_two] using h
  have h3q : ((Nat.sqrt m : Nat) : ℚ) ^ 2 ≤ m := by rw [pow_two]; exact_mod_cast h3
  have h4q : (m : ℚ) + 1 ≤ ((Nat.sqrt m : Nat) + 1 : ℚ) ^ 2 := by
    rw [pow_two]
    exact_mod_cast h4
  constructor <;> nlinarith

theorem searchRadius_eq {k m R : Nat} {A : ℚ} (h : SearchRadius k A m R) : R = max (sqrtTimes (max 0 A) k) m := by
  obtain ⟨h1, h2⟩ := sqrtTimes_spec (max 0 A) (le_max_left _ _) k
  set s := sqrtTimes (max 0 A) k with hs
  have hk2 : (0 : ℚ) ≤ (k : ℚ) ^ 2 := by positivity
  rcases h with ⟨rfl, h3⟩ | ⟨h3, h4, h5⟩
  · have : s ≤ R := by
      by_contra hc
      have hc' : (R : ℚ) + 1 ≤ s := by exact_mod_cast (Nat.lt_of_not_le hc)
      have hR0 : (0 : ℚ) ≤ R := by positivity
      rcases le_total 0 A with hA | hA
      · rw [max_eq_right hA] at h1
        nlinarith
      · rw [max_eq_left hA] at h1
        nlinarith
    omega
  · have hR0 : (0 : ℚ) ≤ R := by positivity
    have hs0 : (0 : ℚ) ≤ s := by positivity
    have hkA : (k : ℚ) ^ 2 * max 0 A = (k : ℚ) ^ 2 * A := by
      rcases le_total 0 A with hA | hA
      · rw [max_eq_right hA]
      · rw [max_eq_left hA]
        have : (k : ℚ) ^ 2 * A ≤ 0 := mul_nonpos_of_nonneg_of_nonpos hk2 hA
        have : (0 : ℚ) ≤ (R : ℚ) ^ 2 := by positivity
        linarith
    rw [hkA] at h1 h2
    have a : (s : ℚ) < R + 1 := by
      by_contra hc
      nlinarith
    have b : (R : ℚ) < s + 1 := by
      by_contra hc
      nlinarith
    have a' : s < R + 1 := by exact_mod_cast a
    have b' : R < s + 1 := by exact_mod_cast b
    omega

theorem foldl_max_largest {area : Nat → ℚ} {ids : List Nat} {A : ℚ} (h : LargestArea area ids A) :
    (ids.map area).foldl max 0 = max 0 A := by
  have key : ∀ (l : List ℚ) (m : ℚ), m ≤ l.foldl max m ∧ (∀ x ∈ l, x ≤ l.foldl max m) ∧ (l.foldl max m = m ∨ l.foldl max m ∈ l) := by
    intro l
    induction l with
    | nil => intro m; simp
    | cons a l ih =>
      intro m
      rw [List.foldl_cons]
      obtain ⟨h1, h2, h3⟩ := ih (max m a)
      refine ⟨le_trans (le_max_left _ _) h1, ?_, ?_⟩
      · intro x hx
        rcases List.mem_cons.mp hx with rfl | hx
        · exact le_trans (le_max_right _ _) h1
        · exact h2 x hx
      · rcases h3 with h3 | h3
        · rcases le_total m a with hm | hm
          · right; rw [h3, max_eq_right hm]; simp
          · left; rw [h3, max_eq_left hm]
        · right; simp [h3]
  obtain ⟨h1, h2, h3⟩ := key (ids.map area) 0
  obtain ⟨⟨p, hp, rfl⟩, hall⟩ := h
  apply le_antisymm
  · rcases h3 with h3 | h3
    · rw [h3]; exact le_max_left _ _
    · obtain ⟨q, hq, he⟩ := List.mem_map.mp h3
      rw [← he]
      exact le_trans (hall q hq) (le_max_right _ _)
  · exact max_le h1 (h2 _ (List.mem_map.mpr ⟨p, hp, rfl⟩))

theorem radius_aux {props : List Obj} {parents : List Nat} {area : Nat → ℚ} {A : ℚ} {R : Nat} (ht : TableAreas props parents area)
    (hA : LargestArea area parents A) (hR : SearchRadius 3 A 40 R) :
    R = max (sqrtTimes ((parents.map fun p => (areaOf props p).getD 0).foldl max 0) 3) 40 := by
  have e : (parents.map fun p => (areaOf props p).getD 0) = parents.map area := by
    apply List.map_congr_left
    intro p hp
    rw [areaOf_table ht hp, Option.getD_some]
  rw [e, foldl_max_largest hA]
  exact searchRadius_eq hR

/-- **C17**, proved part: the radius of the bucket search is `R`: three times the square root of the largest
parent area, rounded down, but at least 40; its bucket size is `max 2 (R / 4)`. If some
parent cell lies within one bucket size of cell `i`, and the grid is not periodic or the bucket size divides its width, then
the label of `i` is the child ID of a parent owning a parent cell at minimal distance, and of the first such parent.
Missing: cells whose nearest parent cell is farther than one bucket size but within `R` (`C17_fails`), and periodic grids whose
width is not a multiple of the bucket size (`C17_seam_fails`). -/
theorem C17_nearest_cell_partial (wrap : Bool) (ny nx : Nat) (hn : n = ny * nx) (prev cur : Frame n) (child : Nat)
    (parents childIds : List Nat) (hlen : childIds.length = parents.length) (props : List Obj)
    (area : Nat → ℚ) (ht : TableAreas props parents area) (A : ℚ) (hA : LargestArea area parents A)
    (R : Nat) (hR : SearchRadius 3 A 40 R) (hw : wrap = false ∨ max 2 (R / 4) ∣ nx) (i : Fin n)
    (hnear : ∃ p ∈ parents, ∃ j d, prev j = p ∧ d ≤ ((max 2 (R / 4) : Nat) : ℚ) ^ 2 ∧
      Spec.DistSq wrap nx ((i.val / nx : Nat) : ℚ) ((i.val % nx : Nat) : ℚ) ((j.val / nx : Nat) : ℚ) ((j.val % nx : Nat) : ℚ) d) :
    ∃ r p j d, parents[r]? = some p ∧ childIds[r]? = some (nnPart wrap ny nx prev cur child parents childIds props i) ∧ prev j = p ∧
      Spec.DistSq wrap nx ((i.val / nx : Nat) : ℚ) ((i.val % nx : Nat) : ℚ) ((j.val / nx : Nat) : ℚ) ((j.val % nx : Nat) : ℚ) d ∧
      ∀ (b q : Nat) (j' : Fin n) (e : ℚ), parents[b]? = some q → prev j' = q →
        Spec.DistSq wrap nx ((i.val / nx : Nat) : ℚ) ((i.val % nx : Nat) : ℚ) ((j'.val / nx : Nat) : ℚ) ((j'.val % nx : Nat) : ℚ) e →
        d ≤ e ∧ (b < r → d < e) :=
  nearest_cell_aux wrap ny nx hn prev cur child parents childIds hlen props R (radius_aux ht hA hR) hw i hnear

-- the hypotheses on the table and the radius hold for two parents of 100 and 400 cells: R = 60
example : TableAreas [⟨1, 100, (0, 0)⟩, ⟨2, 400, (0, 0)⟩] [1, 2] (fun p => if p = 1 then 100 else 400) ∧
    LargestArea (fun p => if p = 1 then 100 else 400) [1, 2] 400 ∧ SearchRadius 3 400 40 60 := by
  refine ⟨?_, ?_, ?_⟩
  · intro p hp; simp at hp; rcases hp with rfl | rfl <;> simp
  · refine ⟨⟨2, by simp⟩, ?_⟩
    intro p hp; simp at hp; rcases hp with rfl | rfl <;> norm_num
  · right; norm_num

-- non-vacuity: a periodic row of 20 cells (bucket size 10), parent 1 at cell 19, parent 2 at cell 4, child cell 1:
-- parent 1 (distance 2 across the seam) wins
example : nnPart (n := 20) true 1 20 (fun i => if i.val = 19 then 1 else if i.val = 4 then 2 else 0) (fun _ => 3) 3 [1, 2] [3, 4]
    [⟨1, 1, (0, 19)⟩, ⟨2, 1, (0, 4)⟩] 1 = 3 := by decide +kernel

theorem scanPoints_far {maxSq : ℚ} {ds : List ℚ} (h : ∀ d ∈ ds, maxSq < d) : scanPoints maxSq ds none = (none, false) := by
  induction ds with
  | nil => rfl
  | cons d ds ih => rw [scanPoints, if_pos (h d (by simp))]; exact ih fun e he => h e (by simp [he])

/-- **C17**, cells beyond the search radius: if every cell of every parent is farther than `R` from a child cell, the child cell goes
to the first parent with the nearest centroid. -/
theorem C17_far_cells_by_centroid (wrap : Bool) (ny nx : Nat) (hn : n = ny * nx) (prev cur : Frame n) (child : Nat)
    (parents childIds : List Nat) (hlen : childIds.length = parents.length) (hne : parents ≠ []) (props : List Obj)
    (area : Nat → ℚ) (ht : TableAreas props parents area) (A : ℚ) (hA : LargestArea area parents A)
    (R : Nat) (hR : SearchRadius 3 A 40 R) (cen : Nat → ℚ × ℚ) (hc : TableCentroids props parents cen)
    (hcen : ∀ p ∈ parents, 0 ≤ (cen p).2 ∧ (cen p).2 < nx) (i : Fin n)
    (hfar : ∀ p ∈ parents, ∀ j d, prev j = p →
      Spec.DistSq wrap nx ((i.val / nx : Nat) : ℚ) ((i.val % nx : Nat) : ℚ) ((j.val / nx : Nat) : ℚ) ((j.val % nx : Nat) : ℚ) d →
      (R : ℚ) ^ 2 < d) :
    ∃ r p d, parents[r]? = some p ∧ childIds[r]? = some (nnPart wrap ny nx prev cur child parents childIds props i) ∧
      Spec.DistSq wrap nx ((i.val / nx : Nat) : ℚ) ((i.val % nx : Nat) : ℚ) (cen p).1 (cen p).2 d ∧
      ∀ (b q : Nat) (e : ℚ), parents[b]? = some q →
        Spec.DistSq wrap nx ((i.val / nx : Nat) : ℚ) ((i.val % nx : Nat) : ℚ) (cen q).1 (cen q).2 e →
        d ≤ e ∧ (b < r → d < e) := by
  have hi := colOf_lt hn i
  unfold colOf at hi
  have hi' : ((i.val % nx : Nat) : ℚ) < nx := by exact_mod_cast hi
  have hi0 : (0 : ℚ) ≤ ((i.val % nx : Nat) : ℚ) := by positivity
  have hnx : (0 : ℚ) < nx := by linarith
  have hspec : ∀ j : Fin n, Spec.DistSq wrap nx ((i.val / nx : Nat) : ℚ) ((i.val % nx : Nat) : ℚ) ((j.val / nx : Nat) : ℚ)
      ((j.val % nx : Nat) : ℚ) (cellDistSq wrap nx i j) := by
    intro j
    have h2 := colOf_lt hn j
    unfold colOf at h2
    apply distSqPoint_spec _ _ _ _ _ _ hnx
    have h4 : ((j.val % nx : Nat) : ℚ) < nx := by exact_mod_cast h2
    have h6 : (0 : ℚ) ≤ ((j.val % nx : Nat) : ℚ) := by positivity
    rw [abs_lt]; constructor <;> linarith
  have hcs : ∀ p ∈ parents, Spec.DistSq wrap nx ((i.val / nx : Nat) : ℚ) ((i.val % nx : Nat) : ℚ) (cen p).1 (cen p).2
      (distSqPoint wrap nx (rowOf nx i) (colOf nx i) (cen p).1 (cen p).2) := by
    intro p hp
    apply distSqPoint_spec _ _ _ _ _ _ hnx
    obtain ⟨h1, h2⟩ := hcen p hp
    rw [abs_lt]; constructor <;> linarith
  have hloop : ∀ (l : List (Nat × List (Fin n))), (∀ q ∈ l, ∃ p ∈ parents, q.2 = cellsWith prev p) →
      l.foldl (nnParent wrap ny nx (max 2 (R / 4)) ((R : ℚ) ^ 2) i) ⟨none, 0, false⟩ = ⟨none, 0, false⟩ := by
    intro l hl
    induction l with
    | nil => rfl
    | cons q l ih =>
      rw [List.foldl_cons]
      have e : nnParent wrap ny nx (max 2 (R / 4)) ((R : ℚ) ^ 2) i ⟨none, 0, false⟩ q = ⟨none, 0, false⟩ := by
        unfold nnParent
        split
        · rfl
        · obtain ⟨p, hp, hq⟩ := hl q (by simp)
          rw [scanPoints_far]
          · simp [lessInf]
          · intro d hd
            obtain ⟨j, hj, rfl⟩ := List.mem_map.mp hd
            have := nearPoints_subset hj
            rw [hq] at this
            exact hfar p hp j _ (by simpa [cellsWith] using this) (hspec j)
      rw [e]
      exact ih fun q hq => hl q (by simp [hq])
  unfold nnPart nnAssign
  dsimp only
  rw [← radius_aux ht hA hR, hloop _ (by
    intro q hq
    have := (List.of_mem_zip hq).2
    obtain ⟨p, hp, he⟩ := List.mem_map.mp this
    exact ⟨p, hp, he.symm⟩)]
  dsimp only
  rw [List.map_map]
  set l := parents.map ((fun c => distSqPoint wrap nx (rowOf nx i) (colOf nx i) c.1 c.2) ∘ cenOf props) with hl
  have hlne : l ≠ [] := by simpa [hl] using hne
  have hlt := argmin_lt hlne
  obtain ⟨v, hv, hmin⟩ := argmin_spec hlne
  set r := argmin l with hr
  have hlen' : l.length = parents.length := by simp [hl]
  have hrp : r < parents.length := by omega
  have hl' : ∀ b q : Nat, parents[b]? = some q → l[b]? = some (distSqPoint wrap nx (rowOf nx i) (colOf nx i) (cen q).1 (cen q).2) := by
    intro b q hb
    rw [hl, List.getElem?_map, hb, Option.map_some]
    simp only [Function.comp]
    rw [cenOf_table hc (List.mem_of_getElem? hb)]
  have hpr : parents[r]? = some parents[r] := List.getElem?_eq_getElem hrp
  have hvr := hl' r _ hpr
  rw [hv] at hvr
  cases hvr
  refine ⟨r, parents[r], _, hpr, ?_, hcs _ (List.mem_of_getElem? hpr), ?_⟩
  · rw [List.getD_eq_getElem _ _ (by omega), List.getElem?_eq_getElem (by omega)]
  · intro b q e hb he
    rw [DistSq_unique he (hcs q (List.mem_of_getElem? hb))]
    exact hmin b _ (hl' b q hb)

-- non-vacuity: a row of 100 cells, child cell 0, parents of one cell at 50 and 60 (beyond radius 40): the nearer one, second in the list
example : nnPart (n := 100) false 1 100 (fun i => if i.val = 60 then 1 else if i.val = 50 then 2 else 0) (fun _ => 3) 3 [1, 2] [3, 4]
    [⟨1, 1, (0, 60)⟩, ⟨2, 1, (0, 50)⟩] 0 = 4 ∧ SearchRadius 3 1 40 40 := by
  refine ⟨by decide +kernel, Or.inl ⟨rfl, by norm_num⟩⟩

/-- **C17** fails: a row of 60 cells, child cell 20, parent 1 owns cell 39 (distance 19), parent 2 owns cell 9 (distance 11).
Both are within the search radius 40, but the child cell is given to parent 1. -/
theorem C17_fails : nnPart (n := 60) false 1 60 (fun i => if i.val = 39 then 1 else if i.val = 9 then 2 else 0) (fun _ => 3) 3 [1, 2] [3, 4]
    [⟨1, 1, (0, 39)⟩, ⟨2, 1, (0, 9)⟩] 20 = 3 ∧ Spec.PlainDistSq 0 20 0 39 361 ∧ Spec.PlainDistSq 0 20 0 9 121 := by
  refine ⟨by decide +kernel, by norm_num [Spec.PlainDistSq], by norm_num [Spec.PlainDistSq]⟩

/-- **C17** fails at the seam of a periodic grid whose width (62) is not a multiple of the bucket size (10): child cell 2, parent 1
owns cell 13 (distance 11), parent 2 owns cell 57 (distance 7 across the seam); the child cell is given to parent 1. -/
theorem C17_seam_fails : nnPart (n := 62) true 1 62 (fun i => if i.val = 13 then 1 else if i.val = 57 then 2 else 0) (fun _ => 3) 3 [1, 2]
    [3, 4] [⟨1, 1, (0, 13)⟩, ⟨2, 1, (0, 57)⟩] 2 = 3 ∧
    Spec.PeriodicDistSq 62 0 2 0 13 121 ∧ Spec.PeriodicDistSq 62 0 2 0 57 49 := by
  refine ⟨by decide +kernel, ?_, ?_⟩
  · have := (C18_nearest_image 62 0 2 0 13 (by norm_num) (by norm_num [abs_lt])).1
    rwa [show distSqPoint true 62 0 2 0 13 = 121 by decide +kernel] at this
  · have := (C18_nearest_image 62 0 2 0 57 (by norm_num) (by norm_num [abs_lt])).1
    rwa [show distSqPoint true 62 0 2 0 57 = 49 by decide +kernel] at this

/-! ### C56: nearest-neighbour partition on meshes -/

/-- **C56** fails: cells 0–1–2–3 and 5–4–3 are two paths of a mesh; parent 0 owns cell 0, three hops from cell 3, and parent 1 owns
cell 5, two hops from cell 3; cell 3 is given to parent 0. -/
theorem C56_fewest_hops_fails :
    let nbr : Fin 3 → Fin 6 → Option (Fin 6) := fun d i =>
      match i, d with
      | 0, 0 => some 1 | 1, 0 => some 0 | 1, 1 => some 2 | 2, 0 => some 1 | 2, 2 => some 3
      | 3, 0 => some 2 | 3, 1 => some 4 | 4, 0 => some 3 | 4, 1 => some 5 | 5, 0 => some 4 | _, _ => none
    partitionMeshNN nbr (fun i => i.val == 3) (fun i => if i = 0 then some 0 else if i = 5 then some 1 else none) 40 (fun _ => 0) 3 = 0 ∧
    Spec.Hops nbr 2 5 3 ∧ ¬ Spec.Hops nbr 0 0 3 ∧ ¬ Spec.Hops nbr 1 0 3 ∧ ¬ Spec.Hops nbr 2 0 3 := by
  refine ⟨by decide +kernel, Spec.Hops.succ 0 rfl (Spec.Hops.succ 0 rfl (Spec.Hops.zero _)), ?_, ?_, ?_⟩
  · intro h; cases h
  · intro h
    cases h with
    | succ d hd h => cases h with
      | zero => revert d; decide
  · intro h
    cases h with
    | succ d hd h => cases h with
      | succ e he h => cases h with
        | zero => revert d e; rename_i p1; revert p1; decide

/-- **C56**, proved part: `fr` holds the parent index of every cell overlapped by a parent. A child cell overlapped by a parent
keeps that parent. A child cell reached by the search goes to a parent at most three times as many hops away as the nearest
parent. Other child cells go to the great-circle choice `far`; none of them is adjacent to a parent.
Missing: the assigned parent is the one with the fewest hops (`C56_fewest_hops_fails`). -/
theorem C56_at_most_three_times_partial (nbr : Fin 3 → Fin n → Option (Fin n)) (child : Fin n → Bool) (fr : Fin n → Option Nat)
    (maxDist : Nat) (hmax : 0 < maxDist) (far : Fin n → Nat) (i : Fin n) (hi : child i = true) :
    (∀ x, fr i = some x → partitionMeshNN nbr child fr maxDist far i = x) ∧
    ((∃ p m, fr p = some (partitionMeshNN nbr child fr maxDist far i) ∧ Spec.Hops nbr m p i ∧
        ∀ q y k, fr q = some y → Spec.Hops nbr k q i → m ≤ 3 * k) ∨
     (partitionMeshNN nbr child fr maxDist far i = far i ∧ ∀ q y k, fr q = some y → Spec.Hops nbr k q i → 2 ≤ k)) := by
  unfold partitionMeshNN
  dsimp only
  have hlt := lt_nPar fr
  generalize ((List.finRange n).map fun j => match fr j with | some x => x + 1 | none => 0).foldl max 0 = N at *
  constructor
  · intro x hx
    rw [ext_frontLoop N child maxDist fr i x hx]
  · cases h : frontLoop nbr N child maxDist fr i with
    | some x =>
      left
      obtain ⟨r, ⟨p, m, h1, h2, h3⟩, h4⟩ := frontLoop_some N child maxDist fr hlt h
      exact ⟨p, m, h1, h2, fun q y k hq hk => by have := h4 q y hq k hk; omega⟩
    | none =>
      right
      refine ⟨rfl, ?_⟩
      obtain ⟨f, rfl⟩ := Nat.exists_eq_succ_of_ne_zero (by omega : maxDist ≠ 0)
      exact fun q y k hq hk => frontLoop_none N child f fr hlt hi h q y hq k hk

-- non-vacuity: on a path 0–1–2–3 with parents at both ends, the inner cells go to their own side
example : let nbr : Fin 3 → Fin 4 → Option (Fin 4) := fun d i =>
      match i, d with
      | 0, 0 => some 1 | 1, 0 => some 0 | 1, 1 => some 2 | 2, 0 => some 3 | 2, 1 => some 1 | 3, 0 => some 2 | _, _ => none
    let r := partitionMeshNN nbr (fun _ => true) (fun i => if i = 0 then some 0 else if i = 3 then some 1 else none) 40 (fun _ => 0)
    r 0 = 0 ∧ r 1 = 0 ∧ r 3 = 1 := by decide +kernel

/-- **C56**, proved part for connected cells: a child cell that is connected to a cell of a parent by at most `maxDist` hops inside the
child is always reached by the search, so it goes to a parent at most three times as many hops away as the nearest one.
Missing: the parent is the one with the fewest hops (`C56_fewest_hops_fails`). -/
theorem C56_connected_cells_partial (nbr : Fin 3 → Fin n → Option (Fin n)) (child : Fin n → Bool) (fr : Fin n → Option Nat)
    (maxDist : Nat) (far : Fin n → Nat) (i : Fin n) (hi : child i = true) (p : Fin n) (x k : Nat) (hp : fr p = some x)
    (hk : k ≤ maxDist) (hpath : Spec.HopsIn nbr child k p i) :
    ∃ q m, fr q = some (partitionMeshNN nbr child fr maxDist far i) ∧ Spec.Hops nbr m q i ∧
      ∀ r y j, fr r = some y → Spec.Hops nbr j r i → m ≤ 3 * j := by
  unfold partitionMeshNN
  dsimp only
  have hlt := lt_nPar fr
  generalize ((List.finRange n).map fun j => match fr j with | some x => x + 1 | none => 0).foldl max 0 = N at *
  have hs := frontLoop_reach N child maxDist fr hlt hpath (by rw [hp]; rfl) hk hi
  cases h : frontLoop nbr N child maxDist fr i with
  | none => rw [h] at hs; cases hs
  | some y =>
    obtain ⟨r, ⟨p, m, h1, h2, h3⟩, h4⟩ := frontLoop_some N child maxDist fr hlt h
    exact ⟨p, m, h1, h2, fun q y k hq hk => by have := h4 q y hq k hk; omega⟩

-- non-vacuity: on a path 0–1–2–3 whose cells all belong to the child, cell 2 is two hops from cell 0, inside the child
example : Spec.HopsIn (n := 4) (fun d i => if d = 0 then (if h : i.val + 1 < 4 then some ⟨i.val + 1, h⟩ else none) else none)
    (fun _ => true) 2 0 2 :=
  .succ (q := 1) 0 (by simp) rfl (.succ (q := 2) 0 (by simp) rfl (.zero _))

/-- **C56**, limit of the search: a child cell more than `3 * maxDist` hops away from every parent goes to the great-circle choice. -/
theorem C56_beyond_search (nbr : Fin 3 → Fin n → Option (Fin n)) (child : Fin n → Bool) (fr : Fin n → Option Nat)
    (maxDist : Nat) (far : Fin n → Nat) (i : Fin n)
    (hfar : ∀ p x k, fr p = some x → Spec.Hops nbr k p i → 3 * maxDist < k) : partitionMeshNN nbr child fr maxDist far i = far i := by
  unfold partitionMeshNN
  dsimp only
  generalize ((List.finRange n).map fun j => match fr j with | some x => x + 1 | none => 0).foldl max 0 = N
  cases h : frontLoop nbr N child maxDist fr i with
  | none => rfl
  | some y =>
    obtain ⟨p, m, h1, h2, h3⟩ := frontLoop_radius N child maxDist fr h
    have := hfar p y m h1 h2
    omega

-- non-vacuity: without neighbours no cell can be reached from another
example : ∀ (p : Fin 2) (x k : Nat), (if p.val = 0 then some 0 else none : Option Nat) = some x → Spec.Hops (fun _ _ => none) k p 1 → 3 * 5 < k := by
  intro p x k hp hk
  cases hk with
  | zero => cases hp
  | succ d h _ => cases h

/-- **C56** fails when there is a gap: if every child cell that no parent overlaps is four or more hops away from every parent, the
search stops after its first round and every such cell goes to the great-circle choice `far`, however many hops that parent is away. -/
theorem C56_gap_fails (nbr : Fin 3 → Fin n → Option (Fin n)) (child : Fin n → Bool) (fr : Fin n → Option Nat)
    (maxDist : Nat) (far : Fin n → Nat)
    (hgap : ∀ j, child j = true → fr j = none → ∀ q y k, fr q = some y → Spec.Hops nbr k q j → 4 ≤ k)
    (i : Fin n) (hi : child i = true) (hn : fr i = none) : partitionMeshNN nbr child fr maxDist far i = far i := by
  unfold partitionMeshNN
  dsimp only
  generalize ((List.finRange n).map fun j => match fr j with | some x => x + 1 | none => 0).foldl max 0 = N
  have hround : ∀ j, child j = true → fr j = none → frontRound nbr N fr j = none := by
    intro j hj hjn
    cases hf : frontRound nbr N fr j with
    | none => rfl
    | some x =>
      obtain ⟨p, m, h1, h2, h3⟩ := frontRound_some hf
      have := hgap j hj hjn p x m h1 h2
      omega
  have hloop : frontLoop nbr N child maxDist fr i = none := by
    cases maxDist with
    | zero => exact hn
    | succ f =>
      rw [frontLoop]
      split
      · dsimp only
        rw [if_neg]
        · exact hround i hi hn
        · rw [Bool.not_eq_true, List.any_eq_false]
          intro j _
          by_cases hj : child j = true
          · by_cases hjn : fr j = none
            · simp [hround j hj hjn]
            · simp [hjn]
          · simp [hj]
      · exact hn
  rw [hloop]

/-- A path 0–1–…–6. -/
def path7 : Fin 3 → Fin 7 → Option (Fin 7) := fun d i =>
  if d = 0 then (if h : i.val + 1 < 7 then some ⟨i.val + 1, h⟩ else none)
  else if d = 1 then (if i.val = 0 then none else some ⟨i.val - 1, by omega⟩) else none

theorem path7_hops {k : Nat} {p q : Fin 7} (h : Spec.Hops path7 k p q) : p.val ≤ q.val + k ∧ q.val ≤ p.val + k := by
  induction h with
  | zero => omega
  | succ d hd _ ih =>
    unfold path7 at hd
    split at hd
    · split at hd
      · cases hd; dsimp only at ih; omega
      · cases hd
    · split at hd
      · split at hd
        · cases hd
        · cases hd; dsimp only at ih; omega
      · cases hd

-- non-vacuity: the child is on cells 0 and 5 of the path and the only parent on cell 0; cell 5 is five hops away
example : ∀ j : Fin 7, (j.val == 0 || j.val == 5) = true → (if j.val = 0 then some 0 else none : Option Nat) = none →
    ∀ (q : Fin 7) (y k : Nat), (if q.val = 0 then some 0 else none : Option Nat) = some y → Spec.Hops path7 k q j → 4 ≤ k := by
  intro j hj hjn q y k hq hk
  have := path7_hops hk
  have hj5 : j.val = 5 := by
    rcases Nat.eq_zero_or_pos j.val with h | h
    · simp [h] at hjn
    · simp at hj; rcases hj with h' | h'
      · simp [h'] at h
      · exact h'
  have hq0 : q.val = 0 := by
    by_contra hc
    rw [if_neg hc] at hq; cases hq
  omega

end MarEx.Props
