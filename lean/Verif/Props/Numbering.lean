import Verif.Props.EmptySteps
import Verif.Props.Events
/-! C191: the numbering of the cells of a mesh does not matter to tracking. -/
namespace MarEx.Spec

variable {n : Nat}

/-- The field `f` on the mesh on which cell `i` has the number `e i`. -/
def renumber {α : Type} (e : Equiv.Perm (Fin n)) (f : Fin n → α) : Fin n → α := fun c => f (e.symm c)

/-- The same run on the mesh on which cell `i` has the number `e i`: neighbours (in whatever order they are listed), mask and cell areas are those of
the same cells, the options are the same. -/
structure Renumbered (e : Equiv.Perm (Fin n)) (p p' : MeshRun n) : Prop where
  nbr : ∀ i j, ListsNeighbour p'.nbr (e i) (e j) ↔ ListsNeighbour p.nbr i j
  mask : p'.mask = renumber e p.mask
  areas : p'.track.w = renumber e p.track.w
  radius : p'.R = p.R
  gap : p'.T = p.T
  criterion : p'.criterion = p.criterion
  threshold : p'.track.thr = p.track.thr
  iterations : p'.track.maxIter = p.track.maxIter

/-- Two records of IDs have the same groups of cells: cell `i` of the one is cell `e i` of the other. -/
def SameGroups (e : Equiv.Perm (Fin n)) (ids ids' : List (Fin n → Nat)) : Prop :=
  ids'.length = ids.length ∧
  ∀ (t u : Nat) (f g f' g' : Fin n → Nat), ids[t]? = some f → ids[u]? = some g → ids'[t]? = some f' → ids'[u]? = some g' →
    ∀ i j, (0 < f i ∧ f i = g j) ↔ (0 < f' (e i) ∧ f' (e i) = g' (e j))

/-- No object overlaps two objects of the step before by the required fraction. -/
def NoMerges (w : Fin n → ℚ) (thr : ℚ) (objs : List (Fin n → Nat)) : Prop :=
  ∀ a b k, Follows w thr objs a k → Follows w thr objs b k → a = b

end MarEx.Spec

namespace MarEx.Props
open MarEx Spec

variable {n : Nat}

theorem renumber_at {α : Type} (e : Equiv.Perm (Fin n)) (f : Fin n → α) (i : Fin n) : renumber e f (e i) = f i := by simp [renumber]

theorem renumber_ext {α : Type} (e : Equiv.Perm (Fin n)) {f g : Fin n → α} (h : ∀ i, g (e i) = f i) : g = renumber e f := by
  funext c
  obtain ⟨i, rfl⟩ := e.surjective c
  rw [h, renumber_at]

/-! ### Filling -/

theorem sparseBoolPower_renumber {e : Equiv.Perm (Fin n)} {nbr nbr' : NbrTable n}
    (h : ∀ i j, ListsNeighbour nbr' (e i) (e j) ↔ ListsNeighbour nbr i j) (R : Nat) (f : Fin n → Bool) :
    sparseBoolPower (dilationRow nbr') (renumber e f) R = renumber e (sparseBoolPower (dilationRow nbr) f R) := by
  induction R with
  | zero => rfl
  | succ R ih =>
    refine renumber_ext e fun i => ?_
    rw [sparseBoolPower, sparseBoolPower, ih]
    unfold sparseStep
    rw [Bool.eq_iff_iff, List.any_eq_true, List.any_eq_true]
    constructor
    · rintro ⟨c, hc, hv⟩
      obtain ⟨j, rfl⟩ := e.surjective c
      rw [renumber_at] at hv
      refine ⟨j, ?_, hv⟩
      rw [mem_dilationRow] at hc ⊢
      rcases hc with hc | hc
      · exact Or.inl ((h i j).1 hc)
      · exact Or.inr (e.injective hc)
    · rintro ⟨j, hj, hv⟩
      refine ⟨e j, ?_, by rwa [renumber_at]⟩
      rw [mem_dilationRow] at hj ⊢
      rcases hj with hj | hj
      · exact Or.inl ((h i j).2 hj)
      · exact Or.inr (congrArg e hj)

theorem fillHolesMesh_renumber {e : Equiv.Perm (Fin n)} {nbr nbr' : NbrTable n}
    (h : ∀ i j, ListsNeighbour nbr' (e i) (e j) ↔ ListsNeighbour nbr i j) (mask : Fin n → Bool) (R : Nat) (f : Fin n → Bool) :
    fillHolesMesh (dilationRow nbr') (renumber e mask) R (renumber e f) = renumber e (fillHolesMesh (dilationRow nbr) mask R f) := by
  have hd : ∀ f, dilateMesh (dilationRow nbr') R (renumber e f) = renumber e (dilateMesh (dilationRow nbr) R f) :=
    fun f => sparseBoolPower_renumber h R f
  have hl : ∀ f, setLandTrue (renumber e mask) (renumber e f) = renumber e (setLandTrue mask f) := fun f => rfl
  have he : ∀ f, erodeMesh (dilationRow nbr') R (renumber e f) = renumber e (erodeMesh (dilationRow nbr) R f) := by
    intro f
    unfold erodeMesh
    have : (fun j => !renumber e f j) = renumber e fun j => !f j := rfl
    rw [this, sparseBoolPower_renumber h]
    rfl
  unfold fillHolesMesh openMesh closeMesh
  rw [hd, hl, he, hl, he, hd]

theorem closeTimeGaps_renumber (e : Equiv.Perm (Fin n)) (T : Nat) (fs : List (Fin n → Bool)) :
    closeTimeGaps T (fs.map (renumber e)) = (closeTimeGaps T fs).map (renumber e) := by
  have hr : ∀ (l : List (Fin n → Bool)) t c, readT (l.map (renumber e)) t c = readT l t (e.symm c) := by
    intro l t c
    unfold readT
    split
    · rw [List.getElem?_map]
      cases l[t.toNat]? <;> rfl
    · rfl
  have hdil : ∀ (r : Nat) (l : List (Fin n → Bool)), dilateT r (l.map (renumber e)) = (dilateT r l).map (renumber e) := by
    intro r l
    unfold dilateT
    rw [List.length_map, List.map_map]
    refine List.map_congr_left fun t _ => ?_
    funext c
    simp only [hr, Function.comp, renumber]
  have hero : ∀ (r : Nat) (l : List (Fin n → Bool)), erodeT r (l.map (renumber e)) = (erodeT r l).map (renumber e) := by
    intro r l
    unfold erodeT
    rw [List.length_map, List.map_map]
    refine List.map_congr_left fun t _ => ?_
    funext c
    simp only [hr, Function.comp, renumber]
  have hpad : ∀ (k : Nat) (l : List (Fin n → Bool)), padT k (l.map (renumber e)) = (padT k l).map (renumber e) := by
    intro k l
    unfold padT
    rw [List.map_append, List.map_append, List.map_replicate]
    rfl
  unfold closeTimeGaps
  split
  · rfl
  · dsimp only
    rw [hpad, hdil, hero]
    unfold trimT
    rw [List.length_map, List.map_take, List.map_drop]

theorem fillTimeGaps_renumber (e : Equiv.Perm (Fin n)) (fill fill' : Nat → (Fin n → Bool) → Fin n → Bool)
    (h : ∀ R f, fill' R (renumber e f) = renumber e (fill R f)) (T R : Nat) (fs : List (Fin n → Bool)) :
    fillTimeGaps fill' T R (fs.map (renumber e)) = (fillTimeGaps fill T R fs).map (renumber e) := by
  unfold fillTimeGaps
  split
  · rfl
  · rw [closeTimeGaps_renumber, List.map_map, List.map_map]
    exact List.map_congr_left fun f _ => h _ f

/-! ### Objects of one step -/

/-- Two steps of IDs have the same groups of cells. -/
def StepGroups (e : Equiv.Perm (Fin n)) (f f' : Fin n → Nat) : Prop :=
  (∀ i, 0 < f' (e i) ↔ 0 < f i) ∧ ∀ i j, 0 < f i → (f' (e i) = f' (e j) ↔ f i = f j)

theorem StepGroups.symm {e : Equiv.Perm (Fin n)} {f f' : Fin n → Nat} (h : StepGroups e f f') : StepGroups e.symm f' f := by
  constructor
  · intro c
    obtain ⟨i, rfl⟩ := e.surjective c
    rw [e.symm_apply_apply, h.1]
  · intro c d hc
    obtain ⟨i, rfl⟩ := e.surjective c
    obtain ⟨j, rfl⟩ := e.surjective d
    rw [e.symm_apply_apply, e.symm_apply_apply, h.2 i j ((h.1 i).1 hc)]

theorem identifyObjectsMesh_renumber {cc : Labeller} (hcc : CorrectLabeller cc) {e : Equiv.Perm (Fin n)} {nbr nbr' : NbrTable n}
    (h : ∀ i j, ListsNeighbour nbr' (e i) (e j) ↔ ListsNeighbour nbr i j) (mask f : Fin n → Bool) :
    StepGroups e (identifyObjectsMesh cc nbr mask f) (identifyObjectsMesh cc nbr' (renumber e mask) (renumber e f)) := by
  have hz : ∀ i, 0 < identifyObjectsMesh cc nbr mask f i ↔ mask i = true ∧ f i = true := by
    intro i
    rw [identifyObjectsMesh_eq, clusterTrueValues_pos, Bool.and_eq_true]
  have hz' : ∀ i, 0 < identifyObjectsMesh cc nbr' (renumber e mask) (renumber e f) (e i) ↔ mask i = true ∧ f i = true := by
    intro i
    rw [identifyObjectsMesh_eq, clusterTrueValues_pos, Bool.and_eq_true, renumber_at, renumber_at]
  refine ⟨fun i => (hz' i).trans (hz i).symm, fun i j hi => ?_⟩
  by_cases hj : mask j = true ∧ f j = true
  · have hi := (hz i).1 hi
    rw [C10_same_object_iff_connected cc hcc nbr mask f i j hi hj, C10_same_object_iff_connected cc hcc nbr' _ _ (e i) (e j)
      (by rwa [renumber_at, renumber_at]) (by rwa [renumber_at, renumber_at])]
    constructor
    · intro hl
      have := Linked.map (F := JoinedCells nbr mask f) (fun c => e.symm c) (fun a b hab => by
        obtain ⟨a, rfl⟩ := e.surjective a
        obtain ⟨b, rfl⟩ := e.surjective b
        obtain ⟨h1, h2, h3⟩ := hab
        rw [renumber_at, renumber_at] at h2 h3
        rw [e.symm_apply_apply, e.symm_apply_apply]
        exact .fwd (.refl _) ⟨(h a b).1 h1, h2, h3⟩) hl
      rwa [e.symm_apply_apply, e.symm_apply_apply] at this
    · exact Linked.map (fun c => e c) (fun a b hab => by
        obtain ⟨h1, h2, h3⟩ := hab
        exact .fwd (.refl _) ⟨(h a b).2 h1, by rwa [renumber_at, renumber_at], by rwa [renumber_at, renumber_at]⟩)
  · have h0 := (hz j).not.2 hj
    have h0' := (hz' j).not.2 hj
    have hi' := (hz' i).2 ((hz i).1 hi)
    constructor <;> intro hh <;> omega

theorem cellCount_groups {e : Equiv.Perm (Fin n)} {f f' : Fin n → Nat} (h : StepGroups e f f') (i : Fin n) (hi : 0 < f i) :
    cellCount f' (f' (e i)) = cellCount f (f i) := by
  unfold cellCount
  have : ((List.finRange n).filter fun c => f' c == f' (e i)).Perm (((List.finRange n).filter fun c => f c == f i).map e) := by
    rw [List.perm_ext_iff_of_nodup ((List.nodup_finRange n).filter _) (((List.nodup_finRange n).filter _).map e.injective)]
    intro c
    obtain ⟨j, rfl⟩ := e.surjective c
    rw [List.mem_map_of_injective e.injective, List.mem_filter, List.mem_filter]
    simp only [List.mem_finRange, true_and, beq_iff_eq]
    rw [eq_comm, h.2 i j hi, eq_comm]
  rw [this.length_eq, List.length_map]

theorem nodup_idsOf (f : Fin n → Nat) : (idsOf f).Nodup := by
  unfold idsOf npUnique
  exact List.nodup_range.filter _

/-- The sizes of the objects of a step, up to order. -/
theorem sizes_groups {e : Equiv.Perm (Fin n)} {f f' : Fin n → Nat} (h : StepGroups e f f') :
    ((stepTable f').map (·.2)).Perm ((stepTable f).map (·.2)) := by
  classical
  have key : ∀ k ∈ idsOf f, ∃ i, f i = k := fun k hk => (mem_idsOf'.1 hk).2
  let φ : Nat → Nat := fun k => if hk : ∃ i, f i = k then f' (e hk.choose) else 0
  have hφ : ∀ i, 0 < f i → φ (f i) = f' (e i) := by
    intro i hi
    have hk : ∃ j, f j = f i := ⟨i, rfl⟩
    simp only [φ, dif_pos hk]
    have := hk.choose_spec
    rw [h.2 _ _ (by omega), this]
  have hp : (idsOf f').Perm ((idsOf f).map φ) := by
    rw [List.perm_ext_iff_of_nodup (nodup_idsOf f') ((List.nodup_map_iff_inj_on (nodup_idsOf f)).2 ?_)]
    · intro k
      rw [mem_idsOf', List.mem_map]
      constructor
      · rintro ⟨h0, c, rfl⟩
        obtain ⟨i, rfl⟩ := e.surjective c
        have hi := (h.1 i).1 h0
        exact ⟨f i, mem_idsOf'.2 ⟨hi, i, rfl⟩, hφ i hi⟩
      · rintro ⟨k, hk, rfl⟩
        obtain ⟨h0, i, rfl⟩ := mem_idsOf'.1 hk
        rw [hφ i h0]
        exact ⟨(h.1 i).2 h0, e i, rfl⟩
    · intro a ha b hb hab
      obtain ⟨h0, i, rfl⟩ := mem_idsOf'.1 ha
      obtain ⟨h1, j, rfl⟩ := mem_idsOf'.1 hb
      rw [hφ i h0, hφ j h1] at hab
      exact (h.2 i j h0).1 hab
  unfold stepTable
  rw [List.map_map, List.map_map]
  refine (hp.map _).trans ?_
  rw [List.map_map]
  refine List.Perm.of_eq (List.map_congr_left fun k hk => ?_)
  obtain ⟨h0, i, rfl⟩ := mem_idsOf'.1 hk
  simp only [Function.comp]
  rw [hφ i h0, cellCount_groups h i h0]

/-! ### The area filter -/

theorem percentile_perm {l l' : List ℚ} (h : l.Perm l') (q : ℚ) : percentile l q = percentile l' q := by
  unfold percentile
  have : l.mergeSort (fun a b => decide (a ≤ b)) = l'.mergeSort (fun a b => decide (a ≤ b)) := by
    refine List.Perm.eq_of_pairwise (le := fun a b => a ≤ b) ?_ ?_ ?_ ?_
    · intro a b _ _ h1 h2; exact le_antisymm h1 h2
    · simpa using List.pairwise_mergeSort (le := fun a b : ℚ => decide (a ≤ b)) (by simpa using fun a b c => le_trans) (by simpa using le_total) l
    · simpa using List.pairwise_mergeSort (le := fun a b : ℚ => decide (a ≤ b)) (by simpa using fun a b c => le_trans) (by simpa using le_total) l'
    · exact (List.mergeSort_perm _ _).trans (h.trans (List.mergeSort_perm _ _).symm)
  rw [this]

theorem mem_keep_mesh {f : Fin n → Nat} {thr : ℚ} {i : Fin n} :
    ((((stepTable f).map fun e => if thr < (e.2 : ℚ) then e.1 else 0).filter fun k => decide (0 < k)).contains (f i) = true) ↔
      0 < f i ∧ thr < (cellCount f (f i) : ℚ) := by
  rw [List.contains_iff_mem, List.mem_filter, List.mem_map]
  unfold stepTable
  constructor
  · rintro ⟨⟨e, he, h⟩, h0⟩
    rw [decide_eq_true_eq] at h0
    obtain ⟨k, hk, rfl⟩ := List.mem_map.1 he
    dsimp only at h
    split at h
    · subst h; exact ⟨h0, by assumption⟩
    · omega
  · rintro ⟨h0, h⟩
    exact ⟨⟨(f i, cellCount f (f i)), List.mem_map.2 ⟨f i, mem_idsOf'.2 ⟨h0, i, rfl⟩, rfl⟩, by rw [if_pos h]⟩, by simpa using h0⟩

theorem filterMesh_groups (c : AreaCriterion) {e : Equiv.Perm (Fin n)} {fs fs' : List (Fin n → Nat)}
    (h : List.Forall₂ (StepGroups e) fs fs') (r : FilterResult n) (hr : filterMesh c fs = .ok r) :
    filterMesh c fs' = .ok { r with field := r.field.map (renumber e) } := by
  have hp : ((objectTable fs').map (·.2)).Perm ((objectTable fs).map (·.2)) := by
    unfold objectTable
    clear hr
    induction h with
    | nil => exact List.Perm.refl _
    | cons hh _ ih =>
      rw [List.flatMap_cons, List.flatMap_cons, List.map_append, List.map_append]
      exact (sizes_groups hh).append ih
  have hq := hp.filter fun (s : Nat) => decide (prefilterSize c < s)
  unfold filterMesh at hr ⊢
  dsimp only at hr ⊢
  rw [hq.length_eq]
  split at hr
  · cases hr
  rename_i hne
  rw [if_neg hne]
  have hthr : areaThreshold c (((objectTable fs').map (·.2)).filter fun (s : Nat) => decide (prefilterSize c < s)) =
      areaThreshold c (((objectTable fs).map (·.2)).filter fun (s : Nat) => decide (prefilterSize c < s)) := by
    unfold areaThreshold
    cases c with
    | quartile q => exact percentile_perm (hq.map _) q
    | absolute a => rfl
  rw [hthr]
  simp only [Except.ok.injEq] at hr ⊢
  subst hr
  rw [FilterResult.mk.injEq]
  refine ⟨?_, rfl, rfl, (hq.filter _).length_eq⟩
  generalize areaThreshold c _ = thr
  clear hp hq hne hthr
  induction h with
  | nil => rfl
  | cons hh _ ih =>
    rw [List.map_cons, List.map_cons, List.map_cons, ih]
    congr 1
    refine renumber_ext e fun i => ?_
    rw [Bool.eq_iff_iff, mem_keep_mesh, mem_keep_mesh, hh.1]
    refine and_congr_right fun h0 => ?_
    rw [cellCount_groups hh i h0]

/-- **C191**, preprocessing: on a renumbered mesh the preprocessed field is the same at every cell, and so are the area threshold and the counts, for
every `R_fill`, `T_fill` and area criterion. -/
theorem C191_preprocessing (cc : Labeller) (hcc : CorrectLabeller cc) (e : Equiv.Perm (Fin n)) (p p' : MeshRun n) (hp : Renumbered e p p')
    (data : List (Fin n → Bool)) (r : FilterResult n) (h : preprocessMesh cc p data = .ok r) :
    preprocessMesh cc p' (data.map (renumber e)) = .ok { r with field := r.field.map (renumber e) } := by
  unfold preprocessMesh at h ⊢
  rw [hp.mask, hp.radius, hp.gap, hp.criterion]
  refine filterMesh_groups p.criterion ?_ r h
  have h1 : (data.map (renumber e)).map (fillHolesMesh (dilationRow p'.nbr) (renumber e p.mask) p.R) =
      (data.map (fillHolesMesh (dilationRow p.nbr) p.mask p.R)).map (renumber e) := by
    rw [List.map_map, List.map_map]
    exact List.map_congr_left fun f _ => fillHolesMesh_renumber hp.nbr p.mask p.R f
  rw [h1, fillTimeGaps_renumber e _ _ (fun R f => fillHolesMesh_renumber hp.nbr p.mask R f) p.T p.R]
  generalize fillTimeGaps _ _ _ _ = fs
  rw [List.map_map]
  induction fs with
  | nil => exact List.Forall₂.nil
  | cons f fs ih => exact List.Forall₂.cons (identifyObjectsMesh_renumber hcc hp.nbr p.mask f) ih

/-! ### Objects and links of the record -/

theorem uniqueAcrossTime_groups {e : Equiv.Perm (Fin n)} {fs fs' : List (Fin n → Nat)} (h : List.Forall₂ (StepGroups e) fs fs') :
    ∀ s s', List.Forall₂ (StepGroups e) (uniqueAcrossTime s fs) (uniqueAcrossTime s' fs') := by
  induction h with
  | nil => intro s s'; exact List.Forall₂.nil
  | cons hh _ ih =>
    intro s s'
    refine List.Forall₂.cons ⟨fun i => ?_, fun i j => ?_⟩ (ih _ _)
    · have := hh.1 i
      dsimp only
      split <;> split <;> omega
    · have := hh.1 i
      have := hh.1 j
      have := hh.2 i j
      dsimp only
      split <;> split <;> split <;> split <;> omega

theorem timeUnique_objectFieldMesh (cc : Labeller) (nbr : NbrTable n) (mask : Fin n → Bool) (data : List (Fin n → Bool)) :
    TimeUnique (objectFieldMesh cc nbr mask data) := by
  unfold TimeUnique
  rw [List.pairwise_iff_getElem]
  intro t u ht hu htu i j hi heq
  have := C11_ids_never_repeat (data.map (identifyObjectsMesh cc nbr mask)) t u _ _ (List.getElem?_eq_getElem ht) (List.getElem?_eq_getElem hu) i j hi heq
  omega

theorem objectArea_groups {e : Equiv.Perm (Fin n)} (w : Fin n → ℚ) {f f' : Fin n → Nat} (h : StepGroups e f f') (j : Fin n) (hj : 0 < f j) :
    objectArea (renumber e w) f' (f' (e j)) = objectArea w f (f j) := by
  unfold objectArea
  rw [← Fin.sum_univ_def, ← Fin.sum_univ_def, ← Equiv.sum_comp e]
  refine Finset.sum_congr rfl fun i _ => ?_
  rw [renumber_at]
  congr 1
  rw [eq_iff_iff, eq_comm, h.2 j i hj, eq_comm]

theorem commonArea_groups {e : Equiv.Perm (Fin n)} (w : Fin n → ℚ) {f f' g g' : Fin n → Nat} (h : StepGroups e f f') (k : StepGroups e g g')
    (i j : Fin n) (hi : 0 < f i) (hj : 0 < g j) :
    commonArea (renumber e w) f' (f' (e i)) g' (g' (e j)) = commonArea w f (f i) g (g j) := by
  unfold commonArea
  rw [← Fin.sum_univ_def, ← Fin.sum_univ_def, ← Equiv.sum_comp e]
  refine Finset.sum_congr rfl fun c _ => ?_
  rw [renumber_at]
  congr 1
  rw [eq_iff_iff, eq_comm, h.2 i c hi, eq_comm, @eq_comm _ (g' (e c)), k.2 j c hj, @eq_comm _ (g j)]

theorem forall₂_get {α β : Type} {R : α → β → Prop} {l : List α} {l' : List β} (h : List.Forall₂ R l l') {t : Nat} {a : α} (ha : l[t]? = some a) :
    ∃ b, l'[t]? = some b ∧ R a b := by
  induction h generalizing t with
  | nil => simp at ha
  | cons hh _ ih =>
    cases t with
    | zero => rw [List.getElem?_cons_zero, Option.some.injEq] at ha; subst ha; exact ⟨_, rfl, hh⟩
    | succ t => rw [List.getElem?_cons_succ] at ha; exact ih ha

theorem timeUnique_step {fs : List (Fin n → Nat)} (hu : TimeUnique fs) {t u : Nat} {f g : Fin n → Nat} (hf : fs[t]? = some f) (hg : fs[u]? = some g)
    {i j : Fin n} (h0 : 0 < f i) (h : f i = g j) : t = u := by
  obtain ⟨ht, rfl⟩ := List.getElem?_eq_some_iff.1 hf
  obtain ⟨hu', rfl⟩ := List.getElem?_eq_some_iff.1 hg
  rcases Nat.lt_trichotomy t u with hlt | heq | hlt
  · exact absurd h (List.pairwise_iff_getElem.1 hu t u ht hu' hlt i j h0)
  · exact heq
  · exact absurd h.symm (List.pairwise_iff_getElem.1 hu u t hu' ht hlt j i (by omega))

/-- The ID that the object `k` of `fs` has in `fs'`. -/
theorem exists_idMap {e : Equiv.Perm (Fin n)} {fs fs' : List (Fin n → Nat)} (h : List.Forall₂ (StepGroups e) fs fs') (hu : TimeUnique fs) :
    ∃ φ : Nat → Nat, ∀ (t : Nat) (f f' : Fin n → Nat), fs[t]? = some f → fs'[t]? = some f' → ∀ i, 0 < f i → φ (f i) = f' (e i) := by
  classical
  let P : Nat → Nat → Prop := fun k k' => ∃ (t : Nat) (f f' : Fin n → Nat) (i : Fin n), fs[t]? = some f ∧ fs'[t]? = some f' ∧ f i = k ∧ f' (e i) = k'
  refine ⟨fun k => if hk : ∃ k', P k k' then hk.choose else 0, fun t f f' hf hf' i hi => ?_⟩
  have hk : ∃ k', P (f i) k' := ⟨_, t, f, f', i, hf, hf', rfl, rfl⟩
  simp only [dif_pos hk]
  obtain ⟨u, g, g', j, hg, hg', h1, h2⟩ := hk.choose_spec
  have hut := timeUnique_step hu hf hg hi h1.symm
  subst hut
  rw [hf, Option.some.injEq] at hg
  rw [hf', Option.some.injEq] at hg'
  subst hg hg'
  obtain ⟨f'', hf'', hG⟩ := forall₂_get h hf
  rw [hf', Option.some.injEq] at hf''
  subst hf''
  rw [← h2]
  exact (hG.2 j i (by omega)).2 h1

theorem follows_groups {e : Equiv.Perm (Fin n)} (w : Fin n → ℚ) (thr : ℚ) {fs fs' : List (Fin n → Nat)} (h : List.Forall₂ (StepGroups e) fs fs')
    {φ : Nat → Nat} (hφ : ∀ (t : Nat) (f f' : Fin n → Nat), fs[t]? = some f → fs'[t]? = some f' → ∀ i, 0 < f i → φ (f i) = f' (e i)) {a b : Nat}
    (hab : Follows w thr fs a b) : Follows (renumber e w) thr fs' (φ a) (φ b) := by
  obtain ⟨t, f, g, hf, hg, hb, ha, ⟨i, rfl, rfl⟩, hle⟩ := hab
  obtain ⟨f', hf', hF⟩ := forall₂_get h hf
  obtain ⟨g', hg', hG⟩ := forall₂_get h hg
  rw [hφ t f f' hf hf' i ha, hφ (t + 1) g g' hg hg' i hb]
  refine ⟨t, f', g', hf', hg', (hG.1 i).2 hb, (hF.1 i).2 ha, ⟨e i, rfl, rfl⟩, ?_⟩
  rw [objectArea_groups w hF i ha, objectArea_groups w hG i hb, commonArea_groups w hF hG i i ha hb]
  exact hle

theorem forall₂_symm {e : Equiv.Perm (Fin n)} {fs fs' : List (Fin n → Nat)} (h : List.Forall₂ (StepGroups e) fs fs') :
    List.Forall₂ (StepGroups e.symm) fs' fs := by
  induction h with
  | nil => exact .nil
  | cons hh _ ih => exact .cons hh.symm ih

theorem renumber_back {α : Type} (e : Equiv.Perm (Fin n)) (f : Fin n → α) : renumber e.symm (renumber e f) = f := by
  funext i; simp [renumber]

/-- Chains of overlapping objects do not depend on the numbering of the cells. -/
theorem linked_groups {e : Equiv.Perm (Fin n)} (w : Fin n → ℚ) (thr : ℚ) {fs fs' : List (Fin n → Nat)} (h : List.Forall₂ (StepGroups e) fs fs')
    (hu : TimeUnique fs) (hu' : TimeUnique fs') (t u : Nat) (f g f' g' : Fin n → Nat) (hf : fs[t]? = some f) (hg : fs[u]? = some g)
    (hf' : fs'[t]? = some f') (hg' : fs'[u]? = some g') (i j : Fin n) (hi : 0 < f i) (hj : 0 < g j) :
    Linked (Follows w thr fs) (f i) (g j) ↔ Linked (Follows (renumber e w) thr fs') (f' (e i)) (g' (e j)) := by
  obtain ⟨φ, hφ⟩ := exists_idMap h hu
  obtain ⟨ψ, hψ⟩ := exists_idMap (forall₂_symm h) hu'
  obtain ⟨f'', h1, hF⟩ := forall₂_get h hf
  obtain ⟨g'', h2, hG⟩ := forall₂_get h hg
  rw [hf', Option.some.injEq] at h1
  rw [hg', Option.some.injEq] at h2
  subst h1 h2
  constructor
  · intro hl
    rw [← hφ t f f' hf hf' i hi, ← hφ u g g' hg hg' j hj]
    exact Linked.map φ (fun a b hab => .fwd (.refl _) (follows_groups w thr h hφ hab)) hl
  · intro hl
    have e1 := hψ t f' f hf' hf (e i) ((hF.1 i).2 hi)
    have e2 := hψ u g' g hg' hg (e j) ((hG.1 j).2 hj)
    rw [e.symm_apply_apply] at e1 e2
    rw [← e1, ← e2]
    refine Linked.map ψ (fun a b hab => .fwd (.refl _) ?_) hl
    have := follows_groups (renumber e w) thr (forall₂_symm h) hψ hab
    rwa [renumber_back] at this

theorem noMerges_groups {e : Equiv.Perm (Fin n)} (w : Fin n → ℚ) (thr : ℚ) {fs fs' : List (Fin n → Nat)} (h : List.Forall₂ (StepGroups e) fs fs')
    (hu' : TimeUnique fs') (hm : NoMerges w thr fs) : NoMerges (renumber e w) thr fs' := by
  obtain ⟨ψ, hψ⟩ := exists_idMap (forall₂_symm h) hu'
  intro a b k ha hb
  have ha' := follows_groups (renumber e w) thr (forall₂_symm h) hψ ha
  have hb' := follows_groups (renumber e w) thr (forall₂_symm h) hψ hb
  rw [renumber_back] at ha' hb'
  have heq := hm _ _ _ ha' hb'
  obtain ⟨t, f, g, hf, hg, hk, ha, ⟨i, rfl, rfl⟩, -⟩ := ha
  obtain ⟨u, f2, g2, hf2, hg2, hk2, hb, ⟨j, rfl, hj⟩, -⟩ := hb
  have htu := timeUnique_step hu' hg hg2 hk hj.symm
  have htu : t = u := by omega
  subst htu
  rw [hf, Option.some.injEq] at hf2
  subst hf2
  obtain ⟨f0, hf0, hF⟩ := forall₂_get (forall₂_symm h) hf
  rw [hψ t f f0 hf hf0 i ha, hψ t f f0 hf hf0 j hb] at heq
  exact (hF.2 i j ha).1 heq

theorem nodup_children {w : Fin n → ℚ} (hw : ∀ i, 0 < w i) {thr : ℚ} {fs : List (Frame n)} {props : List Obj} (hu : TimeUnique fs)
    (ht : TableExact w fs props) (hm : NoMerges w thr fs) : ((enforceOverlap thr props (findOverlaps w fs)).map (·.b)).Nodup := by
  have hn : ((enforceOverlap thr props (findOverlaps w fs)).map fun o => (o.a, o.b)).Nodup := nodup_enforce (nodup_findOverlaps w fs)
  have hl : ∀ o ∈ enforceOverlap thr props (findOverlaps w fs), Follows w thr fs o.a o.b := fun o ho =>
    (links_iff_follows hw hu ht).1 ⟨o, ho, rfl, rfl⟩
  have hnd : (enforceOverlap thr props (findOverlaps w fs)).Nodup := List.Nodup.of_map _ hn
  rw [List.nodup_map_iff_inj_on hnd]
  intro o ho o' ho' hb
  refine (List.nodup_map_iff_inj_on hnd).1 hn o ho o' ho' ?_
  rw [Prod.mk.injEq]
  exact ⟨hm _ _ o.b (hl o ho) (by rw [hb]; exact hl o' ho'), hb⟩

/-- Tracking on a mesh without merges. -/
theorem trackingMesh_noMerges (cc : Labeller) (p : MeshRun n) (pre : List (Fin n → Bool)) (hmax : 0 < p.track.maxIter) (hlen : ¬ (pre.length = 1 ∧ n ≠ 1))
    (hw : ∀ i, 0 < p.track.w i) (hm : NoMerges p.track.w p.track.thr (objectFieldMesh cc p.nbr p.mask pre)) :
    trackingMesh cc p pre = .ok (renameField cc (objectFieldMesh cc p.nbr p.mask pre)
      ((enforceOverlap p.track.thr ((objectFieldMesh cc p.nbr p.mask pre).flatMap (calcProps ⟨p.track.w, p.track.thr, p.cen, fun _ _ _ _ _ _ _ => 0⟩))
        (findOverlaps p.track.w (objectFieldMesh cc p.nbr p.mask pre))).map fun o => (o.a, o.b))) := by
  unfold trackingMesh
  rw [if_neg hlen]
  dsimp only
  have hu := timeUnique_objectFieldMesh cc p.nbr p.mask pre
  generalize objectFieldMesh cc p.nbr p.mask pre = objs at hm hu ⊢
  have hone := nodup_children hw hu (tableExact_calcProps ⟨p.track.w, p.track.thr, p.cen, fun _ _ _ _ _ _ _ => 0⟩ objs hu) hm
  have hm : repeated ((enforceOverlap p.track.thr (objs.flatMap (calcProps ⟨p.track.w, p.track.thr, p.cen, fun _ _ _ _ _ _ _ => 0⟩))
      (findOverlaps p.track.w objs)).map (·.b)) = [] := by
    rw [List.eq_nil_iff_forall_not_mem]
    intro x hx
    have := List.nodup_iff_count_le_one.mp hone x
    have := mem_repeated.mp hx
    omega
  obtain ⟨m, hmi⟩ : ∃ m, p.track.maxIter = m + 1 := ⟨p.track.maxIter - 1, by omega⟩
  unfold splitAndMergeParallel
  simp only [hmi, parLoop, parInit, hm, List.isEmpty_nil, if_true]

/-- Same groups of a renamed field. -/
theorem renameField_groups (cc cc' : Labeller) (hcc : CorrectLabeller cc) (hcc' : CorrectLabeller cc') {e : Equiv.Perm (Fin n)} {w : Fin n → ℚ} (hw : ∀ i, 0 < w i) (thr : ℚ)
    {fs fs' : List (Frame n)} (h : List.Forall₂ (StepGroups e) fs fs') (hu : TimeUnique fs) (hu' : TimeUnique fs') {props props' : List Obj}
    (ht : TableExact w fs props) (ht' : TableExact (renumber e w) fs' props') :
    SameGroups e (renameField cc fs ((enforceOverlap thr props (findOverlaps w fs)).map fun o => (o.a, o.b)))
      (renameField cc' fs' ((enforceOverlap thr props' (findOverlaps (renumber e w) fs')).map fun o => (o.a, o.b))) := by
  have hw' : ∀ i, 0 < renumber e w i := fun i => hw _
  obtain ⟨l1, s1, z1, -⟩ := C22_events_are_linked_groups cc hcc w thr props fs
  obtain ⟨l2, s2, z2, -⟩ := C22_events_are_linked_groups cc' hcc' (renumber e w) thr props' fs'
  have r1 : (fun a b => LinkedTo (enforceOverlap thr props (findOverlaps w fs)) a b) = Follows w thr fs := by
    funext a b; exact propext (links_iff_follows hw hu ht)
  have r2 : (fun a b => LinkedTo (enforceOverlap thr props' (findOverlaps (renumber e w) fs')) a b) = Follows (renumber e w) thr fs' := by
    funext a b; exact propext (links_iff_follows hw' hu' ht')
  rw [r1] at s1
  rw [r2] at s2
  refine ⟨by rw [l1, l2, h.length_eq], fun t u f g f' g' hf hg hf' hg' i j => ?_⟩
  have lt : t < fs.length := by rw [← l1]; exact (List.getElem?_eq_some_iff.1 hf).1
  have lu : u < fs.length := by rw [← l1]; exact (List.getElem?_eq_some_iff.1 hg).1
  obtain ⟨a', ha', hA⟩ := forall₂_get h (List.getElem?_eq_getElem lt)
  obtain ⟨b', hb', hB⟩ := forall₂_get h (List.getElem?_eq_getElem lu)
  have za := z1 t _ f (List.getElem?_eq_getElem lt) hf
  have zb := z1 u _ g (List.getElem?_eq_getElem lu) hg
  have za' := z2 t _ f' ha' hf'
  have zb' := z2 u _ g' hb' hg'
  have p1 : 0 < f' (e i) ↔ 0 < f i := by rw [za', za, hA.1]
  have p2 : 0 < g' (e j) ↔ 0 < g j := by rw [zb', zb, hB.1]
  rw [p1]
  refine and_congr_right fun hi => ?_
  by_cases hj : 0 < g j
  · have q1 := (za i).1 hi
    have q2 := (zb j).1 hj
    rw [s1 t u _ _ f g (List.getElem?_eq_getElem lt) (List.getElem?_eq_getElem lu) hf hg i j q1 q2,
      s2 t u _ _ f' g' ha' hb' hf' hg' (e i) (e j) ((hA.1 i).2 q1) ((hB.1 j).2 q2)]
    exact linked_groups w thr h hu hu' t u _ _ _ _ (List.getElem?_eq_getElem lt) (List.getElem?_eq_getElem lu) ha' hb' i j q1 q2
  · have := p1.2 hi
    constructor <;> intro <;> omega

/-- **C191**, the part that holds (events): if no object overlaps two objects of the step before, the events of the renumbered mesh are the same groups of
cells, for every `R_fill`, `T_fill`, area criterion, overlap threshold and chunk length.  Missing: records with merges, see below. -/
theorem C191_events_partial (cc : Labeller) (hcc : CorrectLabeller cc) (e : Equiv.Perm (Fin n)) (p p' : MeshRun n) (hp : Renumbered e p p')
    (hw : ∀ i, 0 < p.track.w i) (data pre : List (Fin n → Bool)) (ids : List (Frame n)) (h : runMesh cc p data = .ok (pre, ids))
    (hm : NoMerges p.track.w p.track.thr (objectFieldMesh cc p.nbr p.mask pre)) :
    ∃ ids', runMesh cc p' (data.map (renumber e)) = .ok (pre.map (renumber e), ids') ∧ SameGroups e ids ids' := by
  unfold runMesh at h
  split at h
  · cases h
  rename_i r hr
  split at h
  · cases h
  rename_i ids0 hids
  simp only [Except.ok.injEq, Prod.mk.injEq] at h
  obtain ⟨rfl, rfl⟩ := h
  have hpre := C191_preprocessing cc hcc e p p' hp data r hr
  have hobj : List.Forall₂ (StepGroups e) (objectFieldMesh cc p.nbr p.mask r.field) (objectFieldMesh cc p'.nbr p'.mask (r.field.map (renumber e))) := by
    unfold objectFieldMesh
    refine uniqueAcrossTime_groups ?_ 0 0
    rw [hp.mask, List.map_map]
    generalize r.field = fs
    induction fs with
    | nil => exact .nil
    | cons f fs ih => exact .cons (identifyObjectsMesh_renumber hcc hp.nbr p.mask f) ih
  have hu := timeUnique_objectFieldMesh cc p.nbr p.mask r.field
  have hu' := timeUnique_objectFieldMesh cc p'.nbr p'.mask (r.field.map (renumber e))
  have hw' : ∀ i, 0 < p'.track.w i := by intro i; rw [hp.areas]; exact hw _
  have hm' : NoMerges p'.track.w p'.track.thr (objectFieldMesh cc p'.nbr p'.mask (r.field.map (renumber e))) := by
    rw [hp.areas, hp.threshold]; exact noMerges_groups _ _ hobj hu' hm
  have hlen : ¬ (r.field.length = 1 ∧ n ≠ 1) := by
    intro hl
    unfold trackingMesh at hids
    rw [if_pos hl] at hids
    cases hids
  have hmax : 0 < p.track.maxIter := by
    by_contra h0
    unfold trackingMesh at hids
    rw [if_neg hlen] at hids
    have h0 : p.track.maxIter = 0 := by omega
    simp only [splitAndMergeParallel, h0, parLoop] at hids
    cases hids
  have t1 := trackingMesh_noMerges cc p r.field hmax hlen hw hm
  have t2 := trackingMesh_noMerges cc p' (r.field.map (renumber e)) (by rw [hp.iterations]; exact hmax) (by rw [List.length_map]; exact hlen) hw' hm'
  rw [t1, Except.ok.injEq] at hids
  have hrun : ∀ x, trackingMesh cc p' (r.field.map (renumber e)) = .ok x → runMesh cc p' (data.map (renumber e)) = .ok (r.field.map (renumber e), x) := by
    intro x hx
    unfold runMesh
    rw [hpre]
    dsimp only
    rw [hx]
  refine ⟨_, hrun _ t2, ?_⟩
  rw [← hids, hp.areas, hp.threshold]
  refine renameField_groups cc cc hcc hcc hw p.track.thr hobj hu hu' (tableExact_calcProps ⟨p.track.w, p.track.thr, p.cen, fun _ _ _ _ _ _ _ => 0⟩ _ hu) ?_
  exact tableExact_calcProps ⟨renumber e p.track.w, p.track.thr, p'.cen, fun _ _ _ _ _ _ _ => 0⟩ _ hu'

theorem noMerges_of_nodup {w : Fin n → ℚ} (hw : ∀ i, 0 < w i) {thr : ℚ} {fs : List (Frame n)} {props : List Obj} (hu : TimeUnique fs)
    (ht : TableExact w fs props) (hn : ((enforceOverlap thr props (findOverlaps w fs)).map (·.b)).Nodup) : NoMerges w thr fs := by
  intro a b k ha hb
  obtain ⟨o, ho, rfl, rfl⟩ := (links_iff_follows hw hu ht).2 ha
  obtain ⟨o', ho', rfl, h⟩ := (links_iff_follows hw hu ht).2 hb
  rw [List.inj_on_of_nodup_map hn ho ho' h.symm]

theorem lineTable_rev (n : Nat) (i j : Fin n) : ListsNeighbour (lineTable n) (Fin.revPerm i) (Fin.revPerm j) ↔ ListsNeighbour (lineTable n) i j := by
  have h : ∀ i j : Fin n, ListsNeighbour (lineTable n) i j ↔ i.val = j.val + 1 ∨ j.val = i.val + 1 := by
    intro i j
    unfold ListsNeighbour lineTable
    have hj := j.isLt
    constructor
    · rintro ⟨v, hv⟩
      split at hv
      · left; omega
      · split at hv
        · split at hv
          · right; omega
          · omega
        · omega
    · rintro (h | h)
      · exact ⟨0, by rw [if_pos rfl]; omega⟩
      · refine ⟨1, ?_⟩
        rw [if_neg (by decide), if_pos rfl, if_pos (by omega)]
        omega
  rw [h, h, Fin.revPerm_apply, Fin.revPerm_apply, Fin.val_rev, Fin.val_rev]
  have := i.isLt
  have := j.isLt
  omega

/-- The line of `lineRun`, numbered from its other end. -/
def lineRunBack : MeshRun 14 := { lineRun true with mask := renumber Fin.revPerm (lineRun true).mask }

theorem lineRun_renumbered : Renumbered Fin.revPerm (lineRun true) lineRunBack :=
  ⟨lineTable_rev 14, rfl, rfl, rfl, rfl, rfl, rfl, rfl⟩

-- the hypotheses of `C191_events_partial` are met by the run on a line of cells
example : ∃ pre ids ids', runMesh quickFind (lineRun true) lineData = .ok (pre, ids) ∧
    runMesh quickFind lineRunBack (lineData.map (renumber Fin.revPerm)) = .ok (pre.map (renumber Fin.revPerm), ids') ∧ SameGroups Fin.revPerm ids ids' := by
  have h : (match runMesh quickFind (lineRun true) lineData with
      | .ok (pre, _) => decide (((enforceOverlap (lineRun true).track.thr
          ((objectFieldMesh quickFind (lineRun true).nbr (lineRun true).mask pre).flatMap
            (calcProps ⟨(lineRun true).track.w, (lineRun true).track.thr, (lineRun true).cen, fun _ _ _ _ _ _ _ => 0⟩))
          (findOverlaps (lineRun true).track.w (objectFieldMesh quickFind (lineRun true).nbr (lineRun true).mask pre))).map (·.b)).Nodup)
      | .error _ => false) = true := by decide +kernel
  cases hr : runMesh quickFind (lineRun true) lineData with
  | error e => rw [hr] at h; cases h
  | ok q =>
    rw [hr] at h
    obtain ⟨pre, ids⟩ := q
    have hu := timeUnique_objectFieldMesh quickFind (lineRun true).nbr (lineRun true).mask pre
    obtain ⟨ids', h1, h2⟩ := C191_events_partial quickFind quickFind_correct Fin.revPerm _ _ lineRun_renumbered (fun _ => one_pos) lineData pre ids hr
      (noMerges_of_nodup (fun _ => one_pos) hu (tableExact_calcProps ⟨(lineRun true).track.w, _, (lineRun true).cen, fun _ _ _ _ _ _ _ => 0⟩ _ hu)
        (of_decide_eq_true h))
    exact ⟨pre, ids, ids', rfl, h1, h2⟩

/-- A line of thirteen cells: objects at both ends at the first step, one object on the whole line at the second. -/
def meetRun : MeshRun 13 :=
  { nbr := lineTable 13, mask := fun _ => true, R := 0, T := 0, criterion := .absolute 1, allowMerging := true
    track := meshCfg (lineNbr 13) (fun _ => 1) 1 (1/4) 3 40 (fun _ _ _ => 0), cen := fun _ _ => (0, 0) }

/-- See `meetRun`. -/
def meetData : List (Fin 13 → Bool) := [fun i => i.val != 6, fun _ => true]

/-- **C191 fails** with merges: numbered from its other end the line and the record are the same, so the run is; but the cell in the middle, as far from
the one object as from the other, goes with the lower numbers. -/
theorem C191_merges_fails :
    Renumbered Fin.revPerm meetRun meetRun ∧ meetData.map (renumber Fin.revPerm) = meetData ∧
    (match runMesh quickFind meetRun meetData with
      | .ok (_, [_, g]) => decide (0 < g 6 ∧ g 6 = g 0 ∧ g (Fin.revPerm 6) ≠ g (Fin.revPerm 0))
      | _ => false) = true := by
  refine ⟨⟨lineTable_rev 13, rfl, rfl, rfl, rfl, rfl, rfl, rfl⟩, ?_, by decide +kernel⟩
  have : renumber Fin.revPerm (fun i : Fin 13 => i.val != 6) = fun i => i.val != 6 := by
    funext i; revert i; decide
  simp only [meetData, List.map_cons, List.map_nil, this]
  rfl

end MarEx.Props
