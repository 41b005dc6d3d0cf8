import Verif.Props.NoMerge
/-! C208: the numbers that the labelling routine gives to objects do not matter. -/
namespace MarEx.Spec

/-- Two records of IDs have the same groups of cells and steps. -/
def SamePartition {n : Nat} (ids ids' : List (Fin n → Nat)) : Prop :=
  ids'.length = ids.length ∧
  ∀ (t u : Nat) (f g f' g' : Fin n → Nat), ids[t]? = some f → ids[u]? = some g → ids'[t]? = some f' → ids'[u]? = some g' →
    ∀ i j, (0 < f i ∧ f i = g j) ↔ (0 < f' i ∧ f' i = g' j)

end MarEx.Spec

namespace MarEx.Props
open MarEx MarEx.Spec

variable {n : Nat}

theorem map_renumber_refl {α : Type} (l : List (Fin n → α)) : l.map (renumber (Equiv.refl _)) = l := List.map_id l

theorem samePartition_of_groups {ids ids' : List (Fin n → Nat)} (h : SameGroups (Equiv.refl _) ids ids') : SamePartition ids ids' := h

/-! ### Structured grids -/

theorem identify_labellers {regional : Bool} {nx : Nat} {cc cc' : Labeller} (hcc : CorrectLabeller cc) (hcc' : CorrectLabeller cc') (hnx : 0 < nx)
    (data : List (Fin n → Bool)) :
    List.Forall₂ (StepGroups (Equiv.refl _)) (identifyObjectsGrid cc false regional nx data) (identifyObjectsGrid cc' false regional nx data) := by
  rw [List.forall₂_iff_get]
  refine ⟨by rw [length_identify, length_identify], fun t h1 h2 => ?_⟩
  have g1 := List.getElem?_eq_getElem h1
  have g2 := List.getElem?_eq_getElem h2
  rw [List.get_eq_getElem, List.get_eq_getElem]
  generalize (identifyObjectsGrid cc false regional nx data)[t] = f at *
  generalize (identifyObjectsGrid cc' false regional nx data)[t] = f' at *
  have c1 := fun i j => C63_grid_objects_are_components cc hcc regional nx hnx data t t f f g1 g1 i j
  have c2 := fun i j => C63_grid_objects_are_components cc' hcc' regional nx hnx data t t f' f' g2 g2 i j
  refine ⟨fun i => by rw [Equiv.refl_apply, (c2 i i).1, (c1 i i).1], fun i j hi => ?_⟩
  rw [Equiv.refl_apply, Equiv.refl_apply]
  have hi' : 0 < f' i := by rw [(c2 i i).1, ← (c1 i i).1]; exact hi
  have k1 := (c1 i j).2
  have k2 := (c2 i j).2
  constructor
  · intro h; exact (k1.2 (k2.1 ⟨hi', h⟩)).2
  · intro h; exact (k2.2 (k1.1 ⟨hi, h⟩)).2

/-- **C208**, events, `allow_merging = False`: whatever numbers a correct labelling routine gives to the objects, the events are the same. -/
theorem C208_events_without_merging {ny nx : Nat} (cc cc' : Labeller) (hcc : CorrectLabeller cc) (hcc' : CorrectLabeller cc') (hnx : 0 < nx)
    (p : GridRun ny nx) (hm : p.allowMerging = false) (chunks chunks' : List Nat) (pre : List (Fin (ny * nx) → Bool)) :
    SamePartition (trackingGrid cc p chunks pre) (trackingGrid cc' p chunks' pre) := by
  refine ⟨?_, ?_⟩
  · unfold trackingGrid
    rw [hm]
    simp only [Bool.false_eq_true, if_false]
    rw [length_identify, length_identify]
  · intro t u f g f' g' hf hg hf' hg' i j
    rw [((C64_no_merging_events cc hcc hnx p hm chunks pre).1 t u f g hf hg i j).2,
      ((C64_no_merging_events cc' hcc' hnx p hm chunks' _).1 t u f' g' hf' hg' _ _).2]

/-- **C208**, events, `allow_merging = True`: if the tracking of a preprocessed field reports no merge, then with the objects numbered in any other way it
reports none either and the events are the same, through all splits. Missing: records with merges (`C208_merging_tie_fails`). -/
theorem C208_events_merging_partial {ny nx : Nat} (cc cc' : Labeller) (hcc : CorrectLabeller cc) (hcc' : CorrectLabeller cc') (hnx : 0 < nx)
    (regional wrap nn : Bool) (thr : ℚ) (cen : Frame (ny * nx) → Nat → ℚ × ℚ) (chunks chunks' : List Nat) (pre : List (Fin (ny * nx) → Bool))
    (hch : SameChunks chunks chunks' pre.length)
    (hm : (trackGrid cc (gridCfg wrap nn ny nx thr cen) (chunksOf chunks (identifyObjectsGrid cc false regional nx pre))).objects.merges = []) :
    let run := trackGrid cc (gridCfg wrap nn ny nx thr cen) (chunksOf chunks (identifyObjectsGrid cc false regional nx pre))
    let run' := trackGrid cc' (gridCfg wrap nn ny nx thr cen) (chunksOf chunks' (identifyObjectsGrid cc' false regional nx pre))
    SamePartition run.idField run'.idField ∧ run'.objects.merges = [] := by
  intro run run'
  have hu : ∀ (cc : Labeller) (_ : CorrectLabeller cc) (ks : List Nat), TimeUnique (chunksOf ks (identifyObjectsGrid cc false regional nx pre)).flatten := by
    intro cc hcc ks
    rw [flatten_chunksOf]
    exact (C63_grid_ids_unique cc hcc regional nx hnx pre).1
  have e : run' = trackGrid cc' (gridCfg wrap nn ny nx thr cen) (chunksOf chunks (identifyObjectsGrid cc' false regional nx pre)) :=
    trackGrid_chunks (chunks := chunks) (chunks' := chunks') cc' _ (by rw [length_identify]; exact hch)
  have k := trackGrid_groups (ny := ny) (nx := nx) cc cc' hcc hcc' wrap nn wrap nn thr cen cen (chunksOf_groups chunks (identify_labellers hcc hcc' hnx pre))
    (hu cc hcc _) (hu cc' hcc' _) hm
  rw [← e] at k
  exact ⟨samePartition_of_groups k.1, k.2⟩

/-- The preprocessed field for two labelling routines. -/
theorem preprocessGrid_labellers {ny nx : Nat} (cc cc' : Labeller) (hcc : CorrectLabeller cc) (hcc' : CorrectLabeller cc') (hnx : 0 < nx) (p : GridRun ny nx)
    (data : List (Fin (ny * nx) → Bool)) (hone : OneFirst p.regional nx (fillStagesGrid p data)) (r : FilterResult (ny * nx))
    (q1 : preprocessGrid cc p data = .ok r) : ∃ r', preprocessGrid cc' p data = .ok r' ∧ r'.field = r.field := by
  unfold preprocessGrid at q1
  obtain ⟨r', q2, hf, -⟩ := filterGrid_groups p.criterion (identify_labellers hcc hcc' hnx (fillStagesGrid p data))
    (uniqueLabels_identify hcc hnx _) (uniqueLabels_identify hcc' hnx _) (by
      intro t f hf hb i j hi hj
      have c := fun i j => C63_grid_objects_are_components cc hcc p.regional nx hnx (fillStagesGrid p data) t t f f hf hf i j
      refine ((c i j).2.2 ⟨rfl, (c i i).1.1 hi, (c j j).1.1 hj, hone t i j (fun s hs k hk => ?_) ((c i i).1.1 hi) ((c j j).1.1 hj)⟩).2
      have hsl : s < (identifyObjectsGrid cc false p.regional nx (fillStagesGrid p data)).length := by
        have := (List.getElem?_eq_some_iff.1 hf).1
        omega
      have := (C63_grid_objects_are_components cc hcc p.regional nx hnx _ s s _ _ (List.getElem?_eq_getElem hsl) (List.getElem?_eq_getElem hsl) k k).1.2 hk
      have := hb s _ hs (List.getElem?_eq_getElem hsl) k
      omega) r q1
  rw [map_renumber_refl] at hf
  exact ⟨r', q2, hf⟩

/-- **C208**, whole runs on structured grids: whatever numbers a correct labelling routine gives to the objects, a run returns the same preprocessed field and
the same events, with `allow_merging = False`, or with `allow_merging = True` if no merge is reported. Missing: records with merges
(`C208_merging_tie_fails`), and records whose first extremes form several objects, of which the filter drops the one numbered first
(`C208_area_filter_fails`). -/
theorem C208_run_partial {ny nx : Nat} (cc cc' : Labeller) (hcc : CorrectLabeller cc) (hcc' : CorrectLabeller cc') (hnx : 0 < nx) (p : GridRun ny nx)
    (wrap nn : Bool) (thr : ℚ) (cen : Frame (ny * nx) → Nat → ℚ × ℚ) (ht : p.track = gridCfg wrap nn ny nx thr cen)
    (chunks : List Nat) (data : List (Fin (ny * nx) → Bool)) (hone : OneFirst p.regional nx (fillStagesGrid p data))
    (pre : List (Fin (ny * nx) → Bool)) (ids : List (Frame (ny * nx))) (hr : runGrid cc p chunks data = .ok (pre, ids))
    (hnone : p.allowMerging = true → (trackGrid cc p.track (chunksOf chunks (identifyObjectsGrid cc false p.regional nx pre))).objects.merges = []) :
    ∃ ids', runGrid cc' p chunks data = .ok (pre, ids') ∧ SamePartition ids ids' := by
  obtain ⟨r, q1, rfl, rfl⟩ := runGrid_ok hr
  obtain ⟨r', q2, hf⟩ := preprocessGrid_labellers cc cc' hcc hcc' hnx p data hone r q1
  refine ⟨_, by unfold runGrid; rw [q2, ← hf], ?_⟩
  rw [hf]
  cases hm : p.allowMerging with
  | false => exact C208_events_without_merging cc cc' hcc hcc' hnx p hm chunks chunks r.field
  | true =>
    have k := hnone hm
    rw [ht] at k
    unfold trackingGrid
    rw [if_pos hm, if_pos hm, ht]
    exact (C208_events_merging_partial cc cc' hcc hcc' hnx p.regional wrap nn thr cen chunks chunks r.field (.inl rfl) k).1

/-! ### Meshes -/

theorem identifyObjectsMesh_labellers {cc cc' : Labeller} (hcc : CorrectLabeller cc) (hcc' : CorrectLabeller cc') (nbr : NbrTable n) (mask f : Fin n → Bool) :
    StepGroups (Equiv.refl _) (identifyObjectsMesh cc nbr mask f) (identifyObjectsMesh cc' nbr mask f) := by
  have hz : ∀ (cc : Labeller) i, 0 < identifyObjectsMesh cc nbr mask f i ↔ mask i = true ∧ f i = true := by
    intro cc i
    rw [identifyObjectsMesh_eq, clusterTrueValues_pos, Bool.and_eq_true]
  refine ⟨fun i => (hz cc' i).trans (hz cc i).symm, fun i j hi => ?_⟩
  rw [Equiv.refl_apply, Equiv.refl_apply]
  by_cases hj : mask j = true ∧ f j = true
  · have hi := (hz cc i).1 hi
    rw [C10_same_object_iff_connected cc hcc nbr mask f i j hi hj, C10_same_object_iff_connected cc' hcc' nbr mask f i j hi hj]
  · have h0 := (hz cc j).not.2 hj
    have h0' := (hz cc' j).not.2 hj
    have hi' := (hz cc' i).2 ((hz cc i).1 hi)
    constructor <;> intro hh <;> omega

/-- **C208**, preprocessing on meshes: the preprocessed field, the area threshold and the counts do not depend on the numbers of the objects. -/
theorem C208_mesh_preprocessing (cc cc' : Labeller) (hcc : CorrectLabeller cc) (hcc' : CorrectLabeller cc') (p : MeshRun n) (data : List (Fin n → Bool))
    (r : FilterResult n) (h : preprocessMesh cc p data = .ok r) : preprocessMesh cc' p data = .ok r := by
  unfold preprocessMesh at h ⊢
  generalize fillTimeGaps _ _ _ _ = fs at h ⊢
  have k := filterMesh_groups p.criterion (e := Equiv.refl _) (fs' := fs.map (identifyObjectsMesh cc' p.nbr p.mask)) (by
    clear h
    induction fs with
    | nil => exact .nil
    | cons f fs ih => exact .cons (identifyObjectsMesh_labellers hcc hcc' p.nbr p.mask f) ih) r h
  rw [map_renumber_refl] at k
  exact k

/-- **C208**, whole runs on meshes: if no object overlaps two objects of the step before, the run returns the same preprocessed field and the same events
whatever numbers a correct labelling routine gives to the objects. Missing: records with merges (`C208_mesh_merging_tie_fails`). -/
theorem C208_mesh_run_partial (cc cc' : Labeller) (hcc : CorrectLabeller cc) (hcc' : CorrectLabeller cc') (p : MeshRun n) (hw : ∀ i, 0 < p.track.w i)
    (data pre : List (Fin n → Bool)) (ids : List (Frame n)) (h : runMesh cc p data = .ok (pre, ids))
    (hm : NoMerges p.track.w p.track.thr (objectFieldMesh cc p.nbr p.mask pre)) :
    ∃ ids', runMesh cc' p data = .ok (pre, ids') ∧ SamePartition ids ids' := by
  unfold runMesh at h
  split at h
  · cases h
  rename_i r hr
  split at h
  · cases h
  rename_i ids0 hids
  simp only [Except.ok.injEq, Prod.mk.injEq] at h
  obtain ⟨rfl, rfl⟩ := h
  have hpre := C208_mesh_preprocessing cc cc' hcc hcc' p data r hr
  have hobj : List.Forall₂ (StepGroups (Equiv.refl _)) (objectFieldMesh cc p.nbr p.mask r.field) (objectFieldMesh cc' p.nbr p.mask r.field) := by
    unfold objectFieldMesh
    refine uniqueAcrossTime_groups ?_ 0 0
    generalize r.field = fs
    induction fs with
    | nil => exact .nil
    | cons f fs ih => exact .cons (identifyObjectsMesh_labellers hcc hcc' p.nbr p.mask f) ih
  have hu := timeUnique_objectFieldMesh cc p.nbr p.mask r.field
  have hu' := timeUnique_objectFieldMesh cc' p.nbr p.mask r.field
  have hwr : renumber (Equiv.refl _) p.track.w = p.track.w := rfl
  have hm' := noMerges_groups _ _ hobj hu' hm
  rw [hwr] at hm'
  have hlen : ¬ (r.field.length = 1 ∧ n ≠ 1) := by
    intro hl
    unfold trackingMesh at hids
    rw [if_pos hl] at hids
    cases hids
  have hmax : 0 < p.track.maxIter := by
    by_contra h0
    unfold trackingMesh at hids
    rw [if_neg hlen] at hids
    have h0 : p.track.maxIter = 0 := by omega
    simp only [splitAndMergeParallel, h0, parLoop] at hids
    cases hids
  have t1 := trackingMesh_noMerges cc p r.field hmax hlen hw hm
  have t2 := trackingMesh_noMerges cc' p r.field hmax hlen hw hm'
  rw [t1, Except.ok.injEq] at hids
  refine ⟨_, by unfold runMesh; rw [hpre]; dsimp only; rw [t2], ?_⟩
  rw [← hids]
  have k := renameField_groups cc cc' hcc hcc' hw p.track.thr hobj hu hu'
    (tableExact_calcProps ⟨p.track.w, p.track.thr, p.cen, fun _ _ _ _ _ _ _ => 0⟩ _ hu)
    (props' := (objectFieldMesh cc' p.nbr p.mask r.field).flatMap (calcProps ⟨p.track.w, p.track.thr, p.cen, fun _ _ _ _ _ _ _ => 0⟩))
    (by rw [hwr]; exact tableExact_calcProps ⟨p.track.w, p.track.thr, p.cen, fun _ _ _ _ _ _ _ => 0⟩ _ hu')
  rw [hwr] at k
  exact samePartition_of_groups k

/-! ### Another numbering -/

/-- The routine that gives the numbers of `cc` in the opposite order. Reference routine, not in `/repo`. -/
def backward (cc : Labeller) : Labeller := fun n edges => ((cc n edges).1, fun v => (cc n edges).1 - 1 - (cc n edges).2 v)

theorem backward_correct {cc : Labeller} (hcc : CorrectLabeller cc) : CorrectLabeller (backward cc) := by
  intro n edges he
  obtain ⟨h1, h2⟩ := hcc n edges he
  refine ⟨fun a b ha hb => ?_, fun k => ?_⟩
  · have ka := (h2 _).2 ⟨a, ha, rfl⟩
    have kb := (h2 _).2 ⟨b, hb, rfl⟩
    rw [← h1 a b ha hb]
    unfold backward
    dsimp only
    omega
  · unfold backward
    dsimp only
    constructor
    · intro hk
      obtain ⟨a, ha, hl⟩ := (h2 ((cc n edges).1 - 1 - k)).1 (by omega)
      exact ⟨a, ha, by omega⟩
    · rintro ⟨a, ha, hl⟩
      have ka := (h2 _).2 ⟨a, ha, rfl⟩
      omega

/-- **C208 fails** for the area filter on structured grids: of two single cells at the first step it drops the one that is numbered first. -/
theorem C208_area_filter_fails : CorrectLabeller (backward quickFind) ∧
    (match runGrid quickFind (rowRun 3 true (1 / 2)) [2] endCells, runGrid (backward quickFind) (rowRun 3 true (1 / 2)) [2] endCells with
      | .ok ([a, _], _), .ok ([a', _], _) => decide (a 0 = false ∧ a 2 = true ∧ a' 0 = true ∧ a' 2 = false) | _, _ => false) = true :=
  ⟨backward_correct quickFind_correct, by decide +kernel⟩

/-- **C208 fails** for merges on structured grids: the middle cell of the merged object is equally near to both parents and goes with the one numbered first. -/
theorem C208_merging_tie_fails : CorrectLabeller (backward quickFind) ∧
    (match trackingGrid quickFind (rowRun 3 true (1 / 3)) [2] endCells, trackingGrid (backward quickFind) (rowRun 3 true (1 / 3)) [2] endCells with
      | [a, b], [a', b'] => decide (0 < a 0 ∧ a 0 = b 1 ∧ a 2 ≠ b 1 ∧ a' 2 = b' 1 ∧ a' 0 ≠ b' 1) | _, _ => false) = true :=
  ⟨backward_correct quickFind_correct, by decide +kernel⟩

/-- **C208 fails** for merges on meshes, in the same way. -/
theorem C208_mesh_merging_tie_fails : CorrectLabeller (backward quickFind) ∧
    (match runMesh quickFind meetRun meetData, runMesh (backward quickFind) meetRun meetData with
      | .ok (_, [_, g]), .ok (_, [_, g']) => decide (0 < g 6 ∧ g 6 = g 0 ∧ g 6 ≠ g 12 ∧ 0 < g' 6 ∧ g' 6 = g' 12 ∧ g' 6 ≠ g' 0)
      | _, _ => false) = true :=
  ⟨backward_correct quickFind_correct, by decide +kernel⟩

-- non-vacuity: a run with a split and no merge, with the numbers in both orders
example : (match runGrid quickFind (rowRun 6 true (1 / 2)) [4] splitRow, runGrid (backward quickFind) (rowRun 6 true (1 / 2)) [4] splitRow with
      | .ok (pre, [_, b, c, d]), .ok (_, [_, b', c', d']) => decide (0 < b 0 ∧ c 0 = b 0 ∧ c 3 = b 0 ∧ d 3 = b 0 ∧ 0 < b' 0 ∧ c' 0 = b' 0 ∧ c' 3 = b' 0 ∧ d' 3 = b' 0) &&
        decide ((trackGrid quickFind (rowRun 6 true (1 / 2)).track (chunksOf [4] (identifyObjectsGrid quickFind false true 6 pre))).objects.merges = [])
      | _, _ => false) = true := by decide +kernel

-- the hypotheses of `C208_mesh_run_partial` are met by the run on a line of cells
example : ∃ pre ids ids', runMesh quickFind (lineRun true) lineData = .ok (pre, ids) ∧ runMesh (backward quickFind) (lineRun true) lineData = .ok (pre, ids') ∧
    SamePartition ids ids' := by
  have h : (match runMesh quickFind (lineRun true) lineData with
      | .ok (pre, _) => decide (((enforceOverlap (lineRun true).track.thr
          ((objectFieldMesh quickFind (lineRun true).nbr (lineRun true).mask pre).flatMap
            (calcProps ⟨(lineRun true).track.w, (lineRun true).track.thr, (lineRun true).cen, fun _ _ _ _ _ _ _ => 0⟩))
          (findOverlaps (lineRun true).track.w (objectFieldMesh quickFind (lineRun true).nbr (lineRun true).mask pre))).map (·.b)).Nodup)
      | .error _ => false) = true := by decide +kernel
  cases hr : runMesh quickFind (lineRun true) lineData with
  | error e => rw [hr] at h; cases h
  | ok q =>
    rw [hr] at h
    obtain ⟨pre, ids⟩ := q
    have hu := timeUnique_objectFieldMesh quickFind (lineRun true).nbr (lineRun true).mask pre
    obtain ⟨ids', h1, h2⟩ := C208_mesh_run_partial quickFind (backward quickFind) quickFind_correct (backward_correct quickFind_correct) (lineRun true)
      (fun _ => one_pos) lineData pre ids hr
      (noMerges_of_nodup (fun _ => one_pos) hu (tableExact_calcProps ⟨(lineRun true).track.w, _, (lineRun true).cen, fun _ _ _ _ _ _ _ => 0⟩ _ hu)
        (of_decide_eq_true h))
    exact ⟨pre, ids, ids', rfl, h1, h2⟩

end MarEx.Props
