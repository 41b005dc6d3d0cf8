import Verif.Lemmas.Pipeline
import Verif.Props.FillHoles
import Verif.Props.Components
import Verif.Props.Filter
import Verif.Props.Parallel
/-! Properties of object identification on structured grids (C63), tracking without merging (C64) and of whole runs (C21, C65). -/
namespace MarEx.Props
open MarEx MarEx.Spec

variable {n : Nat}

theorem voxelAdj_iff {tc regional : Bool} {nx : Nat} (hnx : 0 < nx) {a b : Nat × Fin n} :
    voxelAdj tc regional nx a b = true ↔
      (if tc then ((a.1 : Int) - b.1).natAbs ≤ 1 else a.1 = b.1) ∧ Touch regional nx a.2 b.2 := by
  unfold voxelAdj
  rw [Bool.and_assoc, Bool.and_eq_true, touch_iff hnx]
  refine and_congr ?_ Iff.rfl
  cases tc
  · simp
  · simp [near_iff]

/-- **C63**: on a structured grid, for any correct component routine, two cells carry the same positive object ID iff they belong to the
same step and are joined by a chain of touching (edge or corner, around the globe unless regional) extreme cells of that step. -/
theorem C63_grid_objects_are_components (cc : Labeller) (hcc : CorrectLabeller cc) (regional : Bool) (nx : Nat) (hnx : 0 < nx)
    (data : List (Fin n → Bool)) (t u : Nat) (g g' : Frame n)
    (hg : (identifyObjectsGrid cc false regional nx data)[t]? = some g) (hg' : (identifyObjectsGrid cc false regional nx data)[u]? = some g')
    (i j : Fin n) :
    (0 < g i ↔ IsExtreme data t i) ∧
    ((0 < g i ∧ g i = g' j) ↔ (t = u ∧ IsExtreme data t i ∧ IsExtreme data u j ∧ Linked (JoinedInStep regional nx data t) i j)) := by
  obtain ⟨_, h1⟩ := identify_get hg
  obtain ⟨_, h2⟩ := identify_get hg'
  have hpos : ∀ s k, 0 < labelGraph cc (extremeVoxels data) (voxelAdj false regional nx) (s, k) ↔ IsExtreme data s k := by
    intro s k; rw [labelGraph_pos, mem_extremeVoxels]
  refine ⟨by rw [h1]; exact hpos t i, ?_⟩
  constructor
  · rintro ⟨h0, he⟩
    rw [h1] at h0 he
    rw [h2] at he
    have hi := (hpos t i).mp h0
    have hj := (hpos u j).mp (he ▸ h0)
    have hl := (labelGraph_same hcc (mem_extremeVoxels.mpr hi) (mem_extremeVoxels.mpr hj)).mp he
    have htu : t = u := Linked.invariant (fun v : Nat × Fin n => v.1) (by
      rintro a b ⟨hab, _, _⟩
      have := (voxelAdj_iff hnx).mp hab
      simpa using this.1) hl
    refine ⟨htu, hi, hj, ?_⟩
    have key : ∀ w : Nat × Fin n, Linked (fun a b => voxelAdj false regional nx a b = true ∧ a ∈ extremeVoxels data ∧ b ∈ extremeVoxels data) (t, i) w →
        w.1 = t ∧ Linked (JoinedInStep regional nx data t) i w.2 := by
      intro w hw
      generalize hv : ((t, i) : Nat × Fin n) = v at hw
      induction hw with
      | refl => subst hv; exact ⟨rfl, .refl _⟩
      | fwd _ hab ih =>
        obtain ⟨e1, e2⟩ := ih
        have h3 := (voxelAdj_iff hnx).mp hab.1
        have h4 := h3.1
        rw [if_neg (by simp)] at h4
        refine ⟨h4.symm.trans e1, .fwd e2 ⟨h3.2, ?_, ?_⟩⟩
        · rw [← e1]; exact mem_extremeVoxels.mp hab.2.1
        · rw [← h4.symm.trans e1]; exact mem_extremeVoxels.mp hab.2.2
      | bwd _ hab ih =>
        obtain ⟨e1, e2⟩ := ih
        have h3 := (voxelAdj_iff hnx).mp hab.1
        have h4 := h3.1
        rw [if_neg (by simp)] at h4
        refine ⟨h4.trans e1, .bwd e2 ⟨h3.2, ?_, ?_⟩⟩
        · rw [← h4.trans e1]; exact mem_extremeVoxels.mp hab.2.1
        · rw [← e1]; exact mem_extremeVoxels.mp hab.2.2
    exact (key (u, j) hl).2
  · rintro ⟨rfl, hi, hj, hl⟩
    rw [h1, h2]
    refine ⟨(hpos t i).mpr hi, (labelGraph_same hcc (mem_extremeVoxels.mpr hi) (mem_extremeVoxels.mpr hj)).mpr ?_⟩
    refine Linked.map (fun k : Fin n => ((t, k) : Nat × Fin n)) ?_ hl
    rintro a b ⟨hab, ha, hb⟩
    exact .fwd (.refl _) ⟨(voxelAdj_iff hnx).mpr ⟨by simp, hab⟩, mem_extremeVoxels.mpr ha, mem_extremeVoxels.mpr hb⟩

/-- **C63**: the object IDs of the record are exactly `1..N`, and no ID occurs at two steps. -/
theorem C63_grid_ids_unique (cc : Labeller) (hcc : CorrectLabeller cc) (regional : Bool) (nx : Nat) (hnx : 0 < nx)
    (data : List (Fin n → Bool)) :
    TimeUnique (identifyObjectsGrid cc false regional nx data) ∧
    ∃ N, ∀ k, (1 ≤ k ∧ k ≤ N) ↔ (0 < k ∧ ∃ g ∈ identifyObjectsGrid cc false regional nx data, ∃ i, g i = k) := by
  constructor
  · rw [TimeUnique, List.pairwise_iff_getElem]
    intro t u ht hu htu i j h0 he
    have := ((C63_grid_objects_are_components cc hcc regional nx hnx data t u _ _ (List.getElem?_eq_getElem ht)
      (List.getElem?_eq_getElem hu) i j).2.mp ⟨h0, he⟩).1
    omega
  · obtain ⟨N, hN⟩ := labelGraph_labels hcc (nodup_extremeVoxels data) (voxelAdj false regional nx)
    refine ⟨N, fun k => (hN k).trans ⟨?_, ?_⟩⟩
    · rintro ⟨⟨t, i⟩, hv, rfl⟩
      refine ⟨labelGraph_pos.mpr hv, ?_⟩
      obtain ⟨d, hd, _⟩ := mem_extremeVoxels.mp hv
      have hlt := (List.getElem?_eq_some_iff.mp hd).1
      have hl : t < (identifyObjectsGrid cc false regional nx data).length := by rw [length_identify]; exact hlt
      exact ⟨_, List.getElem_mem hl, i, (identify_get (List.getElem?_eq_getElem hl)).2 i⟩
    · rintro ⟨h0, g, hg, i, rfl⟩
      obtain ⟨t, ht⟩ := List.mem_iff_getElem?.mp hg
      have h1 := (identify_get ht).2 i
      exact ⟨(t, i), labelGraph_pos.mp (by rw [← h1]; exact h0), h1.symm⟩

-- a 1 × 6 record: the object across the date line is one object on the globe and two in regional mode
example : (identifyObjectsGrid quickFind false false 6 [fun i : Fin 6 => decide (i.val ≠ 2), fun i => decide (i.val = 3)]).map
    (fun g => (List.finRange 6).map g) = [[1, 1, 0, 1, 1, 1], [0, 0, 0, 2, 0, 0]] := by decide +kernel
example : (identifyObjectsGrid quickFind false true 6 [fun i : Fin 6 => decide (i.val ≠ 2), fun i => decide (i.val = 3)]).map
    (fun g => (List.finRange 6).map g) = [[1, 1, 0, 2, 2, 2], [0, 0, 0, 3, 0, 0]] := by decide +kernel

/-- **C64**: with `allow_merging=False` on a structured grid, two cells (of any steps) carry the same positive event ID iff they are joined
by a chain of extreme cells, each touching the next in space and at most one step away; IDs are exactly `1..N`. -/
theorem C64_no_merging_events {ny nx : Nat} (cc : Labeller) (hcc : CorrectLabeller cc) (hnx : 0 < nx) (p : GridRun ny nx)
    (hm : p.allowMerging = false) (chunks : List Nat) (pre : List (Fin (ny * nx) → Bool)) :
    (∀ (t u : Nat) (g g' : Frame (ny * nx)), (trackingGrid cc p chunks pre)[t]? = some g → (trackingGrid cc p chunks pre)[u]? = some g' →
      ∀ i j, (0 < g i ↔ IsExtreme pre t i) ∧
        ((0 < g i ∧ g i = g' j) ↔ (IsExtreme pre t i ∧ IsExtreme pre u j ∧ Linked (JoinedInTime p.regional nx pre) (t, i) (u, j)))) ∧
    ∃ N, ∀ k, (1 ≤ k ∧ k ≤ N) ↔ (0 < k ∧ ∃ g ∈ trackingGrid cc p chunks pre, ∃ i, g i = k) := by
  have hrun : trackingGrid cc p chunks pre = identifyObjectsGrid cc true p.regional nx pre := by
    unfold trackingGrid; rw [hm]; rfl
  rw [hrun]
  have hadj : ∀ a b : Nat × Fin (ny * nx), (voxelAdj true p.regional nx a b = true ∧ a ∈ extremeVoxels pre ∧ b ∈ extremeVoxels pre) ↔
      JoinedInTime p.regional nx pre a b := by
    intro a b
    rw [voxelAdj_iff hnx, mem_extremeVoxels, mem_extremeVoxels, JoinedInTime, if_pos rfl, and_assoc]
  constructor
  · intro t u g g' hg hg' i j
    have h1 := (identify_get hg).2
    have h2 := (identify_get hg').2
    have hpos : ∀ s k, 0 < labelGraph cc (extremeVoxels pre) (voxelAdj true p.regional nx) (s, k) ↔ IsExtreme pre s k := by
      intro s k; rw [labelGraph_pos, mem_extremeVoxels]
    refine ⟨by rw [h1]; exact hpos t i, ?_⟩
    rw [h1, h2]
    constructor
    · rintro ⟨h0, he⟩
      have hi := (hpos t i).mp h0
      have hj := (hpos u j).mp (he ▸ h0)
      exact ⟨hi, hj, Linked.mono (fun a b => (hadj a b).mp)
        ((labelGraph_same hcc (mem_extremeVoxels.mpr hi) (mem_extremeVoxels.mpr hj)).mp he)⟩
    · rintro ⟨hi, hj, hl⟩
      exact ⟨(hpos t i).mpr hi, (labelGraph_same hcc (mem_extremeVoxels.mpr hi) (mem_extremeVoxels.mpr hj)).mpr
        (Linked.mono (fun a b => (hadj a b).mpr) hl)⟩
  · obtain ⟨N, hN⟩ := labelGraph_labels hcc (nodup_extremeVoxels pre) (voxelAdj true p.regional nx)
    refine ⟨N, fun k => (hN k).trans ⟨?_, ?_⟩⟩
    · rintro ⟨⟨t, i⟩, hv, rfl⟩
      refine ⟨labelGraph_pos.mpr hv, ?_⟩
      obtain ⟨d, hd, _⟩ := mem_extremeVoxels.mp hv
      have hl : t < (identifyObjectsGrid cc true p.regional nx pre).length := by
        rw [length_identify]; exact (List.getElem?_eq_some_iff.mp hd).1
      exact ⟨_, List.getElem_mem hl, i, (identify_get (List.getElem?_eq_getElem hl)).2 i⟩
    · rintro ⟨h0, g, hg, i, rfl⟩
      obtain ⟨t, ht⟩ := List.mem_iff_getElem?.mp hg
      have h1 := (identify_get ht).2 i
      exact ⟨(t, i), labelGraph_pos.mp (by rw [← h1]; exact h0), h1.symm⟩

-- diagonal in time: cells 0 and 1 at consecutive steps form one event, cell 3 another
example : (identifyObjectsGrid quickFind true true 5 [fun i : Fin 5 => decide (i.val = 0 ∨ i.val = 3), fun i => decide (i.val = 1)]).map
    (fun g => (List.finRange 5).map g) = [[1, 0, 0, 2, 0], [0, 1, 0, 0, 0]] := by decide +kernel

/-- **C114 fails** on meshes: `allow_merging` is ignored there, the run with merging switched off is the run with merging. -/
theorem C114_mesh_ignores_allow_merging_fails (cc : Labeller) (p : MeshRun n) (data : List (Fin n → Bool)) :
    runMesh cc { p with allowMerging := false } data = runMesh cc { p with allowMerging := true } data := rfl

theorem fillFrameGrid_mask {regional : Bool} {ny nx : Nat} {mask : Fin (ny * nx) → Bool} {R : Nat} {f : Fin (ny * nx) → Bool}
    {i : Fin (ny * nx)} (h : fillFrameGrid regional ny nx mask R f i = true) : mask i = true := by
  unfold fillFrameGrid ofImg at h
  have := C06_never_marks_masked _ _ _ _ _ _ _ _ h
  rwa [toImg_ofImg] at this

theorem filterGrid_sub {c : AreaCriterion} {labels : List (Frame n)} {r : FilterResult n} (h : filterGrid c labels = .ok r) :
    r.field.length = labels.length ∧
    ∀ (t : Nat) (f : Frame n) (g : Fin n → Bool), labels[t]? = some f → r.field[t]? = some g → ∀ i, g i = true → 0 < f i := by
  unfold filterGrid at h
  dsimp only at h
  split at h
  · cases h
  · cases h
    refine ⟨by simp, ?_⟩
    intro t f g hf hg i hi
    rw [List.getElem?_map, hf] at hg
    simp only [Option.map_some, Option.some.injEq] at hg
    subst hg
    dsimp only at hi
    rw [List.contains_iff_mem, keepIdsGrid] at hi
    by_contra h0
    have hz : f i = 0 := by omega
    rw [hz] at hi
    rcases List.mem_or_eq_of_mem_set hi with hm | hm
    · obtain ⟨e, he, h1⟩ := List.mem_map.mp hm
      unfold objectTable stepTable idsOf at he
      simp only [List.mem_flatMap, List.mem_map, mem_npUnique, List.mem_filter, decide_eq_true_eq] at he
      obtain ⟨_, _, k, hk, rfl⟩ := he
      split at h1
      · simp only [Int.natCast_eq_zero, Nat.cast_zero] at h1
        omega
      · simp at h1
    · simp at hm

theorem length_fillStagesGrid {ny nx : Nat} (p : GridRun ny nx) (data : List (Fin (ny * nx) → Bool)) :
    (fillStagesGrid p data).length = data.length := by
  unfold fillStagesGrid fillTimeGaps
  split
  · simp
  · rw [List.length_map, length_closeTimeGaps, List.length_map]

theorem fillStagesGrid_mask {ny nx : Nat} (p : GridRun ny nx) (data : List (Fin (ny * nx) → Bool)) (t : Nat) (i : Fin (ny * nx))
    (h : IsExtreme (fillStagesGrid p data) t i) : p.mask i = true := by
  obtain ⟨d, hd, hi⟩ := h
  unfold fillStagesGrid fillTimeGaps at hd
  split at hd
  · rw [List.getElem?_map] at hd
    obtain ⟨f, _, rfl⟩ := Option.map_eq_some_iff.mp hd
    exact fillFrameGrid_mask hi
  · rw [List.getElem?_map] at hd
    obtain ⟨f, _, rfl⟩ := Option.map_eq_some_iff.mp hd
    exact fillFrameGrid_mask hi

/-- **C21** and **C65**, whole runs on structured grids, every parameter (merging or not, partition method, chunking, `R_fill`, `T_fill`,
area criterion, regional or global): if the run succeeds, `ID_field` has the time steps of the input, a cell carries a positive event ID
at a step iff it is extreme in the preprocessed field then, and no land cell carries one. -/
theorem C65_grid_run (cc : Labeller) (hcc : CorrectLabeller cc) {ny nx : Nat} (hnx : 0 < nx) (p : GridRun ny nx)
    (wrap nn : Bool) (thr : ℚ) (cen : Frame (ny * nx) → Nat → ℚ × ℚ) (hp : p.track = gridCfg wrap nn ny nx thr cen)
    (chunks : List Nat) (data : List (Fin (ny * nx) → Bool)) (pre : List (Fin (ny * nx) → Bool)) (ids : List (Frame (ny * nx)))
    (h : runGrid cc p chunks data = .ok (pre, ids)) :
    pre.length = data.length ∧ ids.length = data.length ∧
    ∀ (t : Nat) (g : Frame (ny * nx)), ids[t]? = some g → ∀ i, (0 < g i ↔ IsExtreme pre t i) ∧ (0 < g i → p.mask i = true) := by
  unfold runGrid at h
  split at h
  · cases h
  · rename_i r hr
    cases h
    unfold preprocessGrid at hr
    obtain ⟨hl, hsub⟩ := filterGrid_sub hr
    rw [length_identify, length_fillStagesGrid] at hl
    have hid : ∀ (t : Nat) (g : Frame (ny * nx)), (trackingGrid cc p chunks r.field)[t]? = some g → ∀ i, 0 < g i ↔ IsExtreme r.field t i := by
      intro t g hg i
      cases hm : p.allowMerging with
      | false => exact ((C64_no_merging_events cc hcc hnx p hm chunks r.field).1 t t g g hg hg i i).1
      | true =>
        unfold trackingGrid at hg
        rw [hm, if_pos rfl, hp] at hg
        have hu := (C63_grid_ids_unique cc hcc p.regional nx hnx r.field).1
        rw [← flatten_chunksOf chunks (identifyObjectsGrid cc false p.regional nx r.field)] at hu
        obtain ⟨h1, h2⟩ := C21_tracking_keeps_support cc wrap nn ny nx thr cen _ hu
        rw [flatten_chunksOf] at h1 h2
        have hlt := (List.getElem?_eq_some_iff.mp hg).1
        rw [h1] at hlt
        have hf := List.getElem?_eq_getElem hlt
        rw [h2 t _ g hf hg i]
        exact (C63_grid_objects_are_components cc hcc p.regional nx hnx r.field t t _ _ hf hf i i).1
    have hlen : (trackingGrid cc p chunks r.field).length = r.field.length := by
      cases hm : p.allowMerging with
      | false => unfold trackingGrid; rw [hm, if_neg (by simp), length_identify]
      | true =>
        unfold trackingGrid
        rw [hm, if_pos rfl, hp]
        have hu := (C63_grid_ids_unique cc hcc p.regional nx hnx r.field).1
        rw [← flatten_chunksOf chunks (identifyObjectsGrid cc false p.regional nx r.field)] at hu
        have h1 := (C21_tracking_keeps_support cc wrap nn ny nx thr cen _ hu).1
        rw [flatten_chunksOf, length_identify] at h1
        exact h1
    refine ⟨hl, hlen.trans hl, ?_⟩
    intro t g hg i
    refine ⟨hid t g hg i, fun h0 => ?_⟩
    obtain ⟨d, hd, hi⟩ := (hid t g hg i).mp h0
    have hlt := (List.getElem?_eq_some_iff.mp hd).1
    have hlt' : t < (identifyObjectsGrid cc false p.regional nx (fillStagesGrid p data)).length := by
      rw [length_identify, length_fillStagesGrid, ← hl]; exact hlt
    have hf := List.getElem?_eq_getElem hlt'
    have hpos := hsub t _ d hf hd i hi
    exact fillStagesGrid_mask p data t i
      ((C63_grid_objects_are_components cc hcc p.regional nx hnx (fillStagesGrid p data) t t _ _ hf hf i i).1.mp hpos)

theorem filterMesh_sub {c : AreaCriterion} {labels : List (Frame n)} {r : FilterResult n} (h : filterMesh c labels = .ok r) :
    r.field.length = labels.length ∧
    ∀ (t : Nat) (f : Frame n) (g : Fin n → Bool), labels[t]? = some f → r.field[t]? = some g → ∀ i, g i = true → 0 < f i := by
  unfold filterMesh at h
  dsimp only at h
  split at h
  · cases h
  · cases h
    refine ⟨by simp, ?_⟩
    intro t f g hf hg i hi
    rw [List.getElem?_map, hf] at hg
    simp only [Option.map_some, Option.some.injEq] at hg
    subst hg
    simp only [List.contains_iff_mem, List.mem_filter, decide_eq_true_eq] at hi
    exact hi.2

/-- **C21** and **C65**, whole runs on meshes: if the run succeeds, a cell carries a positive event ID at a step iff it is extreme in the
preprocessed field then, and no land cell carries one (nor is extreme in the preprocessed field). -/
theorem C65_mesh_run (cc : Labeller) (hcc : CorrectLabeller cc) (p : MeshRun n) (htc : 0 < p.track.timechunks)
    (data : List (Fin n → Bool)) (pre : List (Fin n → Bool)) (ids : List (Frame n)) (h : runMesh cc p data = .ok (pre, ids)) :
    pre.length = data.length ∧ ids.length = data.length ∧
    ∀ (t : Nat) (g : Frame n), ids[t]? = some g → ∀ i, (0 < g i ↔ IsExtreme pre t i) ∧ (0 < g i → p.mask i = true) := by
  unfold runMesh at h
  split at h
  · cases h
  · rename_i r hr
    split at h
    · cases h
    · rename_i out hout
      cases h
      unfold preprocessMesh at hr
      obtain ⟨hl, hsub⟩ := filterMesh_sub hr
      have hlf : (fillTimeGaps (fillHolesMesh (dilationRow p.nbr) p.mask) p.T p.R
          (data.map (fillHolesMesh (dilationRow p.nbr) p.mask p.R))).length = data.length := by
        unfold fillTimeGaps
        split
        · simp
        · rw [List.length_map, length_closeTimeGaps, List.length_map]
      rw [List.length_map, hlf] at hl
      -- cells of the preprocessed field are ocean
      have hocean : ∀ t i, IsExtreme r.field t i → p.mask i = true := by
        rintro t i ⟨d, hd, hi⟩
        have hlt := (List.getElem?_eq_some_iff.mp hd).1
        have hlt' : t < (((fillTimeGaps (fillHolesMesh (dilationRow p.nbr) p.mask) p.T p.R
          (data.map (fillHolesMesh (dilationRow p.nbr) p.mask p.R))).map (identifyObjectsMesh cc p.nbr p.mask))).length := by
          rw [List.length_map, hlf, ← hl]; exact hlt
        have hpos := hsub t _ d (List.getElem?_eq_getElem hlt') hd i hi
        rw [List.getElem_map] at hpos
        by_contra hm
        exact absurd ((C10_background_zero cc p.nbr p.mask
          ((fillTimeGaps (fillHolesMesh (dilationRow p.nbr) p.mask) p.T p.R
            (data.map (fillHolesMesh (dilationRow p.nbr) p.mask p.R)))[t]'(by rw [hlf, ← hl]; exact hlt)) i).mpr (fun hc => hm hc.1))
          (Nat.pos_iff_ne_zero.mp hpos)
      unfold trackingMesh at hout
      dsimp only at hout
      split at hout
      · cases hout
      split at hout
      · cases hout
      · rename_i sm hsm
        cases hout
        have hu : TimeUnique (objectFieldMesh cc p.nbr p.mask r.field) := by
          rw [TimeUnique, List.pairwise_iff_getElem]
          intro t u ht hu htu i j h0 he
          have := C11_ids_never_repeat _ t u _ _ (List.getElem?_eq_getElem ht) (List.getElem?_eq_getElem hu) i j h0 he
          omega
        have ht := tableExact_calcProps ⟨p.track.w, p.track.thr, p.cen, fun _ _ _ _ _ _ _ => 0⟩ _ hu
        obtain ⟨h1, h2⟩ := C21_mesh_tracking_keeps_support cc p.track htc p.cen _ _ ht sm hsm
        have hlo : (objectFieldMesh cc p.nbr p.mask r.field).length = r.field.length := by
          unfold objectFieldMesh; rw [length_uniqueAcrossTime, List.length_map]
        rw [hlo, hl] at h1
        refine ⟨hl, h1, ?_⟩
        intro t g hg i
        have hlt := (List.getElem?_eq_some_iff.mp hg).1
        rw [h1, ← hl] at hlt
        have hd := List.getElem?_eq_getElem hlt
        obtain ⟨o, o', ho, _, hchar⟩ := C11_object_field_characterised cc hcc p.nbr p.mask r.field t t _ _ hd hd
        have hid : 0 < g i ↔ IsExtreme r.field t i := by
          rw [h2 t o g ho hg i]
          constructor
          · intro h0
            obtain ⟨oo, hoo, h3⟩ : ∃ oo, (objectFieldMesh cc p.nbr p.mask r.field)[t]? = some oo ∧ oo = o := ⟨o, ho, rfl⟩
            have heq : o = o' := by
              rename_i ho'; rw [ho] at ho'; exact Option.some.inj ho'
            have := (hchar i i).mp ⟨h0, by rw [← heq]⟩
            exact ⟨_, hd, this.2.2.1⟩
          · rintro ⟨d, hd', hi⟩
            rw [hd] at hd'
            cases hd'
            have hm := hocean t i ⟨_, hd, hi⟩
            exact ((hchar i i).mpr ⟨rfl, hm, hi, hm, hi, .refl _⟩).1
        exact ⟨hid, fun h0 => hocean t i (hid.mp h0)⟩

/-- A small run on a 2 × 4 grid, three steps: cell 3 is land, two events; `area_filter_absolute = 1`, no filling. -/
def smallRun (merging : Bool) : GridRun 2 4 :=
  { regional := false, mask := fun i => i.val != 3, R := 0, T := 0, criterion := .absolute 1, allowMerging := merging
    track := gridCfg true false 2 4 (1 / 2) (fun _ _ => (0, 0)) }

-- the run succeeds and finds events (the very first object, cell 0 of step 0, is dropped by the area filter: see C07)
example : (match runGrid quickFind (smallRun true) [2, 1] [fun i => decide (i.val = 0 ∨ i.val = 2), fun i => decide (i.val = 2 ∨ i.val = 3 ∨ i.val = 4),
    fun i => decide (i.val = 4)] with
    | .ok (_, ids) => ids.map fun g => (List.finRange 8).map g
    | .error _ => []) = [[0, 0, 1, 0, 0, 0, 0, 0], [0, 0, 1, 0, 2, 0, 0, 0], [0, 0, 0, 0, 2, 0, 0, 0]] := by decide +kernel

/-- Neighbour table of a line of cells: 1-based, 0 for no neighbour. -/
def lineTable (n : Nat) : NbrTable n := fun v i =>
  if v = 0 then (i.val : Int) else if v = 1 then (if i.val + 1 < n then (i.val : Int) + 2 else 0) else 0

/-- A run on a line of fourteen mesh cells (cell 13 is land), `allow_merging` as given, objects of more than one cell kept. -/
def lineRun (merging : Bool) : MeshRun 14 :=
  { nbr := lineTable 14, mask := fun i => i.val != 13, R := 0, T := 0, criterion := .absolute 1, allowMerging := merging
    track := meshCfg (lineNbr 14) (fun _ => 1) 1 (1/4) 3 40 (fun _ _ _ => 0), cen := fun _ _ => (0, 0) }

/-- Three steps: an object at cells 0–6, then 4–6 with a second one at 9–10, then one at 11–12 (cell 13 is land, cell 8 of step 2 stands alone). -/
def lineData : List (Fin 14 → Bool) :=
  [fun i => decide (i.val ≤ 6), fun i => decide (4 ≤ i.val ∧ i.val ≤ 6 ∨ i.val = 9 ∨ i.val = 10), fun i => decide (11 ≤ i.val ∨ i.val = 8)]

-- the run succeeds: the objects at cells 0–6 and 4–6 are one event, the two others are separate events
example : (match runMesh quickFind (lineRun true) lineData with
    | .ok (_, ids) => ids.map fun g => (List.finRange 14).map g
    | .error _ => []) = [[1, 1, 1, 1, 1, 1, 1, 0, 0, 0, 0, 0, 0, 0], [0, 0, 0, 0, 1, 1, 1, 0, 0, 2, 2, 0, 0, 0],
      [0, 0, 0, 0, 0, 0, 0, 0, 0, 0, 0, 3, 3, 0]] := by decide +kernel

/-- **C114 fails** on meshes, in terms of events: with `allow_merging=False` two touching cells of consecutive steps (cell 10 at step 1 and
cell 11 at step 2, neighbours of each other and both extreme in the preprocessed field) carry different event IDs. -/
theorem C114_mesh_touching_cells_two_events_fails :
    (match runMesh quickFind (lineRun false) lineData with
      | .ok ([_, e1, e2], [_, g1, g2]) => e1 10 && e2 11 && decide (lineTable 14 1 10 = 11 + 1) && decide (0 < g1 10 ∧ 0 < g2 11 ∧ g1 10 ≠ g2 11)
      | _ => false) = true := by decide +kernel

/-- **C157** fails: on a mesh of more than one cell, a record of a single step that passes the preprocessing is never tracked: `run()` raises
`IndexError`, whatever the data and the settings. -/
theorem C157_single_step_fails (cc : Labeller) (p : MeshRun n) (hn : n ≠ 1) (d : Fin n → Bool) (r : FilterResult n)
    (hr : preprocessMesh cc p [d] = .ok r) (hl : r.field.length = 1) : runMesh cc p [d] = .error (.track .index) := by
  unfold runMesh
  rw [hr]
  dsimp only
  unfold trackingMesh
  rw [if_pos ⟨hl, hn⟩]

-- non-vacuity: the first step of the record above passes the preprocessing
example : (match preprocessMesh quickFind (lineRun true) (lineData.take 1) with | .ok r => r.field.length == 1 | .error _ => false) = true := by
  decide +kernel

/-- **C157**, the part that holds: a record of several steps in which no object has more than one predecessor is tracked (with
`max_iteration` at least 1).  Missing: records of one step, and records with merges, which can raise (C59, C85, C134). -/
theorem C157_without_merges_partial (cc : Labeller) (p : MeshRun n) (data : List (Fin n → Bool)) (r : FilterResult n)
    (hr : preprocessMesh cc p data = .ok r) (hl : r.field.length ≠ 1) (hmax : 0 < p.track.maxIter)
    (hm : (parInit p.track (objectFieldMesh cc p.nbr p.mask r.field) ((objectFieldMesh cc p.nbr p.mask r.field).flatMap
      (calcProps ⟨p.track.w, p.track.thr, p.cen, fun _ _ _ _ _ _ _ => 0⟩))).merging = []) :
    ∃ ids, runMesh cc p data = .ok (r.field, ids) := by
  unfold runMesh
  rw [hr]
  dsimp only
  unfold trackingMesh
  rw [if_neg (fun h => hl h.1)]
  dsimp only
  unfold splitAndMergeParallel
  obtain ⟨k, hk⟩ : ∃ k, p.track.maxIter = k + 1 := ⟨p.track.maxIter - 1, by omega⟩
  rw [hk, parLoop, hm]
  exact ⟨_, rfl⟩

example : (match preprocessMesh quickFind (lineRun true) lineData with
    | .ok r => (parInit (lineRun true).track (objectFieldMesh quickFind (lineRun true).nbr (lineRun true).mask r.field)
        ((objectFieldMesh quickFind (lineRun true).nbr (lineRun true).mask r.field).flatMap
        (calcProps ⟨(lineRun true).track.w, (lineRun true).track.thr, (lineRun true).cen, fun _ _ _ _ _ _ _ => 0⟩))).merging.isEmpty
    | .error _ => false) = true := by decide +kernel

end MarEx.Props
