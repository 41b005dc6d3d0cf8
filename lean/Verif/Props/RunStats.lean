import Verif.Model.RunStats
import Verif.Props.Pipeline
import Verif.Props.Parallel
import Mathlib.Order.Interval.Finset.Nat
import Mathlib.Data.Set.Card
/-! C92 (what a run reports about itself), C93 (the merge dataset). -/
namespace MarEx.Props
open MarEx MarEx.Spec

variable {n : Nat}

/-- The event IDs that occur in a field. -/
def EventIds (fs : List (Frame n)) : Set Nat := {k | 0 < k ∧ ∃ f ∈ fs, ∃ i, f i = k}

theorem ncard_of_range {fs : List (Frame n)} {N : Nat} (h : ∀ k, (1 ≤ k ∧ k ≤ N) ↔ 0 < k ∧ ∃ f ∈ fs, ∃ i, f i = k) : (EventIds fs).ncard = N := by
  have : EventIds fs = ((Finset.Icc 1 N : Finset Nat) : Set Nat) := by
    ext k
    rw [Finset.coe_Icc, Set.mem_Icc, h k]; rfl
  rw [this, Set.ncard_coe_finset, Nat.card_Icc]; omega

theorem foldl_max_le (l : List Nat) (a b : Nat) : l.foldl max a ≤ b ↔ a ≤ b ∧ ∀ x ∈ l, x ≤ b := by
  induction l generalizing a with
  | nil => simp
  | cons x l ih => rw [List.foldl_cons, ih]; simp [and_assoc]

theorem maxId_le (fs : List (Frame n)) (b : Nat) : maxId fs ≤ b ↔ ∀ f ∈ fs, ∀ i, f i ≤ b := by
  unfold maxId
  rw [foldl_max_le]
  simp only [Nat.zero_le, true_and, List.mem_flatMap, List.mem_map, List.mem_finRange, forall_exists_index, and_imp]
  constructor
  · intro h f hf i; exact h _ f hf i rfl
  · rintro h x f hf i rfl; exact h f hf i

theorem maxId_of_range {fs : List (Frame n)} {N : Nat} (h : ∀ k, (1 ≤ k ∧ k ≤ N) ↔ 0 < k ∧ ∃ f ∈ fs, ∃ i, f i = k) : maxId fs = N := by
  apply le_antisymm
  · rw [maxId_le]
    intro f hf i
    by_cases h0 : f i = 0
    · omega
    · exact ((h (f i)).2 ⟨by omega, f, hf, i, rfl⟩).2
  · by_cases h0 : N = 0
    · omega
    · obtain ⟨_, f, hf, i, hi⟩ := (h N).1 ⟨by omega, le_refl _⟩
      have := (maxId_le fs (maxId fs)).1 (le_refl _) f hf i
      omega

/-- C92: on a structured grid, with or without merging, the reported number of events is the number of different event IDs in the returned field. -/
theorem C92_event_count_grid {ny nx : Nat} (cc : Labeller) (hcc : CorrectLabeller cc) (hnx : 0 < nx) (p : GridRun ny nx) (chunks : List Nat)
    (pre : List (Fin (ny * nx) → Bool)) : eventCountGrid cc p chunks pre = (EventIds (trackingGrid cc p chunks pre)).ncard := by
  unfold eventCountGrid
  cases hm : p.allowMerging with
  | true =>
    rw [if_pos rfl]
    have ht : trackingGrid cc p chunks pre = (trackGrid cc p.track (chunksOf chunks (identifyObjectsGrid cc false p.regional nx pre))).idField := by
      unfold trackingGrid; rw [hm]; rfl
    obtain ⟨_, _, _, N, hN⟩ := C22_events_are_linked_groups cc hcc p.track.w p.track.thr
      (splitAndMerge p.track (chunksOf chunks (identifyObjectsGrid cc false p.regional nx pre))
        ((chunksOf chunks (identifyObjectsGrid cc false p.regional nx pre)).flatten.flatMap (calcProps p.track))).props
      (splitAndMerge p.track (chunksOf chunks (identifyObjectsGrid cc false p.regional nx pre))
        ((chunksOf chunks (identifyObjectsGrid cc false p.regional nx pre)).flatten.flatMap (calcProps p.track))).field
    rw [ht]
    exact (maxId_of_range hN).trans (ncard_of_range hN).symm
  | false =>
    rw [if_neg (by simp)]
    obtain ⟨N, hN⟩ := (C64_no_merging_events cc hcc hnx p hm chunks pre).2
    rw [ncard_of_range hN]
    -- the label count is that number
    have hlab := labelGraph_count hcc (nodup_extremeVoxels pre) (voxelAdj true p.regional nx)
    have ht : trackingGrid cc p chunks pre = identifyObjectsGrid cc true p.regional nx pre := by
      unfold trackingGrid; rw [hm]; rfl
    have key : ∀ k, (1 ≤ k ∧ k ≤ labelCount cc (extremeVoxels pre) (voxelAdj true p.regional nx)) ↔ (1 ≤ k ∧ k ≤ N) := by
      intro k
      rw [hN, ht]
      refine (hlab k).trans ⟨?_, ?_⟩
      · rintro ⟨⟨t, i⟩, hv, rfl⟩
        refine ⟨labelGraph_pos.mpr hv, ?_⟩
        obtain ⟨d, hd, _⟩ := mem_extremeVoxels.mp hv
        have hl : t < (identifyObjectsGrid cc true p.regional nx pre).length := by
          rw [length_identify]; exact (List.getElem?_eq_some_iff.mp hd).1
        exact ⟨_, List.getElem_mem hl, i, (identify_get (List.getElem?_eq_getElem hl)).2 i⟩
      · rintro ⟨h0, g, hg, i, rfl⟩
        obtain ⟨t, ht⟩ := List.mem_iff_getElem?.mp hg
        have h1 := (identify_get ht).2 i
        exact ⟨(t, i), labelGraph_pos.mp (by rw [← h1]; exact h0), h1.symm⟩
    have h1 := key (labelCount cc (extremeVoxels pre) (voxelAdj true p.regional nx))
    have h2 := key N
    omega

/-- C92: on a mesh the reported number of events is the number of different event IDs in the returned field. -/
theorem C92_event_count_mesh (cc : Labeller) (hcc : CorrectLabeller cc) (p : MeshRun n) (pre : List (Fin n → Bool)) (ids : List (Frame n))
    (h : trackingMesh cc p pre = .ok ids) : maxId ids = (EventIds ids).ncard := by
  unfold trackingMesh at h
  dsimp only at h
  split at h
  · cases h
  split at h
  · cases h
  · rename_i r hr
    unfold splitAndMergeParallel at hr
    split at hr
    · cases hr
    · cases hr
      cases h
      obtain ⟨_, _, _, N, hN⟩ := C22_events_are_linked_groups cc hcc p.track.w p.track.thr _ _
      exact (maxId_of_range hN).trans (ncard_of_range hN).symm

/-- C92: the coordinate `ID` of the event variables lists each event ID of the returned field once, in increasing order, and no other. -/
theorem C92_event_coordinate (cc : Labeller) (hcc : CorrectLabeller cc) (w : Fin n → ℚ) (thr : ℚ) (props : List Obj) (fs : List (Frame n)) :
    let pairs := (enforceOverlap thr props (findOverlaps w fs)).map fun o => (o.a, o.b)
    (eventCoord cc fs pairs).Pairwise (· < ·) ∧ ∀ k, k ∈ eventCoord cc fs pairs ↔ k ∈ EventIds (renameField cc fs pairs) := by
  intro pairs
  have hc : eventCoord cc fs pairs = List.range' 1 (numEvents cc fs pairs) := by
    unfold eventCoord
    rw [List.range'_concat, List.dropLast_concat]
  rw [hc]
  refine ⟨List.pairwise_lt_range' .., fun k => ?_⟩
  rw [List.mem_range'_1]
  have hp := pairsInField_links w thr props fs
  change PairsInField fs pairs at hp
  have hr := eventOf_range hcc hp (k := k)
  constructor
  · rintro ⟨h1, h2⟩
    obtain ⟨a, ha, rfl⟩ := hr.1 ⟨h1, by omega⟩
    obtain ⟨h0, f, hf, i, rfl⟩ := mem_fieldIds.mp ha
    exact ⟨(eventOf_pos hp).mpr ha, _, List.mem_map_of_mem hf, i, if_pos h0⟩
  · rintro ⟨h0, f', hf', i, hi⟩
    obtain ⟨f, hf, rfl⟩ := List.mem_map.mp hf'
    dsimp only at hi
    by_cases h : 0 < f i
    · rw [if_pos h] at hi
      have := hr.2 ⟨f i, mem_fieldIds.mpr ⟨h, f, hf, i, rfl⟩, hi⟩
      omega
    · rw [if_neg h] at hi; omega

/-- C92: the number of events that tracking on a structured grid with merging hands on to the event variables is the number of different event IDs in the
field it returns. -/
theorem C92_tracked_count (cc : Labeller) (hcc : CorrectLabeller cc) (c : TrackCfg n) (chunks : List (List (Frame n))) :
    (trackGrid cc c chunks).count = (EventIds (trackGrid cc c chunks).idField).ncard := by
  refine (ncard_of_range fun k => ?_).symm
  have h := (C92_event_coordinate cc hcc c.w c.thr (trackGrid cc c chunks).objects.props (trackGrid cc c chunks).objects.field).2 k
  unfold eventCoord at h
  rw [List.range'_concat, List.dropLast_concat, List.mem_range'_1] at h
  have h' : (1 ≤ k ∧ k < 1 + (trackGrid cc c chunks).count) ↔ 0 < k ∧ ∃ f ∈ (trackGrid cc c chunks).idField, ∃ i, f i = k := h
  rw [← h']
  omega

-- an object that lasts two steps and one that comes with the second step: two events
example : (trackGrid quickFind (gridCfg false false 1 3 (1 / 2) (fun _ _ => (0, 0)))
    [[fun i : Fin 3 => if i.val = 0 then 1 else 0, fun i => if i.val = 0 then 2 else if i.val = 2 then 3 else 0]]).count = 2 := by decide +kernel

/-! ### Attributes -/

theorem attrGet_set (d : List (String × AttrVal)) (k k' : String) (v : AttrVal) :
    attrGet (attrSet d k v) k' = if k' = k then some v else attrGet d k' := by
  unfold attrGet attrSet
  by_cases ha : d.any (fun p => p.1 == k) = true
  · rw [if_pos ha]
    induction d with
    | nil => simp at ha
    | cons p d ih =>
      rw [List.map_cons]
      obtain ⟨a, b⟩ := p
      by_cases hk : a = k
      · subst hk
        rw [if_pos rfl]
        by_cases h' : k' = a
        · subst h'; simp [List.lookup]
        · rw [if_neg h', List.lookup_cons, List.lookup_cons]
          have : (k' == a) = false := by simpa using h'
          rw [this]
          simp only
          by_cases hd : d.any (fun p => p.1 == a) = true
          · rw [ih hd, if_neg h']
          · have hmap : d.map (fun p => if p.1 = a then (a, v) else p) = d := by
              rw [List.map_congr_left (g := id)]
              · simp
              · intro q hq
                have : ¬ q.1 = a := fun h => hd (List.any_eq_true.mpr ⟨q, hq, by simp [h]⟩)
                rw [if_neg this]; rfl
            rw [hmap]
      · rw [if_neg hk, List.lookup_cons, List.lookup_cons]
        have hd : d.any (fun p => p.1 == k) = true := by
          rw [List.any_cons] at ha
          have : (a == k) = false := by simpa using hk
          simpa [this] using ha
        cases hb : (k' == a) with
        | true =>
          have : k' = a := by simpa using hb
          subst this
          simp [hk]
        | false => simp only; exact ih hd
  · rw [if_neg ha]
    have hno : ∀ p ∈ d, p.1 ≠ k := fun p hp h => ha (List.any_eq_true.mpr ⟨p, hp, by simp [h]⟩)
    clear ha
    induction d with
    | nil =>
      rw [List.nil_append, List.lookup_cons]
      by_cases h : k' = k
      · subst h; simp
      · have : (k' == k) = false := by simpa using h
        rw [this, if_neg h]
    | cons p d ih =>
      obtain ⟨a, b⟩ := p
      rw [List.cons_append, List.lookup_cons, List.lookup_cons]
      have hak : a ≠ k := hno (a, b) List.mem_cons_self
      cases hb : (k' == a) with
      | true =>
        have : k' = a := by simpa using hb
        subst this
        simp [hak]
      | false => exact ih fun p hp => hno p (List.mem_cons_of_mem _ hp)

theorem attrGet_update (d e : List (String × AttrVal)) (he : (e.map Prod.fst).Nodup) (k : String) :
    attrGet (attrUpdate d e) k = (attrGet e k).or (attrGet d k) := by
  unfold attrUpdate
  induction e generalizing d with
  | nil => rfl
  | cons p e ih =>
    obtain ⟨a, b⟩ := p
    rw [List.map_cons, List.nodup_cons] at he
    rw [List.foldl_cons, ih _ he.2, attrGet_set]
    unfold attrGet
    rw [List.lookup_cons]
    by_cases h : k = a
    · subst h
      have : e.lookup k = none := by
        rw [List.lookup_eq_none_iff]
        intro q hq
        have : q.1 ≠ k := fun h => he.1 (List.mem_map.mpr ⟨q, hq, h⟩)
        simpa using fun h => this h.symm
      simp [this]
    · have : (k == a) = false := by simpa using h
      rw [if_neg h, this]

/-- C120, the part that holds: as long as the input extremes do not carry an attribute of the same name, the attributes of the result are the settings and
results of the run: fill radius, gap length, filter settings, statistics, number of objects before and after the filter and of events and, with merging
switched on, the overlap threshold, the partitioning, the number of merges and of merges with more than two recorded parents. Attributes of the input
are passed on. Missing: input attributes of these names. -/
theorem C120_attributes_partial (input : List (String × AttrVal)) (hd : (input.map Prod.fst).Nodup) (r : RunInfo) :
    (∀ k v, attrGet input k = some v → attrGet (runAttrs input r) k = some v) ∧
    (∀ k, attrGet input k = none →
      (k = "allow_merging" → attrGet (runAttrs input r) k = some (.int (if r.allowMerging then 1 else 0))) ∧
      (k = "N_objects_prefiltered" → attrGet (runAttrs input r) k = some (.int r.nPrefiltered)) ∧
      (k = "N_objects_filtered" → attrGet (runAttrs input r) k = some (.int r.nFiltered)) ∧
      (k = "N_events_final" → attrGet (runAttrs input r) k = some (.int r.nEvents)) ∧
      (k = "R_fill" → attrGet (runAttrs input r) k = some (.num r.R)) ∧
      (k = "T_fill" → attrGet (runAttrs input r) k = some (.int r.T)) ∧
      (k = "area_filter_quartile" → attrGet (runAttrs input r) k = some (.num r.quartile)) ∧
      (k = "area_threshold (cells)" → attrGet (runAttrs input r) k = some (.num r.stats.threshold)) ∧
      (k = "accepted_area_fraction" → attrGet (runAttrs input r) k = some (.num r.stats.acceptedFraction)) ∧
      (k = "preprocessed_area_fraction" → attrGet (runAttrs input r) k = some (.num r.stats.preprocessedFraction)) ∧
      (r.allowMerging = true →
        (k = "overlap_threshold" → attrGet (runAttrs input r) k = some (.num r.overlap)) ∧
        (k = "nn_partitioning" → attrGet (runAttrs input r) k = some (.int (if r.nn then 1 else 0))) ∧
        (k = "total_merges" → attrGet (runAttrs input r) k = some (.int r.merges.length)) ∧
        (k = "multi_parent_merges" → attrGet (runAttrs input r) k = some (.int (r.merges.countP fun m => decide (2 < m.nParents)))))) := by
  unfold runAttrs
  constructor
  · intro k v h
    rw [attrGet_update _ _ hd, h]; rfl
  · intro k h
    rw [attrGet_update _ _ hd, h, Option.none_or]
    unfold ownAttrs attrGet
    refine ⟨?_, ?_, ?_, ?_, ?_, ?_, ?_, ?_, ?_, ?_, ?_⟩
    case refine_11 =>
      intro hm
      rw [hm]
      refine ⟨?_, ?_, ?_, ?_⟩ <;> (rintro rfl; simp [List.lookup, List.countP_eq_length_filter])
    all_goals (rintro rfl; simp [List.lookup])

/-- C120 fails for inputs that carry an attribute of a name used in the report, such as the output of an earlier run: whatever the run did, the value
reported under that name is the input's. -/
theorem C120_input_overrides_fails (input : List (String × AttrVal)) (hd : (input.map Prod.fst).Nodup) (r r' : RunInfo) (v : AttrVal)
    (h : attrGet input "N_events_final" = some v) :
    attrGet (runAttrs input r) "N_events_final" = some v ∧ attrGet (runAttrs input r') "N_events_final" = some v :=
  ⟨(C120_attributes_partial input hd r).1 _ _ h, (C120_attributes_partial input hd r').1 _ _ h⟩

/-- C120 fails on meshes with merging switched off: merges are carried out all the same (`C114_mesh_ignores_allow_merging_fails`), and none of the four
merge attributes is reported. -/
theorem C120_mesh_merges_unreported_fails (input : List (String × AttrVal)) (hd : (input.map Prod.fst).Nodup) (r : RunInfo) (hm : r.allowMerging = false)
    (k : String) (hk : k ∈ ["overlap_threshold", "nn_partitioning", "total_merges", "multi_parent_merges"]) (hi : attrGet input k = none) :
    attrGet (runAttrs input r) k = none := by
  unfold runAttrs
  rw [attrGet_update _ _ hd, hi, Option.none_or]
  simp only [List.mem_cons, List.not_mem_nil, or_false] at hk
  unfold ownAttrs attrGet
  rw [hm]
  rcases hk with rfl | rfl | rfl | rfl <;> simp [List.lookup]

/-- A run with one merge. -/
def infoEx : RunInfo := ⟨true, 5, 4, 2, 8, 2, 1 / 2, ⟨10, 2, 9 / 10, 4 / 5⟩, 1 / 2, true, [⟨[1, 2, 3], [4, 5, 6], [1, 1, 1], 3, 3, 3⟩]⟩

example : attrGet (runAttrs [("units", .text "1"), ("T_fill", .int 9)] infoEx) "multi_parent_merges" = some (.int 1) ∧
    attrGet (runAttrs [("units", .text "1"), ("T_fill", .int 9)] infoEx) "T_fill" = some (.int 9) ∧
    attrGet (runAttrs [("units", .text "1"), ("T_fill", .int 9)] infoEx) "units" = some (.text "1") := by decide +kernel

/-! ### C93: the merge dataset -/

theorem padRow_take {α : Type} (w : Nat) (fill : α) (l : List α) : (padRow w fill l).take l.length = l := by
  unfold padRow; simp

theorem le_maxLen {ls : List (List Nat)} {l : List Nat} (h : l ∈ ls) : l.length ≤ maxLen ls := by
  unfold maxLen
  have hne : ls.isEmpty = false := by cases ls with | nil => cases h | cons => rfl
  rw [hne, if_neg (by simp)]
  exact ((foldl_max_le _ 0 _).1 (le_refl _)).2 _ (List.mem_map_of_mem h)

theorem padRow_length {α : Type} {w : Nat} (fill : α) {l : List α} (h : l.length ≤ w) : (padRow w fill l).length = w := by
  unfold padRow; simp; omega

theorem padRow_rest {α : Type} (w : Nat) (fill : α) (l : List α) : ∀ x ∈ (padRow w fill l).drop l.length, x = fill := by
  unfold padRow; simp

/-- What a row of the dataset says: the recorded numbers of parents and children, that many IDs and shared areas, -1 in the rest of the row. -/
structure RowOf (r : MergeRec) (row : MergeRow) (wp wc : Nat) : Prop where
  time : row.time = r.time
  nParents : row.nParents = r.parents.length
  nChildren : row.nChildren = r.children.length
  parents : row.parents.take r.parents.length = r.parents.map Int.ofNat
  children : row.children.take r.children.length = r.children.map Int.ofNat
  areas : row.areas.take r.areas.length = r.areas
  fillParents : ∀ x ∈ row.parents.drop r.parents.length, x = -1
  fillChildren : ∀ x ∈ row.children.drop r.children.length, x = -1
  fillAreas : ∀ x ∈ row.areas.drop r.areas.length, x = -1
  widthParents : row.parents.length = wp
  widthChildren : row.children.length = wc
  widthAreas : row.areas.length = wp

/-- C93, the part that holds: if no merge has more than 127 parents or children, the merge dataset has one row per merge, in order, from which the merge can be read
back: its step, the numbers of parents and children, their IDs and the shared areas, padded with -1 to a common width. Missing: merges of more
than 127 objects. -/
theorem C93_dataset_rows_partial (int8 : Nat → Except TErr Int) (h8 : ∀ k, k ≤ 127 → int8 k = .ok k) (recs : List MergeRec)
    (ha : ∀ r ∈ recs, r.areas.length = r.parents.length) (hs : ∀ r ∈ recs, r.parents.length ≤ 127 ∧ r.children.length ≤ 127) :
    ∃ rows wp wc, mergeDataset int8 recs = .ok rows ∧ List.Forall₂ (fun r row => RowOf r row wp wc) recs rows := by
  unfold mergeDataset
  generalize hwp : maxLen (recs.map (·.parents)) = wp
  generalize hwc : maxLen (recs.map (·.children)) = wc
  have hle : ∀ r ∈ recs, r.parents.length ≤ wp ∧ r.children.length ≤ wc := fun r hr =>
    ⟨hwp ▸ le_maxLen (List.mem_map_of_mem hr), hwc ▸ le_maxLen (List.mem_map_of_mem hr)⟩
  clear hwp hwc
  suffices h : ∃ rows, recs.mapM (mergeRow int8 wp wc) = .ok rows ∧ List.Forall₂ (fun r row => RowOf r row wp wc) recs rows by
    obtain ⟨rows, h1, h2⟩ := h
    exact ⟨rows, wp, wc, h1, h2⟩
  induction recs with
  | nil => exact ⟨[], rfl, .nil⟩
  | cons r recs ih =>
    obtain ⟨rows, h1, h2⟩ := ih (fun r hr => ha r (List.mem_cons_of_mem _ hr)) (fun r hr => hs r (List.mem_cons_of_mem _ hr))
      (fun r hr => hle r (List.mem_cons_of_mem _ hr))
    obtain ⟨hs1, hs2⟩ := hs r List.mem_cons_self
    obtain ⟨hl1, hl2⟩ := hle r List.mem_cons_self
    have ha1 := ha r List.mem_cons_self
    refine ⟨⟨padRow wp (-1) (r.parents.map Int.ofNat), padRow wc (-1) (r.children.map Int.ofNat), padRow wp (-1) r.areas, r.time, r.parents.length,
      r.children.length⟩ :: rows, ?_, .cons ?_ h2⟩
    · rw [List.mapM_cons, mergeRow, h8 _ hs1, h8 _ hs2, h1]; rfl
    · have e1 : (r.parents.map Int.ofNat).length = r.parents.length := List.length_map ..
      have e2 : (r.children.map Int.ofNat).length = r.children.length := List.length_map ..
      exact
        { time := rfl, nParents := rfl, nChildren := rfl
          parents := by have := padRow_take wp (-1) (r.parents.map Int.ofNat); rwa [e1] at this
          children := by have := padRow_take wc (-1) (r.children.map Int.ofNat); rwa [e2] at this
          areas := padRow_take ..
          fillParents := by have := padRow_rest wp (-1) (r.parents.map Int.ofNat); rwa [e1] at this
          fillChildren := by have := padRow_rest wc (-1) (r.children.map Int.ofNat); rwa [e2] at this
          fillAreas := padRow_rest wp (-1) r.areas
          widthParents := padRow_length _ (by rw [e1]; exact hl1)
          widthChildren := padRow_length _ (by rw [e2]; exact hl2)
          widthAreas := padRow_length _ (by omega) }

/-- C93 fails for merges of more than 127 objects: an 8-bit count cannot hold their number, so the dataset is not built or its row gives another
number. -/
theorem C93_many_parents_fails (int8 : Nat → Except TErr Int) (h8 : ∀ k, 127 < k → int8 k ≠ .ok k) (recs : List MergeRec) (i : Nat) (r : MergeRec)
    (hi : recs[i]? = some r) (hr : 127 < r.parents.length) (rows : List MergeRow) (h : mergeDataset int8 recs = .ok rows) :
    ∃ row, rows[i]? = some row ∧ row.nParents ≠ r.parents.length := by
  unfold mergeDataset at h
  generalize maxLen (recs.map (·.parents)) = wp at h
  generalize maxLen (recs.map (·.children)) = wc at h
  induction recs generalizing i rows with
  | nil => simp at hi
  | cons r0 recs ih =>
    rw [List.mapM_cons] at h
    cases h1 : mergeRow int8 wp wc r0 with
    | error e => rw [h1] at h; cases h
    | ok row0 =>
      rw [h1] at h
      cases h2 : recs.mapM (mergeRow int8 wp wc) with
      | error e => rw [h2] at h; cases h
      | ok rest =>
        rw [h2] at h
        cases h
        cases i with
        | zero =>
          simp only [List.getElem?_cons_zero, Option.some.injEq] at hi
          subst hi
          refine ⟨row0, rfl, ?_⟩
          unfold mergeRow at h1
          split at h1
          · rename_i a b ha hb
            cases h1
            rintro rfl
            exact h8 _ hr ha
          · cases h1
          · cases h1
        | succ i =>
          obtain ⟨row, h3, h4⟩ := ih i (by simpa using hi) rest h2
          exact ⟨row, by simpa using h3, h4⟩

/-- Wrapping to eight bits, as older numpy versions do: a merge of 130 objects is recorded with -126 parents, and not counted among the merges of several
parents. -/
example : (match mergeDataset (fun k => .ok (Int.bmod k 256)) [⟨0, List.range 130, List.range 130, List.replicate 130 1⟩] with
    | .ok [row] => decide (row.nParents = -126) && decide ((ownAttrs { infoEx with merges := [row] }).lookup "multi_parent_merges" = some (.int 0))
    | _ => false) = true := by
  decide +kernel

example : mergeDataset (fun k => .ok (Int.bmod k 256)) [⟨3, [4, 5], [1, 2], [1, 2]⟩, ⟨7, [6, 8, 9], [4, 5, 3], [1, 2, 1]⟩] =
    .ok [⟨[1, 2, -1], [4, 5, -1], [1, 2, -1], 3, 2, 2⟩, ⟨[4, 5, 3], [6, 8, 9], [1, 2, 1], 7, 3, 3⟩] := by decide +kernel

end MarEx.Props
