import Verif.Props.Numbering
import Verif.Model.Centroid
/-! C192: the choice of `nn_partitioning` matters only where objects merge.  C193: lowering `overlap_threshold` never separates an event. -/
namespace MarEx.Spec

variable {n : Nat}

/-- Cells of one event of `ids` are cells of one event of `ids'`. -/
def Coarser (ids ids' : List (Fin n → Nat)) : Prop :=
  ids'.length = ids.length ∧
  ∀ (t u : Nat) (f g f' g' : Fin n → Nat), ids[t]? = some f → ids[u]? = some g → ids'[t]? = some f' → ids'[u]? = some g' →
    ∀ i j, 0 < f i → f i = g j → 0 < f' i ∧ f' i = g' j

end MarEx.Spec

namespace MarEx.Props
open MarEx Spec

variable {n : Nat}

/-! ### C192, grids -/

/-- What `processChild` does, however the child is divided: one more merge record. -/
theorem processChild_merges (c : TrackCfg n) (t : Nat) (prev : Frame n) (st : Frame n × SMState × List Ov) (child : Nat) :
    (processChild c t prev st child).2.1.merges.length = st.2.1.merges.length + 1 := by
  unfold processChild
  simp

theorem processChild_fold_merges (c : TrackCfg n) (t : Nat) (prev : Frame n) (l : List Nat) : ∀ st : Frame n × SMState × List Ov,
    (l.foldl (processChild c t prev) st).2.1.merges.length = st.2.1.merges.length + l.length := by
  induction l with
  | nil => intro st; simp
  | cons k l ih =>
    intro st
    rw [List.foldl_cons, ih, processChild_merges, List.length_cons]
    omega

theorem resolveMerges_mono (c : TrackCfg n) (t : Nat) (prev : Frame n) (fuel : Nat) : ∀ (cur : Frame n) (s : SMState),
    s.merges.length ≤ (resolveMerges c t prev fuel (cur, s)).2.merges.length := by
  induction fuel with
  | zero => intro cur s; exact le_refl _
  | succ fuel ih =>
    intro cur s
    unfold resolveMerges
    dsimp only
    split
    · exact le_refl _
    · refine le_trans ?_ (ih _ _)
      rw [processChild_fold_merges]
      dsimp only
      omega

/-- A step at which no merge is recorded leaves everything as it is, however merges would be divided. -/
theorem resolveMerges_none (c : TrackCfg n) (t : Nat) (prev : Frame n) (q) (fuel : Nat) (cur : Frame n) (s : SMState)
    (h : (resolveMerges c t prev fuel (cur, s)).2.merges.length ≤ s.merges.length) :
    resolveMerges { c with part := q } t prev fuel (cur, s) = resolveMerges c t prev fuel (cur, s) := by
  cases fuel with
  | zero => rfl
  | succ fuel =>
    unfold resolveMerges at h ⊢
    dsimp only at h ⊢
    split
    · rfl
    · rename_i hne
      rw [if_neg hne] at h
      exfalso
      have h1 := resolveMerges_mono c t prev fuel
        ((repeated ((enforceOverlap c.thr s.props (checkOverlapSlice c.w prev cur)).map (·.b))).foldl (processChild c t prev)
          (cur, s, enforceOverlap c.thr s.props (checkOverlapSlice c.w prev cur))).1
        ((repeated ((enforceOverlap c.thr s.props (checkOverlapSlice c.w prev cur)).map (·.b))).foldl (processChild c t prev)
          (cur, s, enforceOverlap c.thr s.props (checkOverlapSlice c.w prev cur))).2.1
      rw [processChild_fold_merges] at h1
      dsimp only at h1
      have : 0 < (repeated ((enforceOverlap c.thr s.props (checkOverlapSlice c.w prev cur)).map (·.b))).length := by
        rw [List.length_pos_iff]
        intro h0
        rw [h0] at hne
        exact hne rfl
      omega

theorem consolidate_part (c : TrackCfg n) (q) (f2 f1 : Frame n) (props : List Obj) :
    consolidate { c with part := q } f2 f1 props = consolidate c f2 f1 props := rfl

theorem chunkLoop_none (c : TrackCfg n) (q) (rest : List (Frame n)) : ∀ (t : Nat) (l2 l1 : Frame n) (done : List (Frame n)) (first : Bool) (s : SMState),
    s.merges.length ≤ (chunkLoop c t l2 l1 done first rest s).2.merges.length ∧
    ((chunkLoop c t l2 l1 done first rest s).2.merges.length ≤ s.merges.length →
      chunkLoop { c with part := q } t l2 l1 done first rest s = chunkLoop c t l2 l1 done first rest s) := by
  induction rest with
  | nil =>
    intro t l2 l1 done first s
    unfold chunkLoop
    split
    · exact ⟨le_refl _, fun _ => rfl⟩
    · split
      · exact ⟨le_refl _, fun _ => rfl⟩
      · exact ⟨le_refl _, fun _ => rfl⟩
  | cons cur rest ih =>
    intro t l2 l1 done first s
    cases first with
    | true =>
      rw [chunkLoop_cons_true, chunkLoop_cons_true]
      unfold processStep
      have hm := resolveMerges_mono c t l1 10 cur s
      obtain ⟨h1, h2⟩ := ih (t + 1) l1 (resolveMerges c t l1 10 (cur, s)).1 [] false (resolveMerges c t l1 10 (cur, s)).2
      refine ⟨le_trans hm h1, fun h => ?_⟩
      rw [resolveMerges_none c t l1 q 10 cur s (le_trans h1 h)]
      exact h2 (le_trans h hm)
    | false =>
      rw [chunkLoop_cons_false, chunkLoop_cons_false]
      unfold processStep
      rw [consolidate_part c q l2 l1 s.props]
      generalize consolidate c l2 l1 s.props = k
      have hm := resolveMerges_mono c t k.1 10 cur { s with props := k.2 }
      obtain ⟨h1, h2⟩ := ih (t + 1) k.1 (resolveMerges c t k.1 10 (cur, { s with props := k.2 })).1 (k.1 :: done) false
        (resolveMerges c t k.1 10 (cur, { s with props := k.2 })).2
      refine ⟨le_trans hm h1, fun h => ?_⟩
      rw [resolveMerges_none c t k.1 q 10 cur { s with props := k.2 } (le_trans h1 h)]
      exact h2 (le_trans h hm)

theorem chunksLoop_none (c : TrackCfg n) (q) (chs : List (List (Frame n))) : ∀ (t : Nat) (prev : List (Frame n)) (s : SMState),
    s.merges.length ≤ (chunksLoop c t prev chs s).2.merges.length ∧
    ((chunksLoop c t prev chs s).2.merges.length ≤ s.merges.length →
      chunksLoop { c with part := q } t prev chs s = chunksLoop c t prev chs s) := by
  induction chs with
  | nil => intro t prev s; exact ⟨le_refl _, fun _ => rfl⟩
  | cons ch chs ih =>
    intro t prev s
    unfold chunksLoop
    dsimp only
    obtain ⟨a1, a2⟩ := chunkLoop_none c q ch t (prev.dropLast.getLast?.getD zeroFrame) (prev.getLast?.getD zeroFrame) [] true s
    obtain ⟨b1, b2⟩ := ih (t + ch.length) (chunkLoop c t (prev.dropLast.getLast?.getD zeroFrame) (prev.getLast?.getD zeroFrame) [] true ch s).1
      (chunkLoop c t (prev.dropLast.getLast?.getD zeroFrame) (prev.getLast?.getD zeroFrame) [] true ch s).2
    refine ⟨le_trans a1 b1, fun h => ?_⟩
    rw [a2 (le_trans b1 h), b2 (le_trans h a1)]

theorem splitAndMerge_none (c : TrackCfg n) (q) (chunks : List (List (Frame n))) (props : List Obj) (h : (splitAndMerge c chunks props).merges = []) :
    splitAndMerge { c with part := q } chunks props = splitAndMerge c chunks props := by
  unfold splitAndMerge at h ⊢
  dsimp only at h ⊢
  rw [(chunksLoop_none c q chunks 0 [] ⟨props, firstNewId props, []⟩).2 (by rw [h])]

/-- **C192**, the part that holds (grids): if a run reports no merge, the run with the other value of `nn_partitioning` — and every other way to divide
merged objects — returns the same preprocessed field, events, object table and (empty) list of merges, for any data, options and time chunks.  Missing:
records with merges, where the objects after the merge differ, see below. -/
theorem C192_grid_partial {ny nx : Nat} (cc : Labeller) (p : GridRun ny nx) (wrap nn nn' : Bool) (thr : ℚ) (cen : Frame (ny * nx) → Nat → ℚ × ℚ)
    (chunks : List Nat) (data pre : List (Fin (ny * nx) → Bool)) (ids : List (Frame (ny * nx)))
    (h : runGrid cc { p with track := gridCfg wrap nn ny nx thr cen } chunks data = .ok (pre, ids))
    (hm : (trackGrid cc (gridCfg wrap nn ny nx thr cen) (chunksOf chunks (identifyObjectsGrid cc false p.regional nx pre))).objects.merges = []) :
    runGrid cc { p with track := gridCfg wrap nn' ny nx thr cen } chunks data = .ok (pre, ids) ∧
    trackGrid cc (gridCfg wrap nn' ny nx thr cen) (chunksOf chunks (identifyObjectsGrid cc false p.regional nx pre)) =
      trackGrid cc (gridCfg wrap nn ny nx thr cen) (chunksOf chunks (identifyObjectsGrid cc false p.regional nx pre)) := by
  have key : trackGrid cc (gridCfg wrap nn' ny nx thr cen) (chunksOf chunks (identifyObjectsGrid cc false p.regional nx pre)) =
      trackGrid cc (gridCfg wrap nn ny nx thr cen) (chunksOf chunks (identifyObjectsGrid cc false p.regional nx pre)) := by
    have hs := splitAndMerge_none (gridCfg wrap nn ny nx thr cen) (gridCfg wrap nn' ny nx thr cen).part _ _ hm
    have he : { gridCfg wrap nn ny nx thr cen with part := (gridCfg wrap nn' ny nx thr cen).part } = gridCfg wrap nn' ny nx thr cen := rfl
    rw [he] at hs
    have hp : (calcProps (gridCfg wrap nn' ny nx thr cen) : Frame (ny * nx) → _) = calcProps (gridCfg wrap nn ny nx thr cen) := rfl
    unfold trackGrid
    dsimp only
    rw [hp, hs]
  refine ⟨?_, key⟩
  have hpre : preprocessGrid cc { p with track := gridCfg wrap nn' ny nx thr cen } data =
      preprocessGrid cc { p with track := gridCfg wrap nn ny nx thr cen } data := rfl
  unfold runGrid at h ⊢
  rw [hpre]
  split at h
  · cases h
  rename_i r hr
  simp only [Except.ok.injEq, Prod.mk.injEq] at h
  obtain ⟨rfl, rfl⟩ := h
  unfold trackingGrid
  dsimp only
  rw [key]

/-- Centroids on a row of cells. -/
def rowCen (m : Nat) (f : Frame (1 * m)) (k : Nat) : ℚ × ℚ :=
  (0, xCentroid false m (((List.finRange (1 * m)).filter fun i => f i == k).map fun i => (i.val, 1)))

/-- A regional row of `m` cells, no filling, no area threshold. -/
def rowRun (m : Nat) (nn : Bool) (thr : ℚ) : GridRun 1 m :=
  { regional := true, mask := fun _ => true, R := 0, T := 0, criterion := .absolute 1, allowMerging := true
    track := gridCfg false nn 1 m thr (rowCen m) }

/-- Cells `a` to `b` of a row. -/
def cellsFrom {m : Nat} (a b : Nat) : Fin m → Bool := fun i => decide (a ≤ i.val ∧ i.val ≤ b)

/-- Cells 0–5 and 7 merge; of the merged object cell 5 is left.  (The object of the first step is there to be dropped by the area filter.) -/
def mergeData : List (Fin (1 * 8) → Bool) := [cellsFrom 1 1, fun i => i.val != 6, fun _ => true, cellsFrom 5 5]

/-- **C192 fails** with merges: the documentation says that the choice "does NOT affect which objects are linked", but the object on cell 5 after the merge
continues the event of cell 0 with `nn_partitioning=True` and the event of cell 7 without it. -/
theorem C192_links_fails :
    (match runGrid quickFind (rowRun 8 true (1/2)) [4] mergeData with
      | .ok (_, [_, f, _, h]) => decide (0 < h 5 ∧ h 5 = f 0 ∧ h 5 ≠ f 7)
      | _ => false) = true ∧
    (match runGrid quickFind (rowRun 8 false (1/2)) [4] mergeData with
      | .ok (_, [_, f, _, h]) => decide (0 < h 5 ∧ h 5 = f 7 ∧ h 5 ≠ f 0)
      | _ => false) = true := by
  constructor <;> decide +kernel

/-- An object that splits in two. -/
def splitData : List (Fin (1 * 9) → Bool) := [cellsFrom 8 8, cellsFrom 3 5, fun i => cellsFrom 3 3 i || cellsFrom 5 8 i, cellsFrom 0 3]

-- the hypotheses of `C192_grid_partial` are met by a record with a split
example : ∃ pre ids, runGrid quickFind (rowRun 9 true (1/3)) [4] splitData = .ok (pre, ids) ∧
    runGrid quickFind (rowRun 9 false (1/3)) [4] splitData = .ok (pre, ids) := by
  have h : (match runGrid quickFind (rowRun 9 true (1/3)) [4] splitData with
      | .ok (pre, _) => decide ((trackGrid quickFind (gridCfg false true 1 9 (1/3) (rowCen 9))
          (chunksOf [4] (identifyObjectsGrid quickFind false true 9 pre))).objects.merges = [])
      | .error _ => false) = true := by decide +kernel
  cases hr : runGrid quickFind (rowRun 9 true (1/3)) [4] splitData with
  | error e => rw [hr] at h; cases h
  | ok q =>
    rw [hr] at h
    exact ⟨q.1, q.2, rfl, (C192_grid_partial quickFind (rowRun 9 true (1/3)) false true false (1/3) (rowCen 9) [4] splitData q.1 q.2 hr (of_decide_eq_true h)).1⟩

/-! ### C192, meshes -/

theorem gatherParents_part (c : MeshCfg n) (q) (m1 cur : Frame n) (child : Nat) (l : List Nat) : ∀ acc,
    gatherParents { c with part := q } m1 cur child l acc = gatherParents c m1 cur child l acc := by
  induction l with
  | nil => intro acc; rfl
  | cons a l ih =>
    intro acc
    unfold gatherParents
    dsimp only
    rw [ih, ih]

theorem processMeshChild_none (c : MeshCfg n) (q) (m1 p1 : Frame n) (st st' : StepOut n) (child : Nat) (h : processMeshChild c m1 p1 st child = .ok st') :
    st.merges.length ≤ st'.merges.length ∧
    (st'.merges.length ≤ st.merges.length → processMeshChild { c with part := q } m1 p1 st child = .ok st') := by
  unfold processMeshChild at h ⊢
  rw [gatherParents_part]
  split at h
  · cases h
  rename_i ps hps
  split at h
  · rename_i hlt
    rw [Except.ok.injEq] at h
    subst h
    refine ⟨le_refl _, fun _ => ?_⟩
    rw [if_pos hlt]
  · dsimp only at h
    split at h
    · cases h
    split at h
    · cases h
    split at h
    · cases h
    rw [Except.ok.injEq] at h
    subst h
    dsimp only
    rw [List.length_append, List.length_singleton]
    refine ⟨by omega, fun h => by omega⟩

theorem runQueue_none (c : MeshCfg n) (q) (m1 p1 : Frame n) (l : List Nat) : ∀ (st st' : StepOut n), runQueue c m1 p1 l st = .ok st' →
    st.merges.length ≤ st'.merges.length ∧ (st'.merges.length ≤ st.merges.length → runQueue { c with part := q } m1 p1 l st = .ok st') := by
  induction l with
  | nil => intro st st' h; rw [runQueue, Except.ok.injEq] at h; subst h; exact ⟨le_refl _, fun _ => rfl⟩
  | cons k l ih =>
    intro st st' h
    rw [runQueue] at h ⊢
    split at h
    · cases h
    rename_i st1 h1
    obtain ⟨a1, a2⟩ := processMeshChild_none c q m1 p1 st st1 k h1
    obtain ⟨b1, b2⟩ := ih st1 st' h
    refine ⟨le_trans a1 b1, fun hle => ?_⟩
    rw [a2 (le_trans b1 hle)]
    exact b2 (le_trans hle a1)

theorem chunkGo_none (c : MeshCfg n) (q) (rs : List (Row n)) : ∀ (m1 cur : Frame n) (extra : List Nat) (r : List (StepOut n) × List Nat),
    chunkGo c m1 cur extra rs = .ok r → (∀ o ∈ r.1, o.merges = []) → chunkGo { c with part := q } m1 cur extra rs = .ok r := by
  induction rs with
  | nil => intro m1 cur extra r h _; exact h
  | cons row rs ih =>
    intro m1 cur extra r h hm
    rw [chunkGo] at h ⊢
    split at h
    · cases h
    rename_i st hst
    have hq := (runQueue_none c q m1 row.p1 _ _ _ hst).2
    have hi : (initStep cur row.off).merges = [] := rfl
    split at h
    · rename_i he
      split at h
      · cases h
      rename_i hle
      rw [Except.ok.injEq] at h
      subst h
      rw [hq (by rw [hm st (by simp), hi])]
      dsimp only
      rw [if_pos he, if_neg hle]
    · rename_i he
      split at h
      · cases h
      rename_i outs fin hg
      rw [Except.ok.injEq] at h
      subst h
      rw [hq (by rw [hm st (by simp), hi])]
      dsimp only
      rw [if_neg he, ih st.cur row.p1 st.found _ hg (fun o ho => hm o (List.mem_cons_of_mem _ ho))]

theorem processChunks_none (c : MeshCfg n) (q) (chs : List (List (Row n))) : ∀ r : List (StepOut n) × List Nat,
    processChunks c chs = .ok r → (∀ o ∈ r.1, o.merges = []) → processChunks { c with part := q } chs = .ok r := by
  induction chs with
  | nil => intro r h _; exact h
  | cons ch chs ih =>
    intro r h hm
    rw [processChunks] at h ⊢
    split at h
    · cases h
    rename_i outs fin h1
    split at h
    · cases h
    rename_i outs' fin' h2
    rw [Except.ok.injEq] at h
    subst h
    have e1 : processChunk { c with part := q } ch = .ok (outs, fin) := by
      match ch, h1 with
      | [], h1 => exact h1
      | [_], h1 => exact h1
      | r0 :: r1 :: rs, h1 => exact chunkGo_none c q _ _ _ _ _ h1 fun o ho => hm o (List.mem_append_left _ ho)
    rw [e1]
    dsimp only
    rw [ih _ h2 fun o ho => hm o (List.mem_append_right _ ho)]

theorem recordsOf_nil {counter : Nat} {temps : List Nat} {outs : List (StepOut n)} (h : recordsOf counter temps outs = []) : ∀ o ∈ outs, o.merges = [] := by
  intro o ho
  obtain ⟨t, ht, rfl⟩ := List.mem_iff_getElem.1 ho
  unfold recordsOf at h
  rw [List.flatMap_eq_nil_iff] at h
  have := h (t, outs[t]) (List.mem_iff_getElem.2 ⟨t, by simpa using ht, by simp⟩)
  simpa using this

theorem parLoop_none (c : MeshCfg n) (q) (fuel : Nat) : ∀ (s s' : ParState n), parLoop c fuel s = .ok s' →
    s.recs.length ≤ s'.recs.length ∧ (s'.recs.length ≤ s.recs.length → parLoop { c with part := q } fuel s = .ok s') := by
  induction fuel with
  | zero => intro s s' h; cases h
  | succ fuel ih =>
    intro s s' h
    rw [parLoop] at h ⊢
    split at h
    · rename_i he
      rw [Except.ok.injEq] at h
      subst h
      exact ⟨le_refl _, fun _ => by rw [if_pos he]⟩
    rename_i he
    rw [if_neg he]
    split at h
    · cases h
    rename_i s1 h1
    obtain ⟨b1, b2⟩ := ih s1 s' h
    unfold parIteration at h1 ⊢
    split at h1
    · cases h1
    rename_i hid
    split at h1
    · cases h1
    rename_i outs fin hp
    rw [Except.ok.injEq] at h1
    have hr : s1.recs = s.recs ++ recordsOf s.counter (tempIds s.counter outs) outs := by rw [← h1]
    rw [hr, List.length_append] at b1
    refine ⟨by omega, fun hle => ?_⟩
    have hnil : recordsOf s.counter (tempIds s.counter outs) outs = [] := List.eq_nil_of_length_eq_zero (by omega)
    have hrow : rowsOf { c with part := q } s.fs s.merging s.counter = rowsOf c s.fs s.merging s.counter := rfl
    dsimp only
    rw [hrow]
    rw [processChunks_none c q _ _ hp (recordsOf_nil hnil)]
    dsimp only
    rw [h1]
    refine b2 ?_
    rw [hr, hnil, List.append_nil]
    omega

theorem splitAndMergeParallel_none (c : MeshCfg n) (q) (cen : Frame n → Nat → ℚ × ℚ) (fs : List (Frame n)) (props : List Obj) (r : SMResult n)
    (h : splitAndMergeParallel c cen fs props = .ok r) (hm : r.merges = []) : splitAndMergeParallel { c with part := q } cen fs props = .ok r := by
  unfold splitAndMergeParallel at h ⊢
  split at h
  · cases h
  rename_i s hs
  rw [Except.ok.injEq] at h
  subst h
  have hi : (parInit c fs props).recs = [] := rfl
  have hp : parInit { c with part := q } fs props = parInit c fs props := rfl
  dsimp only at hm ⊢
  rw [hp, (parLoop_none c q _ _ _ hs).2 (by rw [hm, hi])]

/-- **C192**, the part that holds (meshes): if a run reports no merge, every other way to divide merged objects gives the same field, events, object table
and links. -/
theorem C192_mesh_partial (cc : Labeller) (p : MeshRun n) (q : Frame n → Frame n → Nat → List Nat → Fin n → Nat) (data pre : List (Fin n → Bool))
    (ids : List (Frame n)) (h : runMesh cc p data = .ok (pre, ids)) (r : SMResult n)
    (hr : splitAndMergeParallel p.track p.cen (objectFieldMesh cc p.nbr p.mask pre) ((objectFieldMesh cc p.nbr p.mask pre).flatMap
      (calcProps ⟨p.track.w, p.track.thr, p.cen, fun _ _ _ _ _ _ _ => 0⟩)) = .ok r) (hm : r.merges = []) :
    runMesh cc { p with track := { p.track with part := q } } data = .ok (pre, ids) ∧
    splitAndMergeParallel { p.track with part := q } p.cen (objectFieldMesh cc p.nbr p.mask pre) ((objectFieldMesh cc p.nbr p.mask pre).flatMap
      (calcProps ⟨p.track.w, p.track.thr, p.cen, fun _ _ _ _ _ _ _ => 0⟩)) = .ok r := by
  have key := splitAndMergeParallel_none p.track q p.cen _ _ r hr hm
  refine ⟨?_, key⟩
  have hpre : preprocessMesh cc { p with track := { p.track with part := q } } data = preprocessMesh cc p data := rfl
  unfold runMesh at h ⊢
  rw [hpre]
  split at h
  · cases h
  rename_i r0 hr0
  split at h
  · cases h
  rename_i ids0 ht
  simp only [Except.ok.injEq, Prod.mk.injEq] at h
  obtain ⟨rfl, rfl⟩ := h
  dsimp only
  have ht' : trackingMesh cc { p with track := { p.track with part := q } } r0.field = trackingMesh cc p r0.field := by
    unfold trackingMesh
    dsimp only
    rw [key, hr]
  rw [ht', ht]

-- the hypotheses of `C192_mesh_partial` are met by the run on a line of cells
example (q : Frame 14 → Frame 14 → Nat → List Nat → Fin 14 → Nat) : ∃ out, runMesh quickFind (lineRun true) lineData = .ok out ∧
    runMesh quickFind { lineRun true with track := { (lineRun true).track with part := q } } lineData = .ok out := by
  have h : (match runMesh quickFind (lineRun true) lineData with
      | .ok (pre, _) => (match splitAndMergeParallel (lineRun true).track (lineRun true).cen (objectFieldMesh quickFind (lineRun true).nbr (lineRun true).mask pre)
            ((objectFieldMesh quickFind (lineRun true).nbr (lineRun true).mask pre).flatMap
              (calcProps ⟨(lineRun true).track.w, (lineRun true).track.thr, (lineRun true).cen, fun _ _ _ _ _ _ _ => 0⟩)) with
          | .ok r => decide (r.merges = [])
          | .error _ => false)
      | .error _ => false) = true := by decide +kernel
  cases hr : runMesh quickFind (lineRun true) lineData with
  | error e => rw [hr] at h; cases h
  | ok out =>
    rw [hr] at h
    dsimp only at h
    split at h
    · rename_i r hs
      exact ⟨out, rfl, (C192_mesh_partial quickFind (lineRun true) q lineData out.1 out.2 hr r hs (of_decide_eq_true h)).1⟩
    · cases h

/-! ### C193 -/

theorem overlapEnough_mono {w : Fin n → ℚ} (hw : ∀ i, 0 ≤ w i) {thr thr' : ℚ} (h : thr ≤ thr') {f g : Fin n → Nat} {a b : Nat}
    (ho : OverlapEnough w thr' f a g b) : OverlapEnough w thr f a g b := by
  obtain ⟨h1, h2, h3⟩ := ho
  refine ⟨h1, h2, le_trans (mul_le_mul_of_nonneg_right h ?_) h3⟩
  have : ∀ (f : Fin n → Nat) k, 0 ≤ objectArea w f k := by
    intro f k
    unfold objectArea
    refine List.sum_nonneg fun x hx => ?_
    rw [List.mem_map] at hx
    obtain ⟨i, -, rfl⟩ := hx
    split
    · exact hw i
    · exact le_refl _
  exact le_min (this _ _) (this _ _)

theorem follows_mono {w : Fin n → ℚ} (hw : ∀ i, 0 ≤ w i) {thr thr' : ℚ} (h : thr ≤ thr') {fs : List (Fin n → Nat)} {a b : Nat}
    (ho : Follows w thr' fs a b) : Follows w thr fs a b := by
  obtain ⟨t, f, g, hf, hg, hb, ho⟩ := ho
  exact ⟨t, f, g, hf, hg, hb, overlapEnough_mono hw h ho⟩

/-- **C193**, the part that holds (meshes): if at the lower threshold no object overlaps two objects of the step before by the required fraction, lowering
`overlap_threshold` leaves the preprocessed field as it is and never separates two cells of one event.  Missing: records with merges, see below. -/
theorem C193_mesh_partial (cc : Labeller) (hcc : CorrectLabeller cc) (p : MeshRun n) (thr' : ℚ) (hthr : p.track.thr ≤ thr') (hw : ∀ i, 0 < p.track.w i)
    (data pre : List (Fin n → Bool)) (ids' : List (Frame n))
    (h : runMesh cc { p with track := { p.track with thr := thr' } } data = .ok (pre, ids'))
    (hm : NoMerges p.track.w p.track.thr (objectFieldMesh cc p.nbr p.mask pre)) :
    ∃ ids, runMesh cc p data = .ok (pre, ids) ∧ Coarser ids' ids := by
  have hw0 : ∀ i, 0 ≤ p.track.w i := fun i => le_of_lt (hw i)
  have hm' : NoMerges p.track.w thr' (objectFieldMesh cc p.nbr p.mask pre) := fun a b k ha hb =>
    hm a b k (follows_mono hw0 hthr ha) (follows_mono hw0 hthr hb)
  unfold runMesh at h
  split at h
  · cases h
  rename_i r hr
  split at h
  · cases h
  rename_i ids0 hids
  simp only [Except.ok.injEq, Prod.mk.injEq] at h
  obtain ⟨rfl, rfl⟩ := h
  have hlen : ¬ (r.field.length = 1 ∧ n ≠ 1) := by
    intro hl
    unfold trackingMesh at hids
    rw [if_pos hl] at hids
    cases hids
  have hmax : 0 < p.track.maxIter := by
    by_contra h0
    unfold trackingMesh at hids
    rw [if_neg hlen] at hids
    have h0 : p.track.maxIter = 0 := by omega
    simp only [splitAndMergeParallel, h0, parLoop] at hids
    cases hids
  have hu := timeUnique_objectFieldMesh cc p.nbr p.mask r.field
  have t1 := trackingMesh_noMerges cc p r.field hmax hlen hw hm
  have t2 := trackingMesh_noMerges cc { p with track := { p.track with thr := thr' } } r.field hmax hlen hw hm'
  rw [t2, Except.ok.injEq] at hids
  have hr' : preprocessMesh cc p data = .ok r := hr
  have hrun : ∀ x, trackingMesh cc p r.field = .ok x → runMesh cc p data = .ok (r.field, x) := by
    intro x hx
    unfold runMesh
    rw [hr']
    dsimp only
    rw [hx]
  refine ⟨_, hrun _ t1, ?_⟩
  rw [← hids]
  have e1 := tableExact_calcProps ⟨p.track.w, p.track.thr, p.cen, fun _ _ _ _ _ _ _ => 0⟩ _ hu
  have e2 := tableExact_calcProps ⟨p.track.w, thr', p.cen, fun _ _ _ _ _ _ _ => 0⟩ _ hu
  dsimp only at e1 e2 ⊢
  generalize objectFieldMesh cc p.nbr p.mask r.field = fs at hu e1 e2 ⊢
  generalize fs.flatMap (calcProps ⟨p.track.w, p.track.thr, p.cen, fun _ _ _ _ _ _ _ => 0⟩) = props at e1 ⊢
  generalize fs.flatMap (calcProps ⟨p.track.w, thr', p.cen, fun _ _ _ _ _ _ _ => 0⟩) = props' at e2 ⊢
  obtain ⟨l1, s1, z1, -⟩ := C22_events_are_linked_groups cc hcc p.track.w p.track.thr props fs
  obtain ⟨l2, s2, z2, -⟩ := C22_events_are_linked_groups cc hcc p.track.w thr' props' fs
  have r1 : (fun a b => LinkedTo (enforceOverlap p.track.thr props (findOverlaps p.track.w fs)) a b) = Follows p.track.w p.track.thr fs := by
    funext a b; exact propext (links_iff_follows hw hu e1)
  have r2 : (fun a b => LinkedTo (enforceOverlap thr' props' (findOverlaps p.track.w fs)) a b) = Follows p.track.w thr' fs := by
    funext a b; exact propext (links_iff_follows hw hu e2)
  rw [r1] at s1
  rw [r2] at s2
  refine ⟨by rw [l1, l2], fun t u f' g' f g hf' hg' hf hg i j hi hij => ?_⟩
  have lt : t < fs.length := by rw [← l1]; exact (List.getElem?_eq_some_iff.1 hf).1
  have lu : u < fs.length := by rw [← l1]; exact (List.getElem?_eq_some_iff.1 hg).1
  have q1 := (z2 t _ f' (List.getElem?_eq_getElem lt) hf' i).1 hi
  have q2 := (z2 u _ g' (List.getElem?_eq_getElem lu) hg' j).1 (by rw [← hij]; exact hi)
  refine ⟨(z1 t _ f (List.getElem?_eq_getElem lt) hf i).2 q1, ?_⟩
  rw [s1 t u _ _ f g (List.getElem?_eq_getElem lt) (List.getElem?_eq_getElem lu) hf hg i j q1 q2]
  have := (s2 t u _ _ f' g' (List.getElem?_eq_getElem lt) (List.getElem?_eq_getElem lu) hf' hg' i j q1 q2).1 hij
  have h2 := Linked.map (F := Follows p.track.w p.track.thr fs) id (fun a b hab => .fwd (.refl _) (follows_mono hw0 hthr hab)) this
  exact h2

-- the hypotheses of `C193_mesh_partial` are met by the run on a line of cells, at the threshold 1 instead of its own
example : (lineRun true).track.thr ≤ 1 ∧ ∃ pre ids ids', runMesh quickFind { lineRun true with track := { (lineRun true).track with thr := 1 } } lineData = .ok (pre, ids') ∧
    runMesh quickFind (lineRun true) lineData = .ok (pre, ids) ∧ Coarser ids' ids := by
  have hle : (lineRun true).track.thr ≤ 1 := by decide +kernel
  refine ⟨hle, ?_⟩
  have h : (match runMesh quickFind { lineRun true with track := { (lineRun true).track with thr := 1 } } lineData with
      | .ok (pre, _) => decide (((enforceOverlap (lineRun true).track.thr
          ((objectFieldMesh quickFind (lineRun true).nbr (lineRun true).mask pre).flatMap
            (calcProps ⟨(lineRun true).track.w, (lineRun true).track.thr, (lineRun true).cen, fun _ _ _ _ _ _ _ => 0⟩))
          (findOverlaps (lineRun true).track.w (objectFieldMesh quickFind (lineRun true).nbr (lineRun true).mask pre))).map (·.b)).Nodup)
      | .error _ => false) = true := by decide +kernel
  cases hr : runMesh quickFind { lineRun true with track := { (lineRun true).track with thr := 1 } } lineData with
  | error e => rw [hr] at h; cases h
  | ok q =>
    rw [hr] at h
    obtain ⟨pre, ids'⟩ := q
    have hu := timeUnique_objectFieldMesh quickFind (lineRun true).nbr (lineRun true).mask pre
    obtain ⟨ids, h1, h2⟩ := C193_mesh_partial quickFind quickFind_correct (lineRun true) 1 hle (fun _ => one_pos) lineData pre ids' hr
      (noMerges_of_nodup (fun _ => one_pos) hu (tableExact_calcProps ⟨(lineRun true).track.w, _, (lineRun true).cen, fun _ _ _ _ _ _ _ => 0⟩ _ hu)
        (of_decide_eq_true h))
    exact ⟨pre, ids, ids', rfl, h1, h2⟩

/-- **C193**, the part that holds (grids, `allow_merging=False`): the threshold has no effect. -/
theorem C193_grid_partial {ny nx : Nat} (cc : Labeller) (p : GridRun ny nx) (hp : p.allowMerging = false) (thr' : ℚ) (chunks : List Nat)
    (data : List (Fin (ny * nx) → Bool)) :
    runGrid cc { p with track := { p.track with thr := thr' } } chunks data = runGrid cc p chunks data := by
  have hpre : preprocessGrid cc { p with track := { p.track with thr := thr' } } data = preprocessGrid cc p data := rfl
  unfold runGrid
  rw [hpre]
  unfold trackingGrid
  dsimp only
  simp only [hp, Bool.false_eq_true, if_false]

/-- Objects on cells 0–5 and 7–12, then one on cells 0–8. -/
def coverData : List (Fin 13 → Bool) := [fun i => i.val != 6, cellsFrom 0 8]

/-- **C193 fails** on a mesh with merges: at 1/2 the object of the second step continues the one on cells 0–5 as a whole; at 1/4 it is a merge, and its cell 8
goes with the other object. -/
theorem C193_mesh_merge_fails :
    (match runMesh quickFind { meetRun with track := { meetRun.track with thr := 1/2 } } coverData with
      | .ok (_, [f, g]) => decide (0 < f 0 ∧ f 0 = g 8)
      | _ => false) = true ∧
    meetRun.track.thr = 1/4 ∧
    (match runMesh quickFind meetRun coverData with
      | .ok (_, [f, g]) => decide (0 < f 0 ∧ f 0 ≠ g 8)
      | _ => false) = true := by
  have h : meetRun.track.thr = 1/4 := rfl
  constructor
  · decide +kernel
  refine ⟨h, ?_⟩
  decide +kernel

/-- **C193 fails** on a grid, even without any merge: at 1/2 the object on cell 3 is followed by the one on cells 0–3; at 1/3 it is first united with its
sibling on cells 5–8, and the union, of which the next object covers one cell in five, is followed by none. -/
theorem C193_grid_split_fails :
    (match runGrid quickFind (rowRun 9 true (1/2)) [4] splitData with
      | .ok (pre, [_, _, g, h]) => decide (0 < g 3 ∧ g 3 = h 3 ∧
          (trackGrid quickFind (rowRun 9 true (1/2)).track (chunksOf [4] (identifyObjectsGrid quickFind false true 9 pre))).objects.merges = [])
      | _ => false) = true ∧
    (match runGrid quickFind (rowRun 9 true (1/3)) [4] splitData with
      | .ok (pre, [_, _, g, h]) => decide (0 < g 3 ∧ g 3 ≠ h 3 ∧
          (trackGrid quickFind (rowRun 9 true (1/3)).track (chunksOf [4] (identifyObjectsGrid quickFind false true 9 pre))).objects.merges = [])
      | _ => false) = true := by
  constructor <;> decide +kernel

end MarEx.Props
