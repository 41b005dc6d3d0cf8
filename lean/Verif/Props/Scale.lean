import Verif.Model.Pipeline
import Verif.Props.MeshMerge
import Verif.Props.MeshCentroid
import Verif.Props.Pipeline
/-! Units of the cell areas on meshes: C161. -/
namespace MarEx.Props
open MarEx MarEx.Spec

variable {n : Nat}

/-! ### Areas scale, fractions do not -/

/-- All cell areas times `k`. -/
def scaledAreas (k : ℚ) (w : Fin n → ℚ) : Fin n → ℚ := fun i => k * w i

/-- The configuration with all cell areas times `k`. -/
def scaleCfg (k : ℚ) (c : MeshCfg n) : MeshCfg n := { c with w := scaledAreas k c.w }

theorem sum_mul_if (k : ℚ) (p : Fin n → Prop) [DecidablePred p] (w : Fin n → ℚ) (l : List (Fin n)) :
    (l.map fun i => if p i then k * w i else 0).sum = k * (l.map fun i => if p i then w i else 0).sum := by
  induction l with
  | nil => simp
  | cons a l ih => simp only [List.map_cons, List.sum_cons, ih, mul_add]; split <;> simp

theorem sharedArea_scale (k : ℚ) (w : Fin n → ℚ) (f : Frame n) (a : Nat) (g : Frame n) (b : Nat) :
    sharedArea (scaledAreas k w) f a g b = k * sharedArea w f a g b := sum_mul_if k _ w _

theorem weightOf_scale (k : ℚ) (w : Fin n → ℚ) (f : Frame n) (a : Nat) : weightOf (scaledAreas k w) f a = k * weightOf w f a :=
  sum_mul_if k _ w _

theorem min_mul {k : ℚ} (hk : 0 < k) (a b : ℚ) : min (k * a) (k * b) = k * min a b :=
  (mul_min_of_nonneg a b hk.le).symm

theorem overlapFraction_scale {k : ℚ} (hk : 0 < k) (w : Fin n → ℚ) (f : Frame n) (a : Nat) (g : Frame n) (b : Nat) :
    overlapFraction (scaledAreas k w) f a g b = overlapFraction w f a g b := by
  unfold overlapFraction
  rw [sharedArea_scale, weightOf_scale, weightOf_scale, min_mul hk, mul_div_mul_left _ _ hk.ne']

/-! ### The steps of the parallel split and merge -/

/-- Overlap areas times `k`. -/
def scaleRaw (k : ℚ) (m : RawMerge) : RawMerge := { m with areas := m.areas.map (k * ·) }

def scaleStep (k : ℚ) (st : StepOut n) : StepOut n := { st with merges := st.merges.map (scaleRaw k) }

def scalePair (k : ℚ) (p : Nat × ℚ) : Nat × ℚ := (p.1, k * p.2)

theorem gatherParents_scale {k : ℚ} (hk : 0 < k) (c : MeshCfg n) (m1 cur : Frame n) (child : Nat) (ps : List Nat) (acc : List (Nat × ℚ)) :
    gatherParents (scaleCfg k c) m1 cur child ps (acc.map (scalePair k)) =
      (gatherParents c m1 cur child ps acc).map (List.map (scalePair k)) := by
  induction ps generalizing acc with
  | nil => rfl
  | cons p ps ih =>
    rw [gatherParents, gatherParents, List.length_map]
    have hf : overlapFraction (scaleCfg k c).w m1 p cur child = overlapFraction c.w m1 p cur child := overlapFraction_scale hk ..
    have hs : sharedArea (scaleCfg k c).w m1 p cur child = k * sharedArea c.w m1 p cur child := sharedArea_scale ..
    have ht : (scaleCfg k c).thr = c.thr := rfl
    rw [hf, hs, ht]
    split
    · rfl
    · split
      · exact ih acc
      · rw [← ih]; simp [scalePair]

theorem nextChildren_scale {k : ℚ} (hk : 0 < k) (c : MeshCfg n) (cur p1 : Frame n) (ids : List Nat) :
    nextChildren (scaleCfg k c) cur p1 ids = nextChildren c cur p1 ids := by
  unfold nextChildren
  congr 1; funext j
  congr 1; funext x
  rw [show overlapFraction (scaleCfg k c).w cur j p1 x = overlapFraction c.w cur j p1 x from overlapFraction_scale hk ..]
  rfl

theorem processMeshChild_scale {k : ℚ} (hk : 0 < k) (c : MeshCfg n) (m1 p1 : Frame n) (st : StepOut n) (child : Nat) :
    processMeshChild (scaleCfg k c) m1 p1 (scaleStep k st) child = (processMeshChild c m1 p1 st child).map (scaleStep k) := by
  unfold processMeshChild
  have h := gatherParents_scale hk c m1 st.cur child (idsUnder m1 st.cur child) []
  rw [List.map_nil] at h
  have hc : (scaleStep k st).cur = st.cur := rfl
  rw [hc, h]
  cases hg : gatherParents c m1 st.cur child (idsUnder m1 st.cur child) [] with
  | error e => rfl
  | ok ps =>
    have h1 : (ps.map (scalePair k)).map (·.1) = ps.map (·.1) := by rw [List.map_map]; rfl
    have h2 : (ps.map (scalePair k)).map (·.2) = (ps.map (·.2)).map (k * ·) := by rw [List.map_map, List.map_map]; rfl
    have hp : (scaleCfg k c).part = c.part := rfl
    simp only [Except.map, List.length_map, h1, h2, hp, nextChildren_scale hk]
    have hm : (scaleStep k st).merges.length = st.merges.length := List.length_map ..
    have hu : (scaleStep k st).updIds = st.updIds := rfl
    have hn : (scaleStep k st).nextId = st.nextId := rfl
    rw [hm, hu, hn]
    split
    · rfl
    · split
      · rfl
      · split
        · rfl
        · split
          · rfl
          · simp [scaleStep, scaleRaw]

theorem runQueue_scale {k : ℚ} (hk : 0 < k) (c : MeshCfg n) (m1 p1 : Frame n) (q : List Nat) (st : StepOut n) :
    runQueue (scaleCfg k c) m1 p1 q (scaleStep k st) = (runQueue c m1 p1 q st).map (scaleStep k) := by
  induction q generalizing st with
  | nil => rfl
  | cons a q ih =>
    rw [runQueue, runQueue, processMeshChild_scale hk]
    cases processMeshChild c m1 p1 st a with
    | error e => rfl
    | ok st' => exact ih st'

def scaleOuts (k : ℚ) (r : List (StepOut n) × List Nat) : List (StepOut n) × List Nat := (r.1.map (scaleStep k), r.2)

theorem chunkGo_scale {k : ℚ} (hk : 0 < k) (c : MeshCfg n) (rs : List (Row n)) (m1 cur : Frame n) (extra : List Nat) :
    chunkGo (scaleCfg k c) m1 cur extra rs = (chunkGo c m1 cur extra rs).map (scaleOuts k) := by
  induction rs generalizing m1 cur extra with
  | nil => rfl
  | cons r rs ih =>
    rw [chunkGo, chunkGo]
    have h := runQueue_scale hk c m1 r.p1 (addNew r.queue extra) (initStep cur r.off)
    rw [show scaleStep k (initStep cur r.off) = initStep cur r.off from rfl] at h
    rw [h]
    cases runQueue c m1 r.p1 (addNew r.queue extra) (initStep cur r.off) with
    | error e => rfl
    | ok st =>
      simp only [Except.map]
      rw [show (scaleStep k st).found = st.found from rfl, show (scaleStep k st).cur = st.cur from rfl, ih]
      split
      · split <;> rfl
      · cases chunkGo c st.cur r.p1 st.found rs with
        | error e => rfl
        | ok r => rfl

theorem processChunk_scale {k : ℚ} (hk : 0 < k) (c : MeshCfg n) (rs : List (Row n)) :
    processChunk (scaleCfg k c) rs = (processChunk c rs).map (scaleOuts k) := by
  match rs with
  | [] => rfl
  | [_] => rfl
  | r0 :: r1 :: rs => exact chunkGo_scale hk c _ _ _ _

theorem processChunks_scale {k : ℚ} (hk : 0 < k) (c : MeshCfg n) (chs : List (List (Row n))) :
    processChunks (scaleCfg k c) chs = (processChunks c chs).map (scaleOuts k) := by
  induction chs with
  | nil => rfl
  | cons ch chs ih =>
    rw [processChunks, processChunks, processChunk_scale hk, ih]
    cases processChunk c ch with
    | error e => rfl
    | ok r =>
      cases processChunks c chs with
      | error e => rfl
      | ok r' => simp [Except.map, scaleOuts]

/-- Overlap areas of a merge record times `k`. -/
def scaleRec (k : ℚ) (m : MergeRec) : MergeRec := { m with areas := m.areas.map (k * ·) }

def scaleState (k : ℚ) (s : ParState n) : ParState n := { s with recs := s.recs.map (scaleRec k) }

theorem tempIds_scale (k : ℚ) (counter : Nat) (outs : List (StepOut n)) : tempIds counter (outs.map (scaleStep k)) = tempIds counter outs := by
  unfold tempIds
  rw [List.flatMap_map]
  congr 2; funext o
  show (o.merges.map (scaleRaw k)).flatMap _ = _
  rw [List.flatMap_map]
  rfl

theorem recordsOf_scale (k : ℚ) (counter : Nat) (temps : List Nat) (outs : List (StepOut n)) :
    recordsOf counter temps (outs.map (scaleStep k)) = (recordsOf counter temps outs).map (scaleRec k) := by
  unfold recordsOf
  rw [List.length_map, List.zip_map_right, List.flatMap_map, List.map_flatMap]
  congr 1; funext p
  show (p.2.merges.map (scaleRaw k)).map _ = _
  rw [List.map_map, List.map_map]
  rfl

theorem parIteration_scale {k : ℚ} (hk : 0 < k) (c : MeshCfg n) (s : ParState n) :
    parIteration (scaleCfg k c) (scaleState k s) = (parIteration c s).map (scaleState k) := by
  unfold parIteration
  rw [show (scaleState k s).fs = s.fs from rfl, show (scaleState k s).counter = s.counter from rfl,
    show (scaleState k s).merging = s.merging from rfl, show (scaleState k s).processed = s.processed from rfl,
    show rowsOf (scaleCfg k c) s.fs s.merging s.counter = rowsOf c s.fs s.merging s.counter from rfl,
    show (scaleCfg k c).timechunks = c.timechunks from rfl, processChunks_scale hk]
  cases idTime s.fs s.counter 0 with
  | error e => rfl
  | ok _ =>
    cases processChunks c (piecesOf c.timechunks s.fs.length (rowsOf c s.fs s.merging s.counter)) with
    | error e => rfl
    | ok r =>
      obtain ⟨outs, fin⟩ := r
      simp only [Except.map, scaleOuts, tempIds_scale, recordsOf_scale]
      congr 1
      unfold scaleState
      congr 1
      · rw [List.zip_map_right, List.map_map]; rfl
      · rw [List.map_append]

theorem parLoop_scale {k : ℚ} (hk : 0 < k) (c : MeshCfg n) (fuel : Nat) (s : ParState n) :
    parLoop (scaleCfg k c) fuel (scaleState k s) = (parLoop c fuel s).map (scaleState k) := by
  induction fuel generalizing s with
  | zero => rfl
  | succ fuel ih =>
    rw [parLoop, parLoop, parIteration_scale hk]
    rw [show (scaleState k s).merging = s.merging from rfl]
    split
    · rfl
    · cases parIteration c s with
      | error e => rfl
      | ok s' => exact ih s'

/-! ### Overlap tables and property tables -/

def scaleOv (k : ℚ) (o : Ov) : Ov := { o with v := k * o.v }

/-- The area of an object times `k`. -/
def scaleObj (k : ℚ) (o : Obj) : Obj := { o with area := k * o.area }

theorem sum_map_mul {α : Type} (k : ℚ) (f : α → ℚ) (l : List α) : (l.map fun i => k * f i).sum = k * (l.map f).sum := by
  induction l with
  | nil => simp
  | cons a l ih => simp only [List.map_cons, List.sum_cons, ih, mul_add]

theorem checkOverlapSlice_scale (k : ℚ) (w : Fin n → ℚ) (f g : Frame n) :
    checkOverlapSlice (scaledAreas k w) f g = (checkOverlapSlice w f g).map (scaleOv k) := by
  unfold checkOverlapSlice
  dsimp only
  split
  · rfl
  · rw [List.map_map]
    congr 1; funext p
    simp only [Function.comp, scaleOv]
    congr 1
    exact sum_map_mul k w _

theorem allOverlaps_scale (k : ℚ) (w : Fin n → ℚ) : ∀ fs : List (Frame n),
    allOverlaps (scaledAreas k w) fs = (allOverlaps w fs).map (scaleOv k)
  | [] => rfl
  | [f] => by rw [allOverlaps, allOverlaps]; exact checkOverlapSlice_scale ..
  | f :: g :: fs => by
    rw [allOverlaps, allOverlaps, List.map_append, allOverlaps_scale k w (g :: fs), checkOverlapSlice_scale]

theorem findOverlaps_scale (k : ℚ) (w : Fin n → ℚ) (fs : List (Frame n)) :
    findOverlaps (scaledAreas k w) fs = (findOverlaps w fs).map (scaleOv k) := by
  unfold findOverlaps
  dsimp only
  rw [allOverlaps_scale, List.map_map, List.map_map]
  rw [show ((fun o : Ov => (o.a, o.b)) ∘ scaleOv k) = fun o : Ov => (o.a, o.b) from rfl]
  congr 1; funext p
  simp only [Function.comp, scaleOv]
  congr 1
  rw [List.filter_map, List.map_map]
  exact sum_map_mul k Ov.v _

theorem areaOf_scale (k : ℚ) (props : List Obj) (a : Nat) : areaOf (props.map (scaleObj k)) a = (areaOf props a).map (k * ·) := by
  unfold areaOf
  rw [List.find?_map, Option.map_map, Option.map_map]
  rfl

theorem fractionAtLeast_scale {k : ℚ} (hk : 0 < k) (v m thr : ℚ) : fractionAtLeast (k * v) (k * m) thr = fractionAtLeast v m thr := by
  unfold fractionAtLeast
  rw [mul_div_mul_left _ _ hk.ne']
  by_cases h : m = 0
  · rw [if_pos h, if_pos (by rw [h, mul_zero])]
    simp [hk]
  · rw [if_neg h, if_neg (mul_ne_zero hk.ne' h)]

theorem enforceOverlap_scale {k : ℚ} (hk : 0 < k) (thr : ℚ) (props : List Obj) (ovs : List Ov) :
    enforceOverlap thr (props.map (scaleObj k)) (ovs.map (scaleOv k)) = (enforceOverlap thr props ovs).map (scaleOv k) := by
  unfold enforceOverlap
  rw [List.filter_map]
  congr 1
  congr 1; funext o
  simp only [Function.comp, scaleOv, areaOf_scale]
  cases areaOf props o.a with
  | none => rfl
  | some x =>
    cases areaOf props o.b with
    | none => rfl
    | some y => simp only [Option.map_some]; rw [min_mul hk, fractionAtLeast_scale hk]

theorem firstNewId_scale (k : ℚ) (props : List Obj) : firstNewId (props.map (scaleObj k)) = firstNewId props := by
  unfold firstNewId
  rw [List.foldl_map]
  rfl

theorem calcProps_scale (k : ℚ) (w : Fin n → ℚ) (thr thr' : ℚ) (cen : Frame n → Nat → ℚ × ℚ)
    (part part' : Frame n → Frame n → Nat → List Nat → List Nat → List Obj → Fin n → Nat) (f : Frame n) :
    calcProps ⟨scaledAreas k w, thr, cen, part⟩ f = (calcProps ⟨w, thr', cen, part'⟩ f).map (scaleObj k) := by
  unfold calcProps
  rw [List.map_map]
  congr 1; funext a
  simp [objOf, scaleObj, weightOf_scale]

theorem flatProps_scale (k : ℚ) (w : Fin n → ℚ) (thr : ℚ) (cen : Frame n → Nat → ℚ × ℚ)
    (part : Frame n → Frame n → Nat → List Nat → List Nat → List Obj → Fin n → Nat) (fs : List (Frame n)) :
    fs.flatMap (calcProps ⟨scaledAreas k w, thr, cen, part⟩) = (fs.flatMap (calcProps ⟨w, thr, cen, part⟩)).map (scaleObj k) := by
  rw [List.map_flatMap]
  congr 1; funext f
  exact calcProps_scale ..

/-! ### The whole run -/

/-- A result with all areas times `k`; the field and the IDs are the same. -/
def scaleResult (k : ℚ) (r : SMResult n) : SMResult n :=
  { field := r.field, props := r.props.map (scaleObj k), links := r.links.map (scaleOv k), merges := r.merges.map (scaleRec k) }

theorem splitAndMergeParallel_scale {k : ℚ} (hk : 0 < k) (c : MeshCfg n) (cen : Frame n → Nat → ℚ × ℚ) (fs : List (Frame n)) (props : List Obj) :
    splitAndMergeParallel (scaleCfg k c) cen fs (props.map (scaleObj k)) = (splitAndMergeParallel c cen fs props).map (scaleResult k) := by
  unfold splitAndMergeParallel
  have hi : parInit (scaleCfg k c) fs (props.map (scaleObj k)) = scaleState k (parInit c fs props) := by
    unfold parInit scaleState
    congr 1
    · show repeated ((enforceOverlap c.thr _ (findOverlaps (scaledAreas k c.w) fs)).map _) = _
      rw [findOverlaps_scale, enforceOverlap_scale hk, List.map_map]
      rfl
    · exact firstNewId_scale ..
  rw [hi, show (scaleCfg k c).maxIter = c.maxIter from rfl, parLoop_scale hk]
  cases parLoop c c.maxIter (parInit c fs props) with
  | error e => rfl
  | ok s =>
    simp only [Except.map]
    congr 1
    show SMResult.mk _ _ _ _ = SMResult.mk _ _ _ _
    have hp := flatProps_scale k c.w c.thr cen (fun _ _ _ _ _ _ _ => 0) s.fs
    congr 1
    · show enforceOverlap c.thr (s.fs.flatMap (calcProps ⟨scaledAreas k c.w, c.thr, cen, _⟩)) (findOverlaps (scaledAreas k c.w) s.fs) = _
      rw [hp, findOverlaps_scale, enforceOverlap_scale hk]

theorem foldl_max_mul {k : ℚ} (hk : 0 < k) (l : List ℚ) (a : ℚ) : (l.map (k * ·)).foldl max (k * a) = k * l.foldl max a := by
  induction l generalizing a with
  | nil => rfl
  | cons x l ih => rw [List.map_cons, List.foldl_cons, List.foldl_cons, ← mul_max_of_nonneg _ _ hk.le]; exact ih _

theorem meshCfg_scale {k : ℚ} (hk : 0 < k) (nbr : Fin 3 → Fin n → Option (Fin n)) (w : Fin n → ℚ) (meanArea thr : ℚ) (timechunks maxIter : Nat)
    (far : Frame n → List Nat → Fin n → Nat) :
    meshCfg nbr (scaledAreas k w) (k * meanArea) thr timechunks maxIter far = scaleCfg k (meshCfg nbr w meanArea thr timechunks maxIter far) := by
  unfold meshCfg scaleCfg
  congr 1
  funext m1 cur child parents i
  have h : (parents.map (weightOf (scaledAreas k w) m1)).foldl max 0 / (k * meanArea) = (parents.map (weightOf w m1)).foldl max 0 / meanArea := by
    rw [show parents.map (weightOf (scaledAreas k w) m1) = (parents.map (weightOf w m1)).map (k * ·) by
      rw [List.map_map]; congr 1; funext a; exact weightOf_scale ..]
    have := foldl_max_mul hk (parents.map (weightOf w m1)) 0
    rw [mul_zero] at this
    rw [this, mul_div_mul_left _ _ hk.ne']
  dsimp only
  rw [h]

/-- `cell_areas.mean()` (track.py 481). -/
def meanOf (w : Fin n → ℚ) : ℚ := ((List.finRange n).map w).sum / n

theorem meanOf_scale (k : ℚ) (w : Fin n → ℚ) : meanOf (scaledAreas k w) = k * meanOf w := by
  unfold meanOf scaledAreas
  rw [sum_map_mul, mul_div_assoc]

/-- The same run with all cell areas times `k`. -/
def rescale (k : ℚ) (p : MeshRun n) : MeshRun n := { p with track := scaleCfg k p.track }

theorem trackingMesh_scale {k : ℚ} (hk : 0 < k) (cc : Labeller) (p : MeshRun n) (pre : List (Fin n → Bool)) :
    trackingMesh cc (rescale k p) pre = trackingMesh cc p pre := by
  unfold trackingMesh
  split
  · rfl
  · dsimp only
    show (match splitAndMergeParallel (scaleCfg k p.track) p.cen (objectFieldMesh cc p.nbr p.mask pre)
        ((objectFieldMesh cc p.nbr p.mask pre).flatMap (calcProps ⟨scaledAreas k p.track.w, p.track.thr, p.cen, fun _ _ _ _ _ _ _ => 0⟩)) with
      | .error e => Except.error e
      | .ok r => Except.ok (renameField cc r.field (r.links.map fun o : Ov => (o.a, o.b)))) = _
    rw [flatProps_scale, splitAndMergeParallel_scale hk]
    cases splitAndMergeParallel p.track p.cen (objectFieldMesh cc p.nbr p.mask pre) _ with
    | error e => rfl
    | ok r =>
      simp only [Except.map, scaleResult, List.map_map]
      rfl

/-- C161: the events of a run on a mesh do not depend on the unit of the cell areas: with all areas multiplied by the same positive number
(and hence their mean) the run gives the same preprocessed field, the same `ID_field` and the same errors. -/
theorem C161_events_do_not_depend_on_the_unit {k : ℚ} (hk : 0 < k) (cc : Labeller) (nbr : NbrTable n) (mask : Fin n → Bool) (R T : Nat)
    (criterion : AreaCriterion) (allowMerging : Bool) (cen : Frame n → Nat → ℚ × ℚ) (w : Fin n → ℚ) (thr : ℚ) (timechunks maxIter : Nat)
    (far : Frame n → List Nat → Fin n → Nat) (nbr3 : Fin 3 → Fin n → Option (Fin n)) (data : List (Fin n → Bool)) :
    runMesh cc ⟨nbr, mask, R, T, criterion, allowMerging, meshCfg nbr3 (fun i => k * w i) (meanOf fun i => k * w i) thr timechunks maxIter far, cen⟩ data =
    runMesh cc ⟨nbr, mask, R, T, criterion, allowMerging, meshCfg nbr3 w (meanOf w) thr timechunks maxIter far, cen⟩ data := by
  have h := meanOf_scale k w
  unfold scaledAreas at h
  rw [h]
  have h' := meshCfg_scale hk nbr3 w (meanOf w) thr timechunks maxIter far
  unfold scaledAreas at h'
  rw [h']
  unfold runMesh
  have hp : preprocessMesh cc ⟨nbr, mask, R, T, criterion, allowMerging, scaleCfg k (meshCfg nbr3 w (meanOf w) thr timechunks maxIter far), cen⟩ data =
    preprocessMesh cc ⟨nbr, mask, R, T, criterion, allowMerging, meshCfg nbr3 w (meanOf w) thr timechunks maxIter far, cen⟩ data := rfl
  rw [hp]
  cases preprocessMesh cc ⟨nbr, mask, R, T, criterion, allowMerging, meshCfg nbr3 w (meanOf w) thr timechunks maxIter far, cen⟩ data with
  | error e => rfl
  | ok r =>
    dsimp only
    have ht := trackingMesh_scale hk cc ⟨nbr, mask, R, T, criterion, allowMerging, meshCfg nbr3 w (meanOf w) thr timechunks maxIter far, cen⟩ r.field
    unfold rescale at ht
    dsimp only at ht
    rw [ht]

/-- C161: what the tracking returns besides the field scales with the unit: object areas and overlap areas are multiplied, all IDs, links
and times are the same. -/
theorem C161_areas_scale {k : ℚ} (hk : 0 < k) (w : Fin n → ℚ) (thr : ℚ) (timechunks maxIter : Nat) (far : Frame n → List Nat → Fin n → Nat)
    (nbr3 : Fin 3 → Fin n → Option (Fin n)) (cen : Frame n → Nat → ℚ × ℚ) (fs : List (Frame n)) (props : List Obj) (r : SMResult n)
    (h : splitAndMergeParallel (meshCfg nbr3 w (meanOf w) thr timechunks maxIter far) cen fs props = .ok r) :
    splitAndMergeParallel (meshCfg nbr3 (fun i => k * w i) (meanOf fun i => k * w i) thr timechunks maxIter far) cen fs
        (props.map fun o => { o with area := k * o.area }) =
      .ok { field := r.field
            props := r.props.map fun o => { o with area := k * o.area }
            links := r.links.map fun o => { o with v := k * o.v }
            merges := r.merges.map fun m => { m with areas := m.areas.map fun x => k * x } } := by
  have hm := meanOf_scale k w
  unfold scaledAreas at hm
  have h' := meshCfg_scale hk nbr3 w (meanOf w) thr timechunks maxIter far
  unfold scaledAreas at h'
  rw [hm, h']
  have := splitAndMergeParallel_scale hk (meshCfg nbr3 w (meanOf w) thr timechunks maxIter far) cen fs props
  rw [h] at this
  exact this

/-- C161: the centroids of the objects do not depend on the unit either. -/
theorem C161_centroids_do_not_depend_on_the_unit {k : ℝ} (hk : 0 < k) (cells : List MCell) :
    meshLat (cells.map fun c => { c with area := k * c.area }) = meshLat cells ∧
    meshLon (cells.map fun c => { c with area := k * c.area }) = meshLon cells := by
  have hs : ∀ f : MCell → ℝ, ((cells.map fun c => ({ c with area := k * c.area } : MCell)).map f).sum = ((cells.map fun c => f { c with area := k * c.area })).sum := by
    intro f; rw [List.map_map]; rfl
  have hl : ∀ g : MCell → ℝ, (cells.map fun c => k * c.area * g c).sum = k * (cells.map fun c => c.area * g c).sum := by
    intro g
    induction cells with
    | nil => simp
    | cons a l ih =>
      simp only [List.map_cons, List.sum_cons, mul_add]
      rw [ih (by intro f; rw [List.map_map]; rfl)]
      ring
  have hx : sumX (cells.map fun c => { c with area := k * c.area }) = k * sumX cells := (hs _).trans (hl _)
  have hy : sumY (cells.map fun c => { c with area := k * c.area }) = k * sumY cells := (hs _).trans (hl _)
  have hz : sumZ (cells.map fun c => { c with area := k * c.area }) = k * sumZ cells := (hs _).trans (hl _)
  have hr : √((k * sumX cells) ^ 2 + (k * sumY cells) ^ 2 + (k * sumZ cells) ^ 2) = k * √(sumX cells ^ 2 + sumY cells ^ 2 + sumZ cells ^ 2) := by
    rw [show (k * sumX cells) ^ 2 + (k * sumY cells) ^ 2 + (k * sumZ cells) ^ 2 = k ^ 2 * (sumX cells ^ 2 + sumY cells ^ 2 + sumZ cells ^ 2) by ring,
      Real.sqrt_mul (by positivity), Real.sqrt_sq hk.le]
  have hq : sumZ (cells.map fun c => { c with area := k * c.area }) / meshNorm (cells.map fun c => { c with area := k * c.area }) =
      sumZ cells / meshNorm cells := by
    unfold meshNorm
    rw [hx, hy, hz, hr]
    by_cases h : 0 < √(sumX cells ^ 2 + sumY cells ^ 2 + sumZ cells ^ 2)
    · rw [if_pos h, if_pos (mul_pos hk h), mul_div_mul_left _ _ hk.ne']
    · have h0 : √(sumX cells ^ 2 + sumY cells ^ 2 + sumZ cells ^ 2) = 0 := le_antisymm (not_lt.mp h) (Real.sqrt_nonneg _)
      have hz0 : sumZ cells = 0 := by
        have := (Real.sqrt_eq_zero (by positivity)).mp h0
        nlinarith [sq_nonneg (sumX cells), sq_nonneg (sumY cells), sq_nonneg (sumZ cells)]
      rw [hz0]; simp
  constructor
  · unfold meshLat; rw [hq]
  · rw [meshLon_eq, meshLon_eq, hx, hy]
    congr 1
    rw [show (⟨k * sumX cells, k * sumY cells⟩ : ℂ) = (k : ℂ) * ⟨sumX cells, sumY cells⟩ by
      apply Complex.ext <;> simp]
    exact Complex.arg_real_mul _ hk

/-- Two objects that merge, with cell areas `k` times 1, 2, 3, …: the IDs of the steps and the areas of the merges. -/
def unitRun (k : ℚ) : Option (List (List Nat) × List (List ℚ)) :=
  let w : Fin 7 → ℚ := fun i => k * (i.val + 1)
  let c := meshCfg (lineNbr 7) w (meanOf w) (1/2) 4 40 (fun _ _ _ => 0)
  let fs : List (Frame 7) := [[1, 1, 0, 2, 2, 0, 0], [3, 3, 3, 3, 3, 0, 0], [0, 4, 4, 0, 0, 0, 0]].map fun r i => r.getD i.val 0
  match splitAndMergeParallel c (fun _ _ => (0, 0)) fs (fs.flatMap (calcProps ⟨w, 1/2, fun _ _ => (0, 0), fun _ _ _ _ _ _ _ => 0⟩)) with
  | .ok r => some (r.field.map fun g => (List.finRange 7).map g, r.merges.map (·.areas))
  | .error _ => none

-- a merge is found and split in square metres and in square kilometres alike; only the areas differ
example : unitRun 1 = some ([[1, 1, 0, 2, 2, 0, 0], [3, 3, 3, 5, 5, 0, 0], [0, 4, 4, 0, 0, 0, 0]], [[3, 9]]) := by decide +kernel
example : unitRun 1000000 = some ([[1, 1, 0, 2, 2, 0, 0], [3, 3, 3, 5, 5, 0, 0], [0, 4, 4, 0, 0, 0, 0]], [[3000000, 9000000]]) := by decide +kernel

end MarEx.Props
