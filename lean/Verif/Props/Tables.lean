import Verif.Props.Labels
import Verif.Props.RunStats
/-! C209: the table of the events (their number, presence, first and last step, and area) follows from the groups of cells alone. -/
namespace MarEx.Spec

/-- Two tracked records hold the same events under other IDs, cell `i` of the first being cell `e i` of the second: `σ` pairs the IDs `1..N` of the first with
the IDs of the second, every cell carries the paired ID at every step, and paired events are present at the same steps, start and end at the same step and
have the same area at every step. `objs`, `objs'`: the objects before renaming; `ids`, `ids'`: the variable `ID_field`; `w`: the cell areas of the first. -/
def SameTable {n : Nat} (e : Equiv.Perm (Fin n)) (w w' : Fin n → ℚ) (objs ids objs' ids' : List (Frame n)) : Prop :=
  ∃ σ : Nat → Nat,
    (∀ k, 0 < k → (∃ f ∈ ids, ∃ i, f i = k) → 0 < σ k ∧ ∃ f ∈ ids', ∃ i, f i = σ k) ∧
    (∀ k l, 0 < k → 0 < l → (∃ f ∈ ids, ∃ i, f i = k) → (∃ f ∈ ids, ∃ i, f i = l) → σ k = σ l → k = l) ∧
    (∀ m, 0 < m → (∃ f ∈ ids', ∃ i, f i = m) → ∃ k, 0 < k ∧ (∃ f ∈ ids, ∃ i, f i = k) ∧ σ k = m) ∧
    (∀ (t : Nat) (f f' : Frame n), ids[t]? = some f → ids'[t]? = some f' → ∀ i, (f i = 0 ↔ f' (e i) = 0) ∧ (0 < f i → f' (e i) = σ (f i))) ∧
    ∀ k, 0 < k → (∃ f ∈ ids, ∃ i, f i = k) →
      presenceOf objs' ids' (σ k) = presenceOf objs ids k ∧
      timeStartIdx (presenceOf objs' ids' (σ k)) = timeStartIdx (presenceOf objs ids k) ∧
      timeEndIdx (presenceOf objs' ids' (σ k)) = timeEndIdx (presenceOf objs ids k) ∧
      ∀ (t : Nat) (o f o' f' : Frame n), objs[t]? = some o → ids[t]? = some f → objs'[t]? = some o' → ids'[t]? = some f' →
        eventArea w' (decide (0 < globalId o' f' (σ k))) f' (σ k) = eventArea w (decide (0 < globalId o f k)) f k

end MarEx.Spec

namespace MarEx.Props
open MarEx MarEx.Spec

variable {n : Nat}

/-- The area variable of an event, cell by cell. -/
theorem eventArea_eq (w : Fin n → ℚ) (o f : Frame n) (hs : SameCells o f) (k : Nat) (hk : 0 < k) :
    eventArea w (decide (0 < globalId o f k)) f k = if ∃ i, f i = k then some (((List.finRange n).map fun i => if f i = k then w i else 0).sum) else none := by
  obtain ⟨N, hN⟩ : ∃ N, ∀ i, f i ≤ N := ⟨Finset.univ.sup f, fun i => Finset.le_sup (f := f) (Finset.mem_univ i)⟩
  exact (C24_areas w o f hs N hN).1 k hk

theorem sameTable_of_groups {e : Equiv.Perm (Fin n)} {w : Fin n → ℚ} {objs ids objs' ids' : List (Frame n)} (hl : ids.length = objs.length)
    (hl' : ids'.length = objs'.length)
    (hs : ∀ (t : Nat) (f f' : Frame n), objs[t]? = some f → ids[t]? = some f' → SameCells f f')
    (hs' : ∀ (t : Nat) (f f' : Frame n), objs'[t]? = some f → ids'[t]? = some f' → SameCells f f') (h : SameGroups e ids ids') :
    SameTable e w (renumber e w) objs ids objs' ids' := by
  classical
  obtain ⟨hlen, hg⟩ := h
  -- the frame of the second record at the step of a frame of the first
  have other : ∀ {t : Nat} {f : Frame n}, ids[t]? = some f → ∃ f', ids'[t]? = some f' := by
    intro t f hf
    have := (List.getElem?_eq_some_iff.1 hf).1
    exact ⟨ids'[t]'(by omega), List.getElem?_eq_getElem _⟩
  have other' : ∀ {t : Nat} {f : Frame n}, ids'[t]? = some f → ∃ f', ids[t]? = some f' := by
    intro t f hf
    have := (List.getElem?_eq_some_iff.1 hf).1
    exact ⟨ids[t]'(by omega), List.getElem?_eq_getElem _⟩
  have pos : ∀ {t : Nat} {f f' : Frame n}, ids[t]? = some f → ids'[t]? = some f' → ∀ i, 0 < f i ↔ 0 < f' (e i) := by
    intro t f f' hf hf' i
    have := hg t t f f f' f' hf hf hf' hf' i i
    simpa using this
  have pick : ∀ k, ∃ m, ∀ (t : Nat) (f f' : Frame n), ids[t]? = some f → ids'[t]? = some f' → ∀ i, 0 < f i → f i = k → f' (e i) = m := by
    intro k
    by_cases hx : ∃ (t : Nat) (f f' : Frame n), ids[t]? = some f ∧ ids'[t]? = some f' ∧ ∃ i, 0 < f i ∧ f i = k
    · obtain ⟨t, f, f', hf, hf', i, hi, hk⟩ := hx
      refine ⟨f' (e i), fun u g g' hgu hgu' j hj hjk => ?_⟩
      exact (((hg t u f g f' g' hf hgu hf' hgu' i j).1 ⟨hi, by rw [hk, hjk]⟩).2).symm
    · exact ⟨0, fun t f f' hf hf' i hi hk => absurd ⟨t, f, f', hf, hf', i, hi, hk⟩ hx⟩
  choose σ hσ using pick
  have at_ : ∀ {t : Nat} {f f' : Frame n}, ids[t]? = some f → ids'[t]? = some f' → ∀ i, 0 < f i → f' (e i) = σ (f i) :=
    fun hf hf' i hi => hσ _ _ _ _ hf hf' i hi rfl
  have inj : ∀ k l, 0 < k → 0 < l → (∃ f ∈ ids, ∃ i, f i = k) → (∃ f ∈ ids, ∃ i, f i = l) → σ k = σ l → k = l := by
    rintro k l hk hl ⟨f, hf, i, rfl⟩ ⟨g, hgm, j, rfl⟩ hkl
    obtain ⟨t, hf⟩ := List.mem_iff_getElem?.1 hf
    obtain ⟨u, hgu⟩ := List.mem_iff_getElem?.1 hgm
    obtain ⟨f', hf'⟩ := other hf
    obtain ⟨g', hgu'⟩ := other hgu
    refine ((hg t u f g f' g' hf hgu hf' hgu' i j).2 ⟨(pos hf hf' i).1 hk, ?_⟩).2
    rw [at_ hf hf' i hk, at_ hgu hgu' j hl, hkl]
  have into : ∀ k, 0 < k → (∃ f ∈ ids, ∃ i, f i = k) → 0 < σ k ∧ ∃ f ∈ ids', ∃ i, f i = σ k := by
    rintro k hk ⟨f, hf, i, rfl⟩
    obtain ⟨t, hf⟩ := List.mem_iff_getElem?.1 hf
    obtain ⟨f', hf'⟩ := other hf
    rw [← at_ hf hf' i hk]
    exact ⟨(pos hf hf' i).1 hk, f', List.mem_of_getElem? hf', e i, rfl⟩
  -- cells of paired events
  have cells : ∀ {t : Nat} {f f' : Frame n}, ids[t]? = some f → ids'[t]? = some f' → ∀ k, 0 < k → (∃ f ∈ ids, ∃ i, f i = k) → ∀ i,
      f' (e i) = σ k ↔ f i = k := by
    intro t f f' hf hf' k hk hx i
    constructor
    · intro h
      have hp : 0 < f i := (pos hf hf' i).2 (by rw [h]; exact (into k hk hx).1)
      exact inj _ _ hp hk ⟨f, List.mem_of_getElem? hf, i, rfl⟩ hx (by rw [← at_ hf hf' i hp, h])
    · rintro rfl
      exact at_ hf hf' i hk
  have someCell : ∀ {t : Nat} {f f' : Frame n}, ids[t]? = some f → ids'[t]? = some f' → ∀ k, 0 < k → (∃ f ∈ ids, ∃ i, f i = k) →
      ((∃ i, f' i = σ k) ↔ ∃ i, f i = k) := by
    intro t f f' hf hf' k hk hx
    constructor
    · rintro ⟨c, hc⟩
      obtain ⟨i, rfl⟩ := e.surjective c
      exact ⟨i, (cells hf hf' k hk hx i).1 hc⟩
    · rintro ⟨i, hi⟩
      exact ⟨e i, (cells hf hf' k hk hx i).2 hi⟩
  have pres : ∀ k, 0 < k → (∃ f ∈ ids, ∃ i, f i = k) → presenceOf objs' ids' (σ k) = presenceOf objs ids k := by
    intro k hk hx
    obtain ⟨a1, a2, -⟩ := C23_presence_and_times objs ids hl hs k hk
    obtain ⟨b1, b2, -⟩ := C23_presence_and_times objs' ids' hl' hs' (σ k) (into k hk hx).1
    refine List.ext_getElem (by omega) fun t h1 h2 => ?_
    have ho : objs[t]? = some (objs[t]'(by omega)) := List.getElem?_eq_getElem _
    have ho' : objs'[t]? = some (objs'[t]'(by omega)) := List.getElem?_eq_getElem _
    have hf : ids[t]? = some (ids[t]'(by omega)) := List.getElem?_eq_getElem _
    have hf' : ids'[t]? = some (ids'[t]'(by omega)) := List.getElem?_eq_getElem _
    have p := (a2 t _ _ ho hf).1
    have q := (b2 t _ _ ho' hf').1
    rw [someCell hf hf' k hk hx, ← p, List.getElem?_eq_getElem h1, List.getElem?_eq_getElem h2] at q
    simpa using q
  refine ⟨σ, into, inj, ?_, ?_, ?_⟩
  · rintro m hm ⟨f', hf', c, rfl⟩
    obtain ⟨t, hf'⟩ := List.mem_iff_getElem?.1 hf'
    obtain ⟨f, hf⟩ := other' hf'
    obtain ⟨i, rfl⟩ := e.surjective c
    have hp := (pos hf hf' i).2 hm
    exact ⟨f i, hp, ⟨f, List.mem_of_getElem? hf, i, rfl⟩, (at_ hf hf' i hp).symm⟩
  · intro t f f' hf hf' i
    have := pos hf hf' i
    exact ⟨by omega, at_ hf hf' i⟩
  · intro k hk hx
    refine ⟨pres k hk hx, by rw [pres k hk hx], by rw [pres k hk hx], ?_⟩
    intro t o f o' f' ho hf ho' hf'
    rw [eventArea_eq _ o' f' (hs' t o' f' ho' hf') _ (into k hk hx).1, eventArea_eq _ o f (hs t o f ho hf) _ hk]
    have hsum : ((List.finRange n).map fun c => if f' c = σ k then renumber e w c else 0).sum =
        ((List.finRange n).map fun i => if f i = k then w i else 0).sum := by
      rw [← Fin.sum_univ_def, ← Fin.sum_univ_def, ← Equiv.sum_comp e]
      refine Finset.sum_congr rfl fun i _ => ?_
      rw [renumber_at]
      simp only [cells hf hf' k hk hx i]
    rw [hsum]
    simp only [someCell hf hf' k hk hx]

/-- Paired events: as many in the one record as in the other. -/
theorem sameTable_ncard {e : Equiv.Perm (Fin n)} {w w' : Fin n → ℚ} {objs ids objs' ids' : List (Frame n)} (h : SameTable e w w' objs ids objs' ids') :
    (EventIds ids').ncard = (EventIds ids).ncard := by
  obtain ⟨σ, into, inj, onto, -⟩ := h
  have : EventIds ids' = σ '' EventIds ids := by
    ext m
    constructor
    · rintro ⟨hm, hx⟩
      obtain ⟨k, hk, hk', rfl⟩ := onto m hm hx
      exact ⟨k, ⟨hk, hk'⟩, rfl⟩
    · rintro ⟨k, ⟨hk, hx⟩, rfl⟩
      exact into k hk hx
  rw [this, Set.InjOn.ncard_image]
  rintro k ⟨hk, hx⟩ l ⟨hl, hy⟩ hkl
  exact inj k l hk hl hx hy hkl

/-! ### Structured grids -/

/-- **C209**, structured grids with merging: two tracked records that group the cells in the same way report as many events, and the events paired by their
cells have the same presence, first and last step, and area at every step, whatever the options, chunks and numbers behind them. -/
theorem C209_grid_tables (cc cc' : Labeller) (hcc : CorrectLabeller cc) (hcc' : CorrectLabeller cc') (e : Equiv.Perm (Fin n)) (w : Fin n → ℚ)
    (c c' : TrackCfg n) (chunks chunks' : List (List (Frame n)))
    (h : SameGroups e (trackGrid cc c chunks).idField (trackGrid cc' c' chunks').idField) :
    maxId (trackGrid cc' c' chunks').idField = maxId (trackGrid cc c chunks).idField ∧
    SameTable e w (renumber e w) (trackGrid cc c chunks).objects.field (trackGrid cc c chunks).idField
      (trackGrid cc' c' chunks').objects.field (trackGrid cc' c' chunks').idField := by
  obtain ⟨h1, -, h3, N, hN⟩ := C22_events_are_linked_groups cc hcc c.w c.thr (trackGrid cc c chunks).objects.props (trackGrid cc c chunks).objects.field
  obtain ⟨k1, -, k3, M, hM⟩ := C22_events_are_linked_groups cc' hcc' c'.w c'.thr (trackGrid cc' c' chunks').objects.props
    (trackGrid cc' c' chunks').objects.field
  have t := sameTable_of_groups (w := w) h1 k1 h3 k3 h
  refine ⟨?_, t⟩
  have a := sameTable_ncard t
  have b := (maxId_of_range hN).trans (ncard_of_range hN).symm
  have d := (maxId_of_range hM).trans (ncard_of_range hM).symm
  exact d.trans (a.trans b.symm)

/-- **C209**, the orientation of the map: a run that reports no merge reports the same table of events on a map whose rows or columns come in the opposite
order, for every overlap threshold and partition method. -/
theorem C209_orientation {ny nx : Nat} (cc : Labeller) (hcc : CorrectLabeller cc) (hnx : 0 < nx) (rows cols : Bool) (regional wrap nn nn' : Bool) (thr : ℚ)
    (cen cen' : Frame (ny * nx) → Nat → ℚ × ℚ) (chunks chunks' : List Nat) (pre : List (Fin (ny * nx) → Bool)) (hch : SameChunks chunks chunks' pre.length)
    (hm : (trackGrid cc (gridCfg wrap nn ny nx thr cen) (chunksOf chunks (identifyObjectsGrid cc false regional nx pre))).objects.merges = [])
    (w : Fin (ny * nx) → ℚ) :
    let e := mirror rows cols ny nx
    let run := trackGrid cc (gridCfg wrap nn ny nx thr cen) (chunksOf chunks (identifyObjectsGrid cc false regional nx pre))
    let run' := trackGrid cc (gridCfg wrap nn' ny nx thr cen') (chunksOf chunks' (identifyObjectsGrid cc false regional nx (pre.map (renumber e))))
    maxId run'.idField = maxId run.idField ∧ SameTable e w (renumber e w) run.objects.field run.idField run'.objects.field run'.idField :=
  C209_grid_tables cc cc hcc hcc _ w _ _ _ _
    (C207_merging_partial cc hcc hnx rows cols regional wrap nn nn' thr cen cen' chunks chunks' pre hch hm).1

/-- **C209**, the numbers of the objects: a run that reports no merge reports the same table of events whatever numbers a correct labelling routine gives. -/
theorem C209_labels {ny nx : Nat} (cc cc' : Labeller) (hcc : CorrectLabeller cc) (hcc' : CorrectLabeller cc') (hnx : 0 < nx)
    (regional wrap nn : Bool) (thr : ℚ) (cen : Frame (ny * nx) → Nat → ℚ × ℚ) (chunks chunks' : List Nat) (pre : List (Fin (ny * nx) → Bool))
    (hch : SameChunks chunks chunks' pre.length)
    (hm : (trackGrid cc (gridCfg wrap nn ny nx thr cen) (chunksOf chunks (identifyObjectsGrid cc false regional nx pre))).objects.merges = [])
    (w : Fin (ny * nx) → ℚ) :
    let run := trackGrid cc (gridCfg wrap nn ny nx thr cen) (chunksOf chunks (identifyObjectsGrid cc false regional nx pre))
    let run' := trackGrid cc' (gridCfg wrap nn ny nx thr cen) (chunksOf chunks' (identifyObjectsGrid cc' false regional nx pre))
    maxId run'.idField = maxId run.idField ∧ SameTable (Equiv.refl _) w w run.objects.field run.idField run'.objects.field run'.idField := by
  intro run run'
  exact C209_grid_tables cc cc' hcc hcc' (Equiv.refl _) w _ _ _ _
    (C208_events_merging_partial cc cc' hcc hcc' hnx regional wrap nn thr cen chunks chunks' pre hch hm).1

/-- Cells 0 to 1 and cell 4 of a row; then cells 0 to 1 only; then cell 4 only. -/
def threeSpells : List (Fin (1 * 6) → Bool) := [fun i => decide (i.val ≤ 1 ∨ i.val = 4), cellsFrom 0 1, cellsFrom 4 4]

-- non-vacuity: two labelling routines number the three events differently; no merge; the table of the event of cell 4 at step 0 is the same
example : CorrectLabeller (backward quickFind) ∧ SameChunks [3] [3] threeSpells.length ∧
    (let run := trackGrid quickFind (gridCfg false true 1 6 (1 / 2) (rowCen 6)) (chunksOf [3] (identifyObjectsGrid quickFind false true 6 threeSpells))
     let run' := trackGrid (backward quickFind) (gridCfg false true 1 6 (1 / 2) (rowCen 6))
       (chunksOf [3] (identifyObjectsGrid (backward quickFind) false true 6 threeSpells))
     match run.idField, run'.idField with
      | [a, _, c], [a', _, c'] => decide (run.objects.merges = [] ∧ maxId run.idField = 3 ∧ maxId run'.idField = 3 ∧ a 0 ≠ a' 0 ∧ a 4 ≠ c 4 ∧ a' 4 ≠ c' 4 ∧
          presenceOf run.objects.field run.idField (a 0) = [true, true, false] ∧
          presenceOf run'.objects.field run'.idField (a' 0) = [true, true, false])
      | _, _ => false) = true :=
  ⟨backward_correct quickFind_correct, .inl rfl, by decide +kernel⟩

/-! ### Meshes -/

/-- The final objects of a mesh run, behind the variable `global_ID` (track.py 2755–2790). -/
def finalObjectsMesh (cc : Labeller) (p : MeshRun n) (pre : List (Fin n → Bool)) : Except TErr (List (Frame n)) :=
  let objs := objectFieldMesh cc p.nbr p.mask pre
  match splitAndMergeParallel p.track p.cen objs (objs.flatMap (calcProps ⟨p.track.w, p.track.thr, p.cen, fun _ _ _ _ _ _ _ => 0⟩)) with
  | .error e => .error e
  | .ok r => .ok r.field

theorem finalObjects_of_tracking {cc : Labeller} (hcc : CorrectLabeller cc) {p : MeshRun n} {pre : List (Fin n → Bool)} {ids : List (Frame n)}
    (h : trackingMesh cc p pre = .ok ids) : ∃ objs, finalObjectsMesh cc p pre = .ok objs ∧ ids.length = objs.length ∧
      (∀ (t : Nat) (f f' : Frame n), objs[t]? = some f → ids[t]? = some f' → SameCells f f') ∧ maxId ids = (EventIds ids).ncard := by
  have hc := C92_event_count_mesh cc hcc p pre ids h
  unfold trackingMesh at h
  dsimp only at h
  split at h
  · cases h
  split at h
  · cases h
  · rename_i r hr
    refine ⟨r.field, by unfold finalObjectsMesh; dsimp only; rw [hr], ?_⟩
    unfold splitAndMergeParallel at hr
    split at hr
    · cases hr
    · cases hr
      cases h
      obtain ⟨h1, _, h3, _⟩ := C22_events_are_linked_groups cc hcc p.track.w p.track.thr _ _
      exact ⟨h1, h3, hc⟩

/-- **C209**, meshes: two tracked records that group the cells in the same way report as many events, and the events paired by their cells have the same
presence, first and last step, and area at every step. -/
theorem C209_mesh_tables (cc cc' : Labeller) (hcc : CorrectLabeller cc) (hcc' : CorrectLabeller cc') (e : Equiv.Perm (Fin n)) (w : Fin n → ℚ)
    (p p' : MeshRun n) (pre pre' : List (Fin n → Bool)) (ids ids' : List (Frame n)) (hi : trackingMesh cc p pre = .ok ids)
    (hi' : trackingMesh cc' p' pre' = .ok ids') (h : SameGroups e ids ids') :
    maxId ids' = maxId ids ∧ ∃ objs objs', finalObjectsMesh cc p pre = .ok objs ∧ finalObjectsMesh cc' p' pre' = .ok objs' ∧
      SameTable e w (renumber e w) objs ids objs' ids' := by
  obtain ⟨objs, q1, l1, s1, c1⟩ := finalObjects_of_tracking hcc hi
  obtain ⟨objs', q2, l2, s2, c2⟩ := finalObjects_of_tracking hcc' hi'
  have t := sameTable_of_groups (w := w) l1 l2 s1 s2 h
  exact ⟨by rw [c1, c2, sameTable_ncard t], objs, objs', q1, q2, t⟩

/-- **C209**, the numbering of the cells of a mesh: a whole run without merges reports the same table of events when the cells are numbered in another order,
with the reported areas of the same cells. -/
theorem C209_mesh_numbering (cc : Labeller) (hcc : CorrectLabeller cc) (e : Equiv.Perm (Fin n)) (p p' : MeshRun n) (hp : Renumbered e p p')
    (hw : ∀ i, 0 < p.track.w i) (data pre : List (Fin n → Bool)) (ids : List (Frame n)) (h : runMesh cc p data = .ok (pre, ids))
    (hm : NoMerges p.track.w p.track.thr (objectFieldMesh cc p.nbr p.mask pre)) :
    ∃ ids', runMesh cc p' (data.map (renumber e)) = .ok (pre.map (renumber e), ids') ∧ maxId ids' = maxId ids ∧
      ∃ objs objs', finalObjectsMesh cc p pre = .ok objs ∧ finalObjectsMesh cc p' (pre.map (renumber e)) = .ok objs' ∧
        SameTable e p.track.w p'.track.w objs ids objs' ids' := by
  have ok : ∀ {p : MeshRun n} {data pre : List (Fin n → Bool)} {ids : List (Frame n)}, runMesh cc p data = .ok (pre, ids) → trackingMesh cc p pre = .ok ids := by
    intro p data pre ids h
    unfold runMesh at h
    split at h
    · cases h
    split at h
    · cases h
    rename_i r _ ids0 hids
    cases h
    exact hids
  obtain ⟨ids', hr, hg⟩ := C191_events_partial cc hcc e p p' hp hw data pre ids h hm
  have k := C209_mesh_tables cc cc hcc hcc e p.track.w p p' pre _ ids ids' (ok h) (ok hr) hg
  rw [← hp.areas] at k
  exact ⟨ids', hr, k⟩

-- the hypotheses of `C209_mesh_numbering` are met by the run on a line of cells, which has events
example : ∃ pre ids ids', runMesh quickFind (lineRun true) lineData = .ok (pre, ids) ∧
    runMesh quickFind lineRunBack (lineData.map (renumber Fin.revPerm)) = .ok (pre.map (renumber Fin.revPerm), ids') ∧ 0 < maxId ids ∧ maxId ids' = maxId ids := by
  have h : (match runMesh quickFind (lineRun true) lineData with
      | .ok (pre, ids) => decide (((enforceOverlap (lineRun true).track.thr
          ((objectFieldMesh quickFind (lineRun true).nbr (lineRun true).mask pre).flatMap
            (calcProps ⟨(lineRun true).track.w, (lineRun true).track.thr, (lineRun true).cen, fun _ _ _ _ _ _ _ => 0⟩))
          (findOverlaps (lineRun true).track.w (objectFieldMesh quickFind (lineRun true).nbr (lineRun true).mask pre))).map (·.b)).Nodup ∧ 0 < maxId ids)
      | .error _ => false) = true := by decide +kernel
  cases hr : runMesh quickFind (lineRun true) lineData with
  | error e => rw [hr] at h; cases h
  | ok q =>
    rw [hr] at h
    obtain ⟨pre, ids⟩ := q
    have h := of_decide_eq_true h
    have hu := timeUnique_objectFieldMesh quickFind (lineRun true).nbr (lineRun true).mask pre
    obtain ⟨ids', h1, h2, -⟩ := C209_mesh_numbering quickFind quickFind_correct Fin.revPerm _ _ lineRun_renumbered (fun _ => one_pos) lineData pre ids hr
      (noMerges_of_nodup (fun _ => one_pos) hu (tableExact_calcProps ⟨(lineRun true).track.w, _, (lineRun true).cen, fun _ _ _ _ _ _ _ => 0⟩ _ hu) h.1)
    exact ⟨pre, ids, ids', rfl, h1, h.2, h2⟩

end MarEx.Props
