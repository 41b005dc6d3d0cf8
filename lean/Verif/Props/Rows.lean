import Verif.Props.Tables
import Verif.Props.BeforeMerge
/-! C212: the row of an event in the table (first and last step, presence, area) follows from its cells. -/
namespace MarEx.Spec

/-- Event `k` of one tracked record and event `k'` of another start at the same step, end at the same step, and at every step of both records they are both
present or both absent and have the same area. `objs`, `objs'`: the objects before renaming; `ids`, `ids'`: the variable `ID_field`; `w`: the cell areas. -/
def SameRow {n : Nat} (w : Fin n → ℚ) (objs ids : List (Frame n)) (k : Nat) (objs' ids' : List (Frame n)) (k' : Nat) : Prop :=
  timeStartIdx (presenceOf objs' ids' k') = timeStartIdx (presenceOf objs ids k) ∧
  timeEndIdx (presenceOf objs' ids' k') = timeEndIdx (presenceOf objs ids k) ∧
  ∀ (t : Nat) (o f o' f' : Frame n), objs[t]? = some o → ids[t]? = some f → objs'[t]? = some o' → ids'[t]? = some f' →
    ((presenceOf objs' ids' k')[t]? = some true ↔ (presenceOf objs ids k)[t]? = some true) ∧
    eventArea w (decide (0 < globalId o' f' k')) f' k' = eventArea w (decide (0 < globalId o f k)) f k

end MarEx.Spec

namespace MarEx.Props
open MarEx MarEx.Spec

variable {n : Nat}

theorem sameRow_of_cells {w : Fin n → ℚ} {objs ids objs' ids' : List (Frame n)} (hl : ids.length = objs.length) (hl' : ids'.length = objs'.length)
    (hs : ∀ (t : Nat) (f f' : Frame n), objs[t]? = some f → ids[t]? = some f' → SameCells f f')
    (hs' : ∀ (t : Nat) (f f' : Frame n), objs'[t]? = some f → ids'[t]? = some f' → SameCells f f')
    {t : Nat} {i : Fin n} {g g' : Frame n} (hg : ids[t]? = some g) (hg' : ids'[t]? = some g') (hi : 0 < g i)
    (h : ∀ u j, SameEvent ids t i u j ↔ SameEvent ids' t i u j) : 0 < g' i ∧ SameRow w objs ids (g i) objs' ids' (g' i) := by
  have same : ∀ {ids : List (Frame n)} {g : Frame n}, ids[t]? = some g → 0 < g i → ∀ u j, SameEvent ids t i u j ↔ ∃ f, ids[u]? = some f ∧ f j = g i := by
    intro ids g hg hi u j
    constructor
    · rintro ⟨a, b, ha, hb, _, he⟩
      rw [hg] at ha
      cases ha
      exact ⟨b, hb, he.symm⟩
    · rintro ⟨b, hb, he⟩
      exact ⟨g, b, hg, hb, hi, he.symm⟩
  have hi' : 0 < g' i := by
    obtain ⟨a, b, ha, _, h0, _⟩ := (h t i).mp ⟨g, g, hg, hg, hi, rfl⟩
    rw [hg'] at ha
    cases ha
    exact h0
  have key : ∀ (u : Nat) (j : Fin n), (∃ f : Frame n, ids[u]? = some f ∧ f j = g i) ↔ ∃ f : Frame n, ids'[u]? = some f ∧ f j = g' i := fun u j => by
    rw [← same hg hi, ← same hg' hi']
    exact h u j
  obtain ⟨a1, a2, a3⟩ := C23_presence_and_times objs ids hl hs (g i) hi
  obtain ⟨b1, b2, b3⟩ := C23_presence_and_times objs' ids' hl' hs' (g' i) hi'
  obtain ⟨⟨s, hs1, js, hjs⟩, ⟨e, he1, je, hje⟩, hall⟩ := a3 ⟨g, List.mem_of_getElem? hg, i, rfl⟩
  obtain ⟨⟨s', hs1', js', hjs'⟩, ⟨e', he1', je', hje'⟩, hall'⟩ := b3 ⟨g', List.mem_of_getElem? hg', i, rfl⟩
  have into : ∀ (u : Nat) (j : Fin n) (f : Frame n), ids[u]? = some f → f j = g i → ∃ f', ids'[u]? = some f' ∧ ∃ j, f' j = g' i := fun u j f hf hj => by
    obtain ⟨f', hf', hj'⟩ := (key u j).mp ⟨f, hf, hj⟩
    exact ⟨f', hf', j, hj'⟩
  have back : ∀ (u : Nat) (j : Fin n) (f : Frame n), ids'[u]? = some f → f j = g' i → ∃ f', ids[u]? = some f' ∧ ∃ j, f' j = g i := fun u j f hf hj => by
    obtain ⟨f', hf', hj'⟩ := (key u j).mpr ⟨f, hf, hj⟩
    exact ⟨f', hf', j, hj'⟩
  refine ⟨hi', ?_, ?_, ?_⟩
  · obtain ⟨x, hx, hy⟩ := into _ _ _ hs1 hjs
    obtain ⟨y, hz, hw⟩ := back _ _ _ hs1' hjs'
    have := (hall' _ x hx hy).1
    have := (hall _ y hz hw).1
    omega
  · obtain ⟨x, hx, hy⟩ := into _ _ _ he1 hje
    obtain ⟨y, hz, hw⟩ := back _ _ _ he1' hje'
    have := (hall' _ x hx hy).2
    have := (hall _ y hz hw).2
    omega
  · intro u o f o' f' ho hf ho' hf'
    have cells : ∀ j, f' j = g' i ↔ f j = g i := by
      intro j
      have := key u j
      rw [hf, hf'] at this
      simp only [Option.some.injEq, exists_eq_left'] at this
      exact this.symm
    refine ⟨?_, ?_⟩
    · rw [(b2 u o' f' ho' hf').1, (a2 u o f ho hf).1]
      simp only [cells]
    · rw [eventArea_eq _ o' f' (hs' u o' f' ho' hf') _ hi', eventArea_eq _ o f (hs u o f ho hf) _ hi]
      simp only [cells]

/-- **C212**, structured grids with merging: if the event of a cell has the same cells in two tracked records, of whatever lengths and whatever the options, chunks
and numbers behind them, then it has the same first and last step, and at every step the same presence and area. -/
theorem C212_grid_rows (cc cc' : Labeller) (hcc : CorrectLabeller cc) (hcc' : CorrectLabeller cc') (w : Fin n → ℚ)
    (c c' : TrackCfg n) (chunks chunks' : List (List (Frame n))) (t : Nat) (i : Fin n) (g g' : Frame n)
    (hg : (trackGrid cc c chunks).idField[t]? = some g) (hg' : (trackGrid cc' c' chunks').idField[t]? = some g') (hi : 0 < g i)
    (h : ∀ u j, SameEvent (trackGrid cc c chunks).idField t i u j ↔ SameEvent (trackGrid cc' c' chunks').idField t i u j) :
    0 < g' i ∧ SameRow w (trackGrid cc c chunks).objects.field (trackGrid cc c chunks).idField (g i)
      (trackGrid cc' c' chunks').objects.field (trackGrid cc' c' chunks').idField (g' i) := by
  obtain ⟨h1, -, h3, -⟩ := C22_events_are_linked_groups cc hcc c.w c.thr (trackGrid cc c chunks).objects.props (trackGrid cc c chunks).objects.field
  obtain ⟨k1, -, k3, -⟩ := C22_events_are_linked_groups cc' hcc' c'.w c'.thr (trackGrid cc' c' chunks').objects.props
    (trackGrid cc' c' chunks').objects.field
  exact sameRow_of_cells h1 k1 h3 k3 hg hg' hi h

/-- **C212**, meshes. -/
theorem C212_mesh_rows (cc cc' : Labeller) (hcc : CorrectLabeller cc) (hcc' : CorrectLabeller cc') (w : Fin n → ℚ) (p p' : MeshRun n)
    (pre pre' : List (Fin n → Bool)) (ids ids' : List (Frame n)) (hr : trackingMesh cc p pre = .ok ids) (hr' : trackingMesh cc' p' pre' = .ok ids')
    (t : Nat) (i : Fin n) (g g' : Frame n) (hg : ids[t]? = some g) (hg' : ids'[t]? = some g') (hi : 0 < g i)
    (h : ∀ u j, SameEvent ids t i u j ↔ SameEvent ids' t i u j) :
    0 < g' i ∧ ∃ objs objs', finalObjectsMesh cc p pre = .ok objs ∧ finalObjectsMesh cc' p' pre' = .ok objs' ∧ SameRow w objs ids (g i) objs' ids' (g' i) := by
  obtain ⟨objs, ho, h1, h3, -⟩ := finalObjects_of_tracking hcc hr
  obtain ⟨objs', ho', k1, k3, -⟩ := finalObjects_of_tracking hcc' hr'
  obtain ⟨h0, hrow⟩ := sameRow_of_cells (w := w) h1 k1 h3 k3 hg hg' hi h
  exact ⟨h0, objs, objs', ho, ho', hrow⟩

/-- **C206**, the table: structured grids, `allow_merging = True`, two preprocessed fields that agree on their first `L` steps. An event of the first that is over by
then (no cell at step `L - 1` or later) has the same first and last step, presence and areas in the second, whatever comes later. Missing: chunks of one step
(`C206_one_step_chunk_fails`). -/
theorem C206_table_partial {ny nx : Nat} (cc : Labeller) (hcc : CorrectLabeller cc) (hord : NumbersInOrder cc) (hnx : 0 < nx) (regional wrap nn : Bool) (thr : ℚ)
    (cen : Frame (ny * nx) → Nat → ℚ × ℚ) (hcen : OfCells cen) (pre pre' : List (Fin (ny * nx) → Bool)) (chunks chunks' : List Nat)
    (hch : ChunkLengths chunks pre.length) (hch' : ChunkLengths chunks' pre'.length) (L : Nat) (hL : L ≤ pre.length) (hsame : pre.take L = pre'.take L)
    (w : Fin (ny * nx) → ℚ) (t : Nat) (i : Fin (ny * nx)) (htL : t < L) :
    let run := trackGrid cc (gridCfg wrap nn ny nx thr cen) (chunksOf chunks (identifyObjectsGrid cc false regional nx pre))
    let run' := trackGrid cc (gridCfg wrap nn ny nx thr cen) (chunksOf chunks' (identifyObjectsGrid cc false regional nx pre'))
    ∀ g g' : Frame (ny * nx), run.idField[t]? = some g → run'.idField[t]? = some g' → 0 < g i → (∀ u j, SameEvent run.idField t i u j → u + 1 < L) →
      0 < g' i ∧ SameRow w run.objects.field run.idField (g i) run'.objects.field run'.idField (g' i) := by
  intro run run' g g' hg hg' hi hend
  refine C212_grid_rows cc cc hcc hcc w _ _ _ _ t i g g' hg hg' hi fun u j => ?_
  exact C206_over_merging_partial cc hcc hord hnx ⟨regional, fun _ => true, 0, 0, .absolute 1, true, gridCfg wrap nn ny nx thr cen⟩ rfl wrap nn thr cen hcen rfl pre pre' chunks chunks' hch hch' L hL hsame t i htL hend u j

/-- **C204**, the table: structured grids with merging, a group of objects that never meets the rest. Every event of the group has the same first and last step,
presence and areas as when the group is tracked alone. -/
theorem C204_table {ny nx : Nat} (cc : Labeller) (hcc : CorrectLabeller cc) (hord : NumbersInOrder cc) (hnx : 0 < nx) (regional wrap nn : Bool) (thr : ℚ)
    (cen : Frame (ny * nx) → Nat → ℚ × ℚ) (hcen : OfCells cen) (chunks : List Nat) (whole part : List (Fin (ny * nx) → Bool))
    (h : OwnGroup regional nx whole part) (w : Fin (ny * nx) → ℚ) (t : Nat) (i : Fin (ny * nx)) (hti : IsExtreme part t i) :
    let run := trackGrid cc (gridCfg wrap nn ny nx thr cen) (chunksOf chunks (identifyObjectsGrid cc false regional nx part))
    let run' := trackGrid cc (gridCfg wrap nn ny nx thr cen) (chunksOf chunks (identifyObjectsGrid cc false regional nx whole))
    ∀ g g' : Frame (ny * nx), run.idField[t]? = some g → run'.idField[t]? = some g' →
      0 < g i ∧ 0 < g' i ∧ SameRow w run.objects.field run.idField (g i) run'.objects.field run'.idField (g' i) := by
  intro run run' g g' hg hg'
  obtain ⟨k1, k2⟩ := C204_group_tracked_alone cc hcc hord hnx ⟨regional, fun _ => true, 0, 0, .absolute 1, true, gridCfg wrap nn ny nx thr cen⟩ rfl wrap nn thr cen hcen rfl chunks whole part h
  have hi : 0 < g i := (k1 t g hg i).mpr hti
  exact ⟨hi, C212_grid_rows cc cc hcc hcc w _ _ _ _ t i g g' hg hg' hi fun u j => k2 t i u j hti⟩

-- non-vacuity: a fourth step with the whole row extreme is added to the record; the event of cells 0 and 1 is over after step 1 and keeps its row
example : ChunkLengths [3] threeSpells.length ∧ ChunkLengths [2, 2] (threeSpells ++ [(fun _ => true : Fin (1 * 6) → Bool)]).length ∧
    (let run := trackGrid quickFind (gridCfg false true 1 6 (1 / 2) (rowCen 6)) (chunksOf [3] (identifyObjectsGrid quickFind false true 6 threeSpells))
     let run' := trackGrid quickFind (gridCfg false true 1 6 (1 / 2) (rowCen 6))
       (chunksOf [2, 2] (identifyObjectsGrid quickFind false true 6 (threeSpells ++ [(fun _ => true : Fin (1 * 6) → Bool)])))
     match run.idField, run'.idField with
      | [a, _, c], [a', b', c', d'] => decide (0 < a 0 ∧ (∀ j, c j ≠ a 0) ∧ 0 < a' 0 ∧ b' 0 = a' 0 ∧ 0 < c' 4 ∧ c' 4 = d' 0 ∧
          timeStartIdx (presenceOf run.objects.field run.idField (a 0)) = 0 ∧ timeEndIdx (presenceOf run.objects.field run.idField (a 0)) = 1 ∧
          timeStartIdx (presenceOf run'.objects.field run'.idField (a' 0)) = 0 ∧ timeEndIdx (presenceOf run'.objects.field run'.idField (a' 0)) = 1)
      | _, _ => false) = true := by
  exact ⟨⟨rfl, by decide, by decide⟩, ⟨rfl, by decide, by decide⟩, by decide +kernel⟩

end MarEx.Props
