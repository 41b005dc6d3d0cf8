import Verif.Props.NoMerge
import Verif.Props.Appended
/-! C192, C207 and C164 for records with merges: the events that are over before the first merge, and the events of objects
that never meet an object with a merge. -/
namespace MarEx.Props
open MarEx MarEx.Spec

variable {n : Nat}

theorem sameEvent_groups {e : Equiv.Perm (Fin n)} {ids ids' : List (Frame n)} (h : SameGroups e ids ids') (t u : Nat) (i j : Fin n) :
    SameEvent ids t i u j ↔ SameEvent ids' t (e i) u (e j) := by
  constructor
  · rintro ⟨f, g, hf, hg, hs⟩
    have ht : t < ids'.length := by rw [h.1]; exact (List.getElem?_eq_some_iff.1 hf).1
    have hu : u < ids'.length := by rw [h.1]; exact (List.getElem?_eq_some_iff.1 hg).1
    exact ⟨_, _, List.getElem?_eq_getElem ht, List.getElem?_eq_getElem hu,
      (h.2 t u f g _ _ hf hg (List.getElem?_eq_getElem ht) (List.getElem?_eq_getElem hu) i j).1 hs⟩
  · rintro ⟨f, g, hf, hg, hs⟩
    have ht : t < ids.length := by rw [← h.1]; exact (List.getElem?_eq_some_iff.1 hf).1
    have hu : u < ids.length := by rw [← h.1]; exact (List.getElem?_eq_some_iff.1 hg).1
    exact ⟨_, _, List.getElem?_eq_getElem ht, List.getElem?_eq_getElem hu,
      (h.2 t u _ _ f g (List.getElem?_eq_getElem ht) (List.getElem?_eq_getElem hu) hf hg i j).2 hs⟩

theorem chunksOf_whole {α : Type} (l : List α) (h : l ≠ []) : chunksOf [l.length] l = [l] := by
  cases l with
  | nil => exact absurd rfl h
  | cons a l => simp [chunksOf]

theorem chunkLengths_whole {N : Nat} (h : 0 < N) : ChunkLengths [N] N :=
  ⟨by simp, fun k hk => by rw [List.mem_singleton] at hk; omega, fun k hk => by simp at hk⟩

/-- The events that are over before the first merge, on the same cells in another order. -/
theorem before_groups {ny nx : Nat} (cc : Labeller) (hcc : CorrectLabeller cc) (hord : NumbersInOrder cc) (hnx : 0 < nx) {regional : Bool}
    {e : Equiv.Perm (Fin (ny * nx))} (hT : ∀ i j, Touch regional nx (e i) (e j) ↔ Touch regional nx i j) (p p' : GridRun ny nx)
    (hm : p.allowMerging = true) (hm' : p'.allowMerging = true) (hr : p.regional = regional) (hr' : p'.regional = regional)
    (wrap nn wrap' nn' : Bool) (thr : ℚ) (cen cen' : Frame (ny * nx) → Nat → ℚ × ℚ) (hcen : OfCells cen) (hcen' : OfCells cen')
    (ht : p.track = gridCfg wrap nn ny nx thr cen) (ht' : p'.track = gridCfg wrap' nn' ny nx thr cen') (chunks chunks' : List Nat)
    (pre : List (Fin (ny * nx) → Bool)) (hch : ChunkLengths chunks pre.length) (hch' : ChunkLengths chunks' pre.length) (L : Nat) (hL : L ≤ pre.length)
    (hlate : ∀ r ∈ (trackGrid cc p.track (chunksOf chunks (identifyObjectsGrid cc false p.regional nx pre))).objects.merges, L ≤ r.time)
    (t : Nat) (i : Fin (ny * nx)) (htL : t < L) (hend : ∀ u j, SameEvent (trackingGrid cc p chunks pre) t i u j → u + 1 < L) (u : Nat) (j : Fin (ny * nx)) :
    SameEvent (trackingGrid cc p chunks pre) t i u j ↔ SameEvent (trackingGrid cc p' chunks' (pre.map (renumber e))) t (e i) u (e j) := by
  have hll : (pre.take L).length = L := by rw [List.length_take]; omega
  have hL0 : 0 < L := by omega
  have hne : pre.take L ≠ [] := by intro h; rw [h, List.length_nil] at hll; omega
  have e1 : pre = pre.take L ++ pre.drop L := (List.take_append_drop L pre).symm
  -- the first steps alone
  have k1 := C206_over_merging_partial cc hcc hord hnx p hm wrap nn thr cen hcen ht pre (pre.take L) chunks [L] hch
    (by rw [hll]; exact chunkLengths_whole hL0) L hL (by rw [List.take_take, min_self]) t i htL hend
  -- no merge in them
  have hnil : (trackGrid cc (gridCfg wrap nn ny nx thr cen) (chunksOf [L] (identifyObjectsGrid cc false regional nx (pre.take L)))).objects.merges = [] := by
    have hid : (identifyObjectsGrid cc false regional nx (pre.take L)).length = L := by rw [length_identify, hll]
    have hw := chunksOf_whole (identifyObjectsGrid cc false regional nx (pre.take L)) (by intro h; rw [h, List.length_nil] at hid; omega)
    rw [hid] at hw
    rw [hw, List.eq_nil_iff_forall_not_mem]
    intro x hx
    obtain ⟨-, -, h3, -⟩ := begins_tracked cc hcc hord hnx regional wrap nn thr cen hcen chunks (pre.take L) (pre.drop L) hne (by rw [← e1]; exact hch)
    obtain ⟨h4, q, hq, h5⟩ := h3 x hx
    rw [← e1, ← ht, ← hr] at hq
    have := hlate q hq
    omega
  have k2 := (tracked_groups cc hcc hnx hT wrap nn wrap' nn' thr cen cen' [L] [L] (pre.take L) (Or.inl rfl) hnil).1
  have k3 : ∀ u j, SameEvent (trackingGrid cc p [L] (pre.take L)) t i u j ↔
      SameEvent (trackingGrid cc p' [L] ((pre.take L).map (renumber e))) t (e i) u (e j) := by
    intro u j
    unfold trackingGrid
    rw [if_pos hm, if_pos hm', ht, ht', hr, hr']
    exact sameEvent_groups k2 t u i j
  have hlm : (pre.map (renumber e)).length = pre.length := List.length_map _
  have hpm : (pre.take L).map (renumber e) = (pre.map (renumber e)).take L := List.map_take
  rw [hpm] at k3
  have k4 := C206_over_merging_partial cc hcc hord hnx p' hm' wrap' nn' thr cen' hcen' ht' ((pre.map (renumber e)).take L) (pre.map (renumber e)) [L] chunks'
    (by rw [List.length_take, hlm, min_eq_left hL]; exact chunkLengths_whole hL0) (by rw [hlm]; exact hch') L
    (by rw [List.length_take, hlm]; omega) (by rw [List.take_take, min_self]) t (e i) htL
    (by
      intro u c hs
      obtain ⟨j, rfl⟩ := e.surjective c
      exact hend u j ((k1 u j).2 ((k3 u j).2 hs)))
  rw [k1 u j, k3 u j, k4 u (e j)]

/-- **C192**, records with merges (structured grids, `allow_merging = True`): if every merge that a run reports is at step `L` or later, the events that are
over before step `L - 1` are the same with the other value of `nn_partitioning`: the same cells at the same steps and none besides, for every chunking into
chunks of at least two steps (the first may be shorter). Missing: events that reach the first merge or come later (`C192_links_fails`). -/
theorem C192_before_merges_partial {ny nx : Nat} (cc : Labeller) (hcc : CorrectLabeller cc) (hord : NumbersInOrder cc) (hnx : 0 < nx) (p : GridRun ny nx)
    (hm : p.allowMerging = true) (wrap nn nn' : Bool) (thr : ℚ) (cen : Frame (ny * nx) → Nat → ℚ × ℚ) (hcen : OfCells cen)
    (ht : p.track = gridCfg wrap nn ny nx thr cen) (chunks chunks' : List Nat) (pre : List (Fin (ny * nx) → Bool)) (hch : ChunkLengths chunks pre.length)
    (hch' : ChunkLengths chunks' pre.length) (L : Nat) (hL : L ≤ pre.length)
    (hlate : ∀ r ∈ (trackGrid cc p.track (chunksOf chunks (identifyObjectsGrid cc false p.regional nx pre))).objects.merges, L ≤ r.time)
    (t : Nat) (i : Fin (ny * nx)) (htL : t < L) (hend : ∀ u j, SameEvent (trackingGrid cc p chunks pre) t i u j → u + 1 < L) (u : Nat) (j : Fin (ny * nx)) :
    SameEvent (trackingGrid cc p chunks pre) t i u j ↔
      SameEvent (trackingGrid cc { p with track := gridCfg wrap nn' ny nx thr cen } chunks' pre) t i u j := by
  have k := before_groups cc hcc hord hnx (regional := p.regional) (e := Equiv.refl _) (fun _ _ => Iff.rfl) p
    { p with track := gridCfg wrap nn' ny nx thr cen } hm hm rfl rfl wrap nn wrap nn' thr cen cen hcen hcen ht rfl chunks chunks' pre hch hch' L hL hlate t i
    htL hend u j
  have hid : pre.map (renumber (Equiv.refl _)) = pre := by
    conv_rhs => rw [← List.map_id pre]
    rfl
  rw [hid] at k
  exact k

/-- **C207**, records with merges (structured grids, `allow_merging = True`): if every merge that a run reports is at step `L` or later, the events that are
over before step `L - 1` are the same on a map whose rows or columns come in the opposite order, for either partition method on either map and every chunking
into chunks of at least two steps. Missing: events that reach the first merge or come later (`C207_merging_tie_fails`). -/
theorem C207_before_merges_partial {ny nx : Nat} (cc : Labeller) (hcc : CorrectLabeller cc) (hord : NumbersInOrder cc) (hnx : 0 < nx) (rows cols : Bool)
    (p p' : GridRun ny nx) (hm : p.allowMerging = true) (hm' : p'.allowMerging = true) (hr : p'.regional = p.regional) (wrap nn nn' : Bool) (thr : ℚ)
    (cen cen' : Frame (ny * nx) → Nat → ℚ × ℚ) (hcen : OfCells cen) (hcen' : OfCells cen') (ht : p.track = gridCfg wrap nn ny nx thr cen)
    (ht' : p'.track = gridCfg wrap nn' ny nx thr cen') (chunks chunks' : List Nat) (pre : List (Fin (ny * nx) → Bool))
    (hch : ChunkLengths chunks pre.length) (hch' : ChunkLengths chunks' pre.length) (L : Nat) (hL : L ≤ pre.length)
    (hlate : ∀ r ∈ (trackGrid cc p.track (chunksOf chunks (identifyObjectsGrid cc false p.regional nx pre))).objects.merges, L ≤ r.time)
    (t : Nat) (i : Fin (ny * nx)) (htL : t < L) (hend : ∀ u j, SameEvent (trackingGrid cc p chunks pre) t i u j → u + 1 < L) (u : Nat) (j : Fin (ny * nx)) :
    SameEvent (trackingGrid cc p chunks pre) t i u j ↔ SameEvent (trackingGrid cc p' chunks' (pre.map (renumber (mirror rows cols ny nx)))) t
      (mirror rows cols ny nx i) u (mirror rows cols ny nx j) :=
  before_groups cc hcc hord hnx (touch_mirror_iff rows cols ny nx p.regional) p p' hm hm' rfl hr wrap nn wrap nn' thr cen cen' hcen hcen' ht ht' chunks chunks'
    pre hch hch' L hL hlate t i htL hend u j

/-- **C164**, records with merges (the globe, `allow_merging = True`): if every merge that a run reports is at step `L` or later, the events that are over
before step `L - 1` are the same on a map that is cut elsewhere. Missing: events that reach the first merge or come later (`C164_merging_tie_fails`), and the
preprocessing (`C05_rotation_invariance_fails`, `C164_area_filter_fails`). -/
theorem C164_before_merges_partial {ny nx : Nat} (cc : Labeller) (hcc : CorrectLabeller cc) (hord : NumbersInOrder cc) (hnx : 0 < nx) (p p' : GridRun ny nx)
    (hm : p.allowMerging = true) (hm' : p'.allowMerging = true) (hr : p.regional = false) (hr' : p'.regional = false) (wrap nn nn' : Bool) (thr : ℚ)
    (cen cen' : Frame (ny * nx) → Nat → ℚ × ℚ) (hcen : OfCells cen) (hcen' : OfCells cen') (ht : p.track = gridCfg wrap nn ny nx thr cen)
    (ht' : p'.track = gridCfg wrap nn' ny nx thr cen') (chunks chunks' : List Nat) (s : Nat) (pre pre' : List (Fin (ny * nx) → Bool))
    (h : Turned hnx s pre pre') (hch : ChunkLengths chunks pre.length) (hch' : ChunkLengths chunks' pre.length) (L : Nat) (hL : L ≤ pre.length)
    (hlate : ∀ r ∈ (trackGrid cc p.track (chunksOf chunks (identifyObjectsGrid cc false p.regional nx pre))).objects.merges, L ≤ r.time)
    (t : Nat) (i : Fin (ny * nx)) (htL : t < L) (hend : ∀ u j, SameEvent (trackingGrid cc p chunks pre) t i u j → u + 1 < L) (u : Nat) (j : Fin (ny * nx)) :
    SameEvent (trackingGrid cc p chunks pre) t i u j ↔ SameEvent (trackingGrid cc p' chunks' pre') t (turn hnx s i) u (turn hnx s j) := by
  rw [turned_eq hnx h]
  exact before_groups cc hcc hord hnx (touch_turned_iff hnx s) p p' hm hm' hr hr' wrap nn wrap nn' thr cen cen' hcen hcen' ht ht' chunks chunks' pre hch hch'
    L hL hlate t i htL hend u j

/-! ### Groups of objects without merges -/

theorem ownGroup_renumber {ny nx : Nat} {regional : Bool} {e : Equiv.Perm (Fin (ny * nx))}
    (hT : ∀ i j, Touch regional nx (e i) (e j) ↔ Touch regional nx i j) {whole part : List (Fin (ny * nx) → Bool)} (h : OwnGroup regional nx whole part) :
    OwnGroup regional nx (whole.map (renumber e)) (part.map (renumber e)) := by
  refine ⟨by rw [List.length_map, List.length_map, h.length], fun t c => ?_, fun t c d => ?_, fun t c => ?_⟩
  · obtain ⟨i, rfl⟩ := e.surjective c
    rw [isExtreme_renumber, isExtreme_renumber]
    exact h.sub t i
  · obtain ⟨i, rfl⟩ := e.surjective c
    obtain ⟨j, rfl⟩ := e.surjective d
    rw [hT, isExtreme_renumber, isExtreme_renumber, isExtreme_renumber, isExtreme_renumber]
    exact h.objects t i j
  · obtain ⟨i, rfl⟩ := e.surjective c
    rw [isExtreme_renumber, isExtreme_renumber, isExtreme_renumber, isExtreme_renumber]
    exact h.cells t i

/-- The events of a group without merges, on the same cells in another order. -/
theorem group_groups {ny nx : Nat} (cc : Labeller) (hcc : CorrectLabeller cc) (hord : NumbersInOrder cc) (hnx : 0 < nx) {regional : Bool}
    {e : Equiv.Perm (Fin (ny * nx))} (hT : ∀ i j, Touch regional nx (e i) (e j) ↔ Touch regional nx i j) (p p' : GridRun ny nx)
    (hm : p.allowMerging = true) (hm' : p'.allowMerging = true) (hr : p.regional = regional) (hr' : p'.regional = regional)
    (wrap nn wrap' nn' : Bool) (thr : ℚ) (cen cen' : Frame (ny * nx) → Nat → ℚ × ℚ) (hcen : OfCells cen) (hcen' : OfCells cen')
    (ht : p.track = gridCfg wrap nn ny nx thr cen) (ht' : p'.track = gridCfg wrap' nn' ny nx thr cen') (chunks chunks' : List Nat)
    (pre part : List (Fin (ny * nx) → Bool)) (hg : OwnGroup regional nx pre part) (hch : SameChunks chunks chunks' pre.length)
    (hnone : (trackGrid cc p.track (chunksOf chunks (identifyObjectsGrid cc false p.regional nx part))).objects.merges = [])
    (t : Nat) (i : Fin (ny * nx)) (hi : IsExtreme part t i) (u : Nat) (j : Fin (ny * nx)) :
    SameEvent (trackingGrid cc p chunks pre) t i u j ↔ SameEvent (trackingGrid cc p' chunks' (pre.map (renumber e))) t (e i) u (e j) := by
  have k1 := (C204_group_tracked_alone cc hcc hord hnx p hm wrap nn thr cen hcen ht chunks pre part (by rw [hr]; exact hg)).2 t i u j hi
  have k2 := (C204_group_tracked_alone cc hcc hord hnx p' hm' wrap' nn' thr cen' hcen' ht' chunks' _ _ (by rw [hr']; exact ownGroup_renumber hT hg)).2 t (e i) u (e j)
    ((isExtreme_renumber part t i).2 hi)
  rw [ht, hr] at hnone
  have k3 := (tracked_groups cc hcc hnx hT wrap nn wrap' nn' thr cen cen' chunks chunks' part (by rw [hg.length]; exact hch) hnone).1
  rw [← k1, ← k2]
  unfold trackingGrid
  rw [if_pos hm, if_pos hm', ht, ht', hr, hr']
  exact sameEvent_groups k3 t u i j

/-- **C192**, records with merges elsewhere (structured grids, `allow_merging = True`): take a group of objects that shares no cell at consecutive steps with
an object outside it. If tracking the group alone reports no merge, its events in the whole record are the same with the other value of `nn_partitioning`,
whatever merges outside the group. Missing: groups with merges (`C192_links_fails`). -/
theorem C192_group_partial {ny nx : Nat} (cc : Labeller) (hcc : CorrectLabeller cc) (hord : NumbersInOrder cc) (hnx : 0 < nx) (p : GridRun ny nx)
    (hm : p.allowMerging = true) (wrap nn nn' : Bool) (thr : ℚ) (cen : Frame (ny * nx) → Nat → ℚ × ℚ) (hcen : OfCells cen)
    (ht : p.track = gridCfg wrap nn ny nx thr cen) (chunks chunks' : List Nat) (pre part : List (Fin (ny * nx) → Bool))
    (hg : OwnGroup p.regional nx pre part) (hch : SameChunks chunks chunks' pre.length)
    (hnone : (trackGrid cc p.track (chunksOf chunks (identifyObjectsGrid cc false p.regional nx part))).objects.merges = [])
    (t : Nat) (i : Fin (ny * nx)) (hi : IsExtreme part t i) (u : Nat) (j : Fin (ny * nx)) :
    SameEvent (trackingGrid cc p chunks pre) t i u j ↔
      SameEvent (trackingGrid cc { p with track := gridCfg wrap nn' ny nx thr cen } chunks' pre) t i u j := by
  have k := group_groups cc hcc hord hnx (regional := p.regional) (e := Equiv.refl _) (fun _ _ => Iff.rfl) p
    { p with track := gridCfg wrap nn' ny nx thr cen } hm hm rfl rfl wrap nn wrap nn' thr cen cen hcen hcen ht rfl chunks chunks' pre part hg hch hnone t i hi u j
  have hid : pre.map (renumber (Equiv.refl _)) = pre := by
    conv_rhs => rw [← List.map_id pre]
    rfl
  rw [hid] at k
  exact k

/-- **C207**, records with merges elsewhere (structured grids, `allow_merging = True`): a group of objects that shares no cell at consecutive steps with an
object outside it, and that reports no merge when tracked alone, has the same events in the whole record on a map whose rows or columns come in the opposite
order, whatever merges outside the group. Missing: groups with merges (`C207_merging_tie_fails`). -/
theorem C207_group_partial {ny nx : Nat} (cc : Labeller) (hcc : CorrectLabeller cc) (hord : NumbersInOrder cc) (hnx : 0 < nx) (rows cols : Bool)
    (p p' : GridRun ny nx) (hm : p.allowMerging = true) (hm' : p'.allowMerging = true) (hr : p'.regional = p.regional) (wrap nn nn' : Bool) (thr : ℚ)
    (cen cen' : Frame (ny * nx) → Nat → ℚ × ℚ) (hcen : OfCells cen) (hcen' : OfCells cen') (ht : p.track = gridCfg wrap nn ny nx thr cen)
    (ht' : p'.track = gridCfg wrap nn' ny nx thr cen') (chunks chunks' : List Nat) (pre part : List (Fin (ny * nx) → Bool))
    (hg : OwnGroup p.regional nx pre part) (hch : SameChunks chunks chunks' pre.length)
    (hnone : (trackGrid cc p.track (chunksOf chunks (identifyObjectsGrid cc false p.regional nx part))).objects.merges = [])
    (t : Nat) (i : Fin (ny * nx)) (hi : IsExtreme part t i) (u : Nat) (j : Fin (ny * nx)) :
    SameEvent (trackingGrid cc p chunks pre) t i u j ↔ SameEvent (trackingGrid cc p' chunks' (pre.map (renumber (mirror rows cols ny nx)))) t
      (mirror rows cols ny nx i) u (mirror rows cols ny nx j) :=
  group_groups cc hcc hord hnx (touch_mirror_iff rows cols ny nx p.regional) p p' hm hm' rfl hr wrap nn wrap nn' thr cen cen' hcen hcen' ht ht' chunks chunks'
    pre part hg hch hnone t i hi u j

/-- **C164**, records with merges elsewhere (the globe, `allow_merging = True`): a group of objects that shares no cell at consecutive steps with an object
outside it, and that reports no merge when tracked alone, has the same events in the whole record on a map that is cut elsewhere, whatever merges outside the
group. Missing: groups with merges (`C164_merging_tie_fails`), and the preprocessing (`C05_rotation_invariance_fails`, `C164_area_filter_fails`). -/
theorem C164_group_partial {ny nx : Nat} (cc : Labeller) (hcc : CorrectLabeller cc) (hord : NumbersInOrder cc) (hnx : 0 < nx) (p p' : GridRun ny nx)
    (hm : p.allowMerging = true) (hm' : p'.allowMerging = true) (hr : p.regional = false) (hr' : p'.regional = false) (wrap nn nn' : Bool) (thr : ℚ)
    (cen cen' : Frame (ny * nx) → Nat → ℚ × ℚ) (hcen : OfCells cen) (hcen' : OfCells cen') (ht : p.track = gridCfg wrap nn ny nx thr cen)
    (ht' : p'.track = gridCfg wrap nn' ny nx thr cen') (chunks chunks' : List Nat) (s : Nat) (pre pre' part : List (Fin (ny * nx) → Bool))
    (h : Turned hnx s pre pre') (hg : OwnGroup false nx pre part) (hch : SameChunks chunks chunks' pre.length)
    (hnone : (trackGrid cc p.track (chunksOf chunks (identifyObjectsGrid cc false p.regional nx part))).objects.merges = [])
    (t : Nat) (i : Fin (ny * nx)) (hi : IsExtreme part t i) (u : Nat) (j : Fin (ny * nx)) :
    SameEvent (trackingGrid cc p chunks pre) t i u j ↔ SameEvent (trackingGrid cc p' chunks' pre') t (turn hnx s i) u (turn hnx s j) := by
  rw [turned_eq hnx h]
  exact group_groups cc hcc hord hnx (touch_turned_iff hnx s) p p' hm hm' hr hr' wrap nn wrap nn' thr cen cen' hcen hcen' ht ht' chunks chunks' pre part hg hch
    hnone t i hi u j

/-- Cells 0 to 2, then cells 0 and 2: a split. Beside them cells 5 and 7, then cells 5 to 7: a merge. -/
def splitBeside : List (Fin (1 * 9) → Bool) :=
  [fun i => cellsFrom 0 2 i || decide (i.val = 5 ∨ i.val = 7), fun i => decide (i.val = 0 ∨ i.val = 2) || cellsFrom 5 7 i]

/-- The cells of the split. -/
def leftCells : Fin (1 * 9) → Bool := fun i => decide (i.val ≤ 3)

theorem splitBeside_group (regional : Bool) : OwnGroup regional 9 splitBeside (within leftCells splitBeside) := by
  refine ownGroup_within _ _ ?_
  intro f hf i j hij hi hj
  have hij := (touch_iff (by decide)).mpr hij
  have H : (splitBeside.all fun f => (List.finRange (1 * 9)).all fun i => (List.finRange (1 * 9)).all fun j =>
    !((near (i.val / 9) (j.val / 9) && (near (i.val % 9) (j.val % 9) ||
    (!regional && ((i.val % 9 == 0 && j.val % 9 == 9 - 1) || (i.val % 9 == 9 - 1 && j.val % 9 == 0))))) && f i && f j) ||
      leftCells i == leftCells j) = true := by cases regional <;> decide +kernel
  have := List.all_eq_true.mp (List.all_eq_true.mp (List.all_eq_true.mp H f hf) i (List.mem_finRange i)) j (List.mem_finRange j)
  rw [hij, hi, hj] at this
  simpa using this

-- the group of the split meets nothing else and has no merge; the whole record has one
example : (trackGrid quickFind (rowRun 9 true (1 / 3)).track (chunksOf [2] (identifyObjectsGrid quickFind false true 9 splitBeside))).objects.merges.length = 1 ∧
    ∀ u j, SameEvent (trackingGrid quickFind (rowRun 9 true (1 / 3)) [2] splitBeside) 0 0 u j ↔
      SameEvent (trackingGrid quickFind (rowRun 9 false (1 / 3)) [2] splitBeside) 0 0 u j :=
  ⟨by decide +kernel, fun u j => C192_group_partial quickFind quickFind_correct quickFind_inOrder (by decide) (rowRun 9 true (1 / 3)) rfl false true false (1 / 3)
    (rowCen 9) (rowCen_ofCells 9) rfl [2] [2] splitBeside _ (splitBeside_group true) (Or.inl rfl) (by decide +kernel) 0 0 ⟨_, rfl, by decide⟩ u j⟩

example : ∀ u j, SameEvent (trackingGrid quickFind (rowRun 9 true (1 / 3)) [2] splitBeside) 0 0 u j ↔
    SameEvent (trackingGrid quickFind (rowRun 9 false (1 / 3)) [2] (splitBeside.map (renumber (mirror false true 1 9)))) 0 8 u (mirror false true 1 9 j) :=
  fun u j => C207_group_partial quickFind quickFind_correct quickFind_inOrder (by decide) false true (rowRun 9 true (1 / 3)) (rowRun 9 false (1 / 3)) rfl rfl rfl
    false true false (1 / 3) (rowCen 9) (rowCen 9) (rowCen_ofCells 9) (rowCen_ofCells 9) rfl rfl [2] [2] splitBeside _ (splitBeside_group true) (Or.inl rfl)
    (by decide +kernel) 0 0 ⟨_, rfl, by decide⟩ u j

example : ∀ u j, SameEvent (trackingGrid quickFind { rowRun 9 true (1 / 3) with regional := false } [2] splitBeside) 0 0 u j ↔
    SameEvent (trackingGrid quickFind { rowRun 9 false (1 / 3) with regional := false } [2]
      (splitBeside.map (renumber (turned (ny := 1) (nx := 9) (by decide) 2)))) 0 (turn (by decide) 2 0) u (turn (by decide) 2 j) :=
  fun u j => C164_group_partial quickFind quickFind_correct quickFind_inOrder (by decide) { rowRun 9 true (1 / 3) with regional := false }
    { rowRun 9 false (1 / 3) with regional := false } rfl rfl rfl rfl false true false (1 / 3) (rowCen 9) (rowCen 9) (rowCen_ofCells 9) (rowCen_ofCells 9) rfl rfl
    [2] [2] 2 splitBeside _ _
    ⟨List.length_map _, fun t i => isExtreme_renumber (e := turned (ny := 1) (nx := 9) (by decide) 2) splitBeside t i⟩ (splitBeside_group false) (Or.inl rfl)
    (by decide +kernel) 0 0 ⟨_, rfl, by decide⟩ u j

/-! ### A merge at the end of a record -/

/-- Cells 0 and 1 for one step, then cell 1 alone; nothing; then cells 0 and 2, which merge, and what is left of them. -/
def lateMerge : List (Fin (1 * 3) → Bool) := [cellsFrom 0 1, cellsFrom 1 1, cellsFrom 3 3, fun i => i.val != 1, cellsFrom 0 2, cellsFrom 1 1]

/-- The merge is at step 4. -/
theorem lateMerge_times : (trackGrid quickFind (rowRun 3 true (1 / 3)).track
    (chunksOf [6] (identifyObjectsGrid quickFind false true 3 lateMerge))).objects.merges.map (·.time) = [4] := by decide +kernel

theorem lateMerge_late : ∀ r ∈ (trackGrid quickFind (rowRun 3 true (1 / 3)).track
    (chunksOf [6] (identifyObjectsGrid quickFind false (rowRun 3 true (1 / 3)).regional 3 lateMerge))).objects.merges, 4 ≤ r.time := by
  intro r hr
  have h : r.time ∈ (trackGrid quickFind (rowRun 3 true (1 / 3)).track
    (chunksOf [6] (identifyObjectsGrid quickFind false true 3 lateMerge))).objects.merges.map (·.time) := List.mem_map.mpr ⟨r, hr, rfl⟩
  rw [lateMerge_times, List.mem_singleton] at h
  omega

theorem lateMerge_over : ∀ u j, SameEvent (trackingGrid quickFind (rowRun 3 true (1 / 3)) [6] lateMerge) 0 0 u j → u + 1 < 4 := by
  have h : (match trackingGrid quickFind (rowRun 3 true (1 / 3)) [6] lateMerge with
    | [a, b, c, d, f, g] => decide (∀ j, a 0 ≠ d j ∧ a 0 ≠ f j ∧ a 0 ≠ g j)
    | _ => false) = true := by decide +kernel
  split at h
  · rename_i a b c d f g hr
    have k := of_decide_eq_true h
    rw [hr]
    rintro u j ⟨x, y, hx, hy, h0, he⟩
    cases hx
    match u, hy with
    | 0, _ => omega
    | 1, _ => omega
    | 2, _ => omega
    | 3, hy => cases hy; exact absurd he (k j).1
    | 4, hy => cases hy; exact absurd he (k j).2.1
    | 5, hy => cases hy; exact absurd he (k j).2.2
    | u + 6, hy => cases hy
  · cases h

-- the hypotheses are met: the event of cell 0 at step 0, which reaches cell 1 at step 1, is over before the merge at step 4
example : SameEvent (trackingGrid quickFind (rowRun 3 true (1 / 3)) [6] lateMerge) 0 0 1 1 ∧
    ∀ u j, SameEvent (trackingGrid quickFind (rowRun 3 true (1 / 3)) [6] lateMerge) 0 0 u j ↔
      SameEvent (trackingGrid quickFind (rowRun 3 false (1 / 3)) [2, 4] (lateMerge.map (renumber (mirror false true 1 3)))) 0 2 u (mirror false true 1 3 j) := by
  constructor
  · have h : (match trackingGrid quickFind (rowRun 3 true (1 / 3)) [6] lateMerge with
      | a :: b :: _ => decide (0 < a 0 ∧ a 0 = b 1) | _ => false) = true := by decide +kernel
    split at h
    · rename_i a b l hr
      have k := of_decide_eq_true h
      rw [hr]
      exact ⟨a, b, rfl, rfl, k⟩
    · cases h
  · intro u j
    exact C207_before_merges_partial quickFind quickFind_correct quickFind_inOrder (by decide) false true (rowRun 3 true (1 / 3)) (rowRun 3 false (1 / 3)) rfl rfl
      rfl false true false (1 / 3) (rowCen 3) (rowCen 3) (rowCen_ofCells 3) (rowCen_ofCells 3) rfl rfl [6] [2, 4] lateMerge
      ⟨rfl, by decide, by decide⟩ ⟨rfl, by decide, by decide⟩ 4 (by decide)
      lateMerge_late 0 0 (by decide) lateMerge_over u j

example : ∀ u j, SameEvent (trackingGrid quickFind (rowRun 3 true (1 / 3)) [6] lateMerge) 0 0 u j ↔
    SameEvent (trackingGrid quickFind (rowRun 3 false (1 / 3)) [2, 4] lateMerge) 0 0 u j := fun u j =>
  C192_before_merges_partial quickFind quickFind_correct quickFind_inOrder (by decide) (rowRun 3 true (1 / 3)) rfl false true false (1 / 3) (rowCen 3)
    (rowCen_ofCells 3) rfl [6] [2, 4] lateMerge ⟨rfl, by decide, by decide⟩ ⟨rfl, by decide, by decide⟩ 4 (by decide) lateMerge_late 0 0 (by decide)
    lateMerge_over u j

/-- The same on a globe of one row and six columns, where cells 5 and 0 touch. -/
def globeRun (nn : Bool) : GridRun 1 6 := { rowRun 6 nn (1 / 3) with regional := false, track := gridCfg true nn 1 6 (1 / 3) (rowCen 6) }

/-- Cells 5 and 0 for one step, then cell 5 alone; nothing; then cells 1 and 3, which merge, and what is left of them. -/
def globeMerge : List (Fin (1 * 6) → Bool) :=
  [fun i => decide (i.val = 0 ∨ i.val = 5), cellsFrom 5 5, cellsFrom 6 6, fun i => decide (i.val = 1 ∨ i.val = 3), cellsFrom 1 3, cellsFrom 2 2]

theorem globeMerge_times : (trackGrid quickFind (globeRun true).track
    (chunksOf [6] (identifyObjectsGrid quickFind false false 6 globeMerge))).objects.merges.map (·.time) = [4] := by decide +kernel

theorem globeMerge_over : ∀ u j, SameEvent (trackingGrid quickFind (globeRun true) [6] globeMerge) 0 0 u j → u + 1 < 4 := by
  have h : (match trackingGrid quickFind (globeRun true) [6] globeMerge with
    | [a, b, c, d, f, g] => decide (∀ j, a 0 ≠ d j ∧ a 0 ≠ f j ∧ a 0 ≠ g j)
    | _ => false) = true := by decide +kernel
  split at h
  · rename_i a b c d f g hr
    have k := of_decide_eq_true h
    rw [hr]
    rintro u j ⟨x, y, hx, hy, h0, he⟩
    cases hx
    match u, hy with
    | 0, _ => omega
    | 1, _ => omega
    | 2, _ => omega
    | 3, hy => cases hy; exact absurd he (k j).1
    | 4, hy => cases hy; exact absurd he (k j).2.1
    | 5, hy => cases hy; exact absurd he (k j).2.2
    | u + 6, hy => cases hy
  · cases h

example : ∀ u j, SameEvent (trackingGrid quickFind (globeRun true) [6] globeMerge) 0 0 u j ↔
    SameEvent (trackingGrid quickFind (globeRun false) [6] (globeMerge.map (renumber (turned (ny := 1) (nx := 6) (by decide) 2)))) 0
      (turn (by decide) 2 0) u (turn (by decide) 2 j) := fun u j =>
  C164_before_merges_partial quickFind quickFind_correct quickFind_inOrder (by decide) (globeRun true) (globeRun false) rfl rfl rfl rfl true true false (1 / 3)
    (rowCen 6) (rowCen 6) (rowCen_ofCells 6) (rowCen_ofCells 6) rfl rfl [6] [6] 2 globeMerge _
    ⟨List.length_map _, fun t i => isExtreme_renumber (e := turned (ny := 1) (nx := 6) (by decide) 2) globeMerge t i⟩ ⟨rfl, by decide, by decide⟩
    ⟨rfl, by decide, by decide⟩ 4 (by decide)
    (fun r hr => by
      have h : r.time ∈ (trackGrid quickFind (globeRun true).track
        (chunksOf [6] (identifyObjectsGrid quickFind false false 6 globeMerge))).objects.merges.map (·.time) := List.mem_map.mpr ⟨r, hr, rfl⟩
      rw [globeMerge_times, List.mem_singleton] at h
      omega) 0 0 (by decide) globeMerge_over u j

end MarEx.Props
