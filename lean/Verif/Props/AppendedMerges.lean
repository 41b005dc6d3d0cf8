import Verif.Props.Appended
/-! C214: the merges reported for the first steps of a record do not depend on what follows (structured grids). C204: nor do the merges of a group of objects
that never meets the rest depend on the rest. -/
namespace MarEx.Props
open MarEx MarEx.Spec

variable {n : Nat}

theorem sameCellsUntil_join {L : Nat} {F F' G : List (Frame n)} {a b k : Nat} (h : SameCellsUntil L F G a k) (h' : SameCellsUntil L F' G b k) :
    SameCellsUntil L F F' a b := fun t ht i => (h t ht i).trans (h' t ht i).symm

theorem forall₂_join {α β γ : Type} {R : α → γ → Prop} {S : β → γ → Prop} {T : α → β → Prop} (h : ∀ a b c, R a c → S b c → T a b) :
    ∀ {l : List α} {m : List β} {k : List γ}, List.Forall₂ R l k → List.Forall₂ S m k → List.Forall₂ T l m
  | _, _, _, .nil, .nil => .nil
  | _, _, _, .cons h1 h2, .cons k1 k2 => .cons (h _ _ _ h1 k1) (forall₂_join h h2 k2)

theorem sameMerge_join {L : Nat} {F F' G : List (Frame n)} {q q' r : MergeRec} (h : SameMerge L F G q r) (h' : SameMerge L F' G q' r) :
    SameMerge L F F' q q' :=
  ⟨h.1.trans h'.1.symm, h.2.1.trans h'.2.1.symm, forall₂_join (fun _ _ _ => sameCellsUntil_join) h.2.2.1 h'.2.2.1,
    forall₂_join (fun _ _ _ => sameCellsUntil_join) h.2.2.2 h'.2.2.2⟩

/-- **C214**: structured grids, `allow_merging = True`. Two preprocessed fields agree on their first `L` steps. The merges the two runs report at these steps
are the same, one by one and in the same order: the same step, the same overlap areas, and parents and children that have the same cells in the object fields of
the two runs at these steps — whatever comes later in either record, for every two chunkings into chunks of at least two steps (the first may be shorter),
overlap threshold and either partition method. Missing: chunks of one step (`C214_one_step_chunk_fails`). -/
theorem C214_reported_partial {ny nx : Nat} (cc : Labeller) (hcc : CorrectLabeller cc) (hord : NumbersInOrder cc) (hnx : 0 < nx) (p : GridRun ny nx)
    (wrap nn : Bool) (thr : ℚ) (cen : Frame (ny * nx) → Nat → ℚ × ℚ) (hcen : OfCells cen) (ht : p.track = gridCfg wrap nn ny nx thr cen)
    (pre pre' : List (Fin (ny * nx) → Bool)) (chunks chunks' : List Nat) (hch : ChunkLengths chunks pre.length) (hch' : ChunkLengths chunks' pre'.length)
    (L : Nat) (hL : L ≤ pre.length) (hsame : pre.take L = pre'.take L) :
    let r := (trackGrid cc p.track (chunksOf chunks (identifyObjectsGrid cc false p.regional nx pre))).objects
    let r' := (trackGrid cc p.track (chunksOf chunks' (identifyObjectsGrid cc false p.regional nx pre'))).objects
    List.Forall₂ (SameMerge L r.field r'.field) (r.merges.filter fun q => decide (q.time < L)) (r'.merges.filter fun q => decide (q.time < L)) := by
  intro r r'
  rcases Nat.eq_zero_or_pos L with rfl | hL0
  · simp
  have hll : (pre.take L).length = L := by rw [List.length_take]; omega
  have hne : pre.take L ≠ [] := by intro e; rw [e, List.length_nil] at hll; omega
  have e1 : pre = pre.take L ++ pre.drop L := (List.take_append_drop L pre).symm
  have e2 : pre' = pre.take L ++ pre'.drop L := by rw [hsame]; exact (List.take_append_drop L pre').symm
  obtain ⟨-, -, -, b1⟩ := begins_tracked cc hcc hord hnx p.regional wrap nn thr cen hcen chunks (pre.take L) (pre.drop L) hne (by rw [← e1]; exact hch)
  obtain ⟨-, -, -, b2⟩ := begins_tracked cc hcc hord hnx p.regional wrap nn thr cen hcen chunks' (pre.take L) (pre'.drop L) hne (by rw [← e2]; exact hch')
  rw [← e1, hll, ← ht] at b1
  rw [← e2, hll, ← ht] at b2
  exact forall₂_join (fun _ _ _ => sameMerge_join) b1 b2

theorem forall₂_columns {L : Nat} {F F' : List (Frame n)} {l l' : List MergeRec} (h : List.Forall₂ (SameMerge L F F') l l') :
    l.map (fun q => (q.time, q.parents.length, q.children.length, q.areas)) = l'.map fun q => (q.time, q.parents.length, q.children.length, q.areas) := by
  induction h with
  | nil => rfl
  | cons h1 _ ih =>
    obtain ⟨a, b, c, d⟩ := h1
    simp only [List.map_cons, ih, a, b, c.length_eq, d.length_eq]

/-- **C214**, the columns of the table of merges that need no field: steps, numbers of parents and children, and overlap areas of the merges at the first `L`
steps are the same two lists. Missing: chunks of one step (`C214_one_step_chunk_fails`). -/
theorem C214_columns_partial {ny nx : Nat} (cc : Labeller) (hcc : CorrectLabeller cc) (hord : NumbersInOrder cc) (hnx : 0 < nx) (p : GridRun ny nx)
    (wrap nn : Bool) (thr : ℚ) (cen : Frame (ny * nx) → Nat → ℚ × ℚ) (hcen : OfCells cen) (ht : p.track = gridCfg wrap nn ny nx thr cen)
    (pre pre' : List (Fin (ny * nx) → Bool)) (chunks chunks' : List Nat) (hch : ChunkLengths chunks pre.length) (hch' : ChunkLengths chunks' pre'.length)
    (L : Nat) (hL : L ≤ pre.length) (hsame : pre.take L = pre'.take L) :
    ((trackGrid cc p.track (chunksOf chunks (identifyObjectsGrid cc false p.regional nx pre))).objects.merges.filter fun q => decide (q.time < L)).map
      (fun q => (q.time, q.parents.length, q.children.length, q.areas)) =
    ((trackGrid cc p.track (chunksOf chunks' (identifyObjectsGrid cc false p.regional nx pre'))).objects.merges.filter fun q => decide (q.time < L)).map
      fun q => (q.time, q.parents.length, q.children.length, q.areas) :=
  forall₂_columns (C214_reported_partial cc hcc hord hnx p wrap nn thr cen hcen ht pre pre' chunks chunks' hch hch' L hL hsame)

/-- **C214** for whole runs, absolute area criterion, even `T_fill`: two records that agree on their first `M` steps. The merges of the two runs at the steps
before `M - T_fill` are the same. Missing: chunks of one step (`C214_one_step_chunk_fails`), and the quartile criterion (`C206_quartile_fails`). -/
theorem C214_run_partial {ny nx : Nat} (cc : Labeller) (hcc : CorrectLabeller cc) (hord : NumbersInOrder cc) (hnx : 0 < nx) (p : GridRun ny nx)
    (hT : p.T % 2 = 0) (a : ℚ) (hc : p.criterion = .absolute a) (wrap nn : Bool) (thr : ℚ) (cen : Frame (ny * nx) → Nat → ℚ × ℚ)
    (hcen : OfCells cen) (ht : p.track = gridCfg wrap nn ny nx thr cen) (data data' : List (Fin (ny * nx) → Bool)) (chunks chunks' : List Nat)
    (hch : ChunkLengths chunks data.length) (hch' : ChunkLengths chunks' data'.length) (M : Nat) (hM : M ≤ data.length) (hsame : data.take M = data'.take M)
    (pre pre' : List (Fin (ny * nx) → Bool)) (ids ids' : List (Frame (ny * nx))) (hr : runGrid cc p chunks data = .ok (pre, ids))
    (hr' : runGrid cc p chunks' data' = .ok (pre', ids')) :
    let r := (trackGrid cc p.track (chunksOf chunks (identifyObjectsGrid cc false p.regional nx pre))).objects
    let r' := (trackGrid cc p.track (chunksOf chunks' (identifyObjectsGrid cc false p.regional nx pre'))).objects
    List.Forall₂ (SameMerge (M - p.T) r.field r'.field) (r.merges.filter fun q => decide (q.time < M - p.T))
      (r'.merges.filter fun q => decide (q.time < M - p.T)) := by
  obtain ⟨r, q1, rfl, rfl⟩ := runGrid_ok hr
  obtain ⟨r', q1', rfl, rfl⟩ := runGrid_ok hr'
  obtain ⟨k1, k2, k3⟩ := preprocessGrid_prefix cc hcc hord hnx p hT a hc data data' M hM hsame r r' q1 q1'
  exact C214_reported_partial cc hcc hord hnx p wrap nn thr cen hcen ht r.field r'.field chunks chunks' (by rw [k2]; exact hch) (by rw [k3]; exact hch')
    (M - p.T) (by omega) k1

/-- Cells 0–3, then 0–1 and 3, then 0–3 again, then nothing. -/
def shedAndBack : List (Fin (1 * 6) → Bool) := [cellsFrom 0 3, fun i => decide (i.val ≤ 1 ∨ i.val = 3), cellsFrom 0 3, noExtremes]

/-- **C214** negative: with chunks of one step the reported merges depend on the chunks: cells 0–1 and 3 of step 1, which follow one object of step 0, are one
object when step 1 shares its chunk with step 0, and nothing merges at step 2; alone they are two objects, and they merge. -/
theorem C214_one_step_chunk_fails :
    (trackGrid quickFind (rowRun 6 true (1 / 2)).track (chunksOf [4] (identifyObjectsGrid quickFind false true 6 shedAndBack))).objects.merges.map (·.time) = [] ∧
    (trackGrid quickFind (rowRun 6 true (1 / 2)).track
      (chunksOf [1, 1, 1, 1] (identifyObjectsGrid quickFind false true 6 shedAndBack))).objects.merges.map (·.time) = [2] := by
  constructor <;> decide +kernel

-- the hypotheses are met: cells 0 and 2 merge at step 3; three more steps with another merge, and other chunks, change nothing before step 6
example : (trackGrid quickFind (rowRun 3 true (1 / 3)).track (chunksOf [2, 4] (identifyObjectsGrid quickFind false true 3 pastMerge))).objects.merges.map
      (fun q => (q.time, q.parents.length, q.areas)) = [(3, 2, [1, 1])] ∧
    (trackGrid quickFind (rowRun 3 true (1 / 3)).track (chunksOf [1, 2, 3, 3]
      (identifyObjectsGrid quickFind false true 3 (pastMerge ++ [fun i => i.val != 1, cellsFrom 0 2, cellsFrom 2 2])))).objects.merges.map
      (fun q => (q.time, q.parents.length, q.areas)) = [(3, 2, [1, 1]), (7, 2, [1, 1])] ∧
    List.Forall₂ (SameMerge 6
        (trackGrid quickFind (rowRun 3 true (1 / 3)).track (chunksOf [2, 4] (identifyObjectsGrid quickFind false true 3 pastMerge))).objects.field
        (trackGrid quickFind (rowRun 3 true (1 / 3)).track (chunksOf [1, 2, 3, 3]
          (identifyObjectsGrid quickFind false true 3 (pastMerge ++ [fun i => i.val != 1, cellsFrom 0 2, cellsFrom 2 2])))).objects.field)
      ((trackGrid quickFind (rowRun 3 true (1 / 3)).track
        (chunksOf [2, 4] (identifyObjectsGrid quickFind false true 3 pastMerge))).objects.merges.filter fun q => decide (q.time < 6))
      ((trackGrid quickFind (rowRun 3 true (1 / 3)).track (chunksOf [1, 2, 3, 3]
        (identifyObjectsGrid quickFind false true 3 (pastMerge ++ [fun i => i.val != 1, cellsFrom 0 2, cellsFrom 2 2])))).objects.merges.filter
          fun q => decide (q.time < 6)) :=
  ⟨by decide +kernel, by decide +kernel, C214_reported_partial quickFind quickFind_correct quickFind_inOrder (by decide) (rowRun 3 true (1 / 3)) false true (1 / 3)
    (rowCen 3) (rowCen_ofCells 3) rfl pastMerge _ [2, 4] [1, 2, 3, 3] ⟨rfl, by decide, by decide⟩ ⟨rfl, by decide, by decide⟩ 6 (by decide) rfl⟩

/-- **C204**, the reported merges (structured grids, `allow_merging = True`): the merges reported when the group is tracked alone are, one by one and in the same
order, those merges of the whole record of which some parent has a cell in the group: the same step, the same overlap areas, parents and children with the same
cells. All cells of these parents and children are in the group. For every chunking. -/
theorem C204_merges {ny nx : Nat} (cc : Labeller) (hcc : CorrectLabeller cc) (hord : NumbersInOrder cc) (hnx : 0 < nx) (p : GridRun ny nx)
    (wrap nn : Bool) (thr : ℚ) (cen : Frame (ny * nx) → Nat → ℚ × ℚ) (hcen : OfCells cen) (ht : p.track = gridCfg wrap nn ny nx thr cen) (chunks : List Nat)
    (whole part : List (Fin (ny * nx) → Bool)) (h : OwnGroup p.regional nx whole part) :
    let r := (trackGrid cc p.track (chunksOf chunks (identifyObjectsGrid cc false p.regional nx whole))).objects
    let r' := (trackGrid cc p.track (chunksOf chunks (identifyObjectsGrid cc false p.regional nx part))).objects
    ∃ own : MergeRec → Bool,
      (∀ q ∈ r.merges, own q = true ↔ ∃ k ∈ q.parents, ∃ (t : Nat) (f : Frame (ny * nx)) (i : Fin (ny * nx)), r.field[t]? = some f ∧ f i = k ∧ IsExtreme part t i) ∧
      (∀ q ∈ r.merges, own q = true → ∀ k ∈ q.children ++ q.parents, ∀ (t : Nat) (f : Frame (ny * nx)) (i : Fin (ny * nx)), r.field[t]? = some f → f i = k →
        IsExtreme part t i) ∧
      List.Forall₂ (SameMerge whole.length r.field r'.field) (r.merges.filter own) r'.merges := by
  intro r r'
  obtain ⟨ρ, key, hne⟩ := group_tracked cc hcc hord hnx p wrap nn thr cen hcen chunks whole part h
  obtain ⟨ρ₁, h1, h2, h3, h4, h5, h6⟩ := key.recs
  rw [← ht] at h1 h2 h3 h5 h6
  change r'.merges = cutRecs ρ₁ r.merges at h1
  change r'.field = r.field.map (cutFrame ρ₁) at h2
  change r.field.length = _ at h3
  rw [length_identify] at h3
  have hu : TimeUnique (chunksOf chunks (identifyObjectsGrid cc false p.regional nx whole)).flatten := by
    rw [flatten_chunksOf]
    exact (C63_grid_ids_unique cc hcc p.regional nx hnx whole).1
  have hin : ∀ (t : Nat) (f : Frame (ny * nx)), r.field[t]? = some f → ∀ i, ρ₁ (f i) ≠ 0 ↔ IsExtreme part t i := by
    intro t f hf i
    have hl : t < (identifyObjectsGrid cc false p.regional nx whole).length := by
      rw [length_identify, ← h3]
      exact (List.getElem?_eq_some_iff.1 hf).1
    rw [h6 t _ f (List.getElem?_eq_getElem hl) hf i, hne t _ (List.getElem?_eq_getElem hl) i]
  have hcells : ∀ k, ρ₁ k ≠ 0 → SameCellsUntil whole.length r.field r'.field k (ρ₁ k) := by
    intro k hk t ht i
    have hg := List.getElem?_eq_getElem (show t < r.field.length by omega)
    rw [h2, List.getElem?_map, hg]
    simp only [Option.map_some, Option.some.injEq, exists_eq_left']
    exact ⟨fun e => congrArg ρ₁ e, fun e => h4 _ _ hk e⟩
  have hlist : ∀ l : List Nat, (∀ k ∈ l, ρ₁ k ≠ 0) → List.Forall₂ (SameCellsUntil whole.length r.field r'.field) l (l.map ρ₁) := by
    intro l hl
    rw [List.forall₂_map_right_iff, List.forall₂_same]
    exact fun k hk => hcells k (hl k hk)
  refine ⟨fun q => decide (ρ₁ (q.children.headD 0) ≠ 0), fun q hq => ?_, fun q hq ho k hk t f i hf hi => ?_, ?_⟩
  · rw [decide_eq_true_eq]
    constructor
    · intro ho
      obtain ⟨t, f, _, g, child, e1, e2, _, _, e5, _, _, _, _, _, e11, _⟩ :=
        C27_merge_records wrap nn ny nx thr cen _ _ hu (tableExact_calcProps (gridCfg wrap nn ny nx thr cen) _ hu) q (by rw [← ht]; exact hq)
      obtain ⟨k, hk⟩ := List.exists_mem_of_length_pos (lt_of_lt_of_le Nat.zero_lt_two e5)
      obtain ⟨_, i, hi, _⟩ := e11 k hk
      rw [← ht] at e2
      refine ⟨k, hk, t, f, i, e2, hi, (hin t f e2 i).1 ?_⟩
      rw [hi, Ne, h5 q hq k (List.mem_append_right _ hk)]
      exact ho
    · rintro ⟨k, hk, t, f, i, hf, hi, he⟩
      rw [Ne, ← h5 q hq k (List.mem_append_right _ hk), ← hi]
      exact (hin t f hf i).2 he
  · rw [decide_eq_true_eq] at ho
    refine (hin t f hf i).1 ?_
    rw [hi, Ne, h5 q hq k hk]
    exact ho
  · rw [h1, cutRecs_eq, List.forall₂_map_right_iff, List.forall₂_same]
    intro q hq
    rw [List.mem_filter, decide_eq_true_eq] at hq
    have hall : ∀ k ∈ q.children ++ q.parents, ρ₁ k ≠ 0 := fun k hk => by rw [Ne, h5 q hq.1 k hk]; exact hq.2
    exact ⟨rfl, rfl, hlist _ fun k hk => hall k (List.mem_append_right _ hk), hlist _ fun k hk => hall k (List.mem_append_left _ hk)⟩

/-- Cells 0 and 2, then cells 0 to 2; beside them cells 5 and 7, then cells 5 to 7: two merges. -/
def mergesBeside : List (Fin (1 * 9) → Bool) := [fun i => decide (i.val = 0 ∨ i.val = 2 ∨ i.val = 5 ∨ i.val = 7), fun i => cellsFrom 0 2 i || cellsFrom 5 7 i]

/-- The cells of the second. -/
def secondMerge : Fin (1 * 9) → Bool := fun i => decide (4 ≤ i.val)

theorem mergesBeside_group (regional : Bool) (hr : regional = true) : OwnGroup regional 9 mergesBeside (within secondMerge mergesBeside) := by
  refine ownGroup_within _ _ ?_
  intro f hf i j hij hi hj
  have hij := (touch_iff (by decide)).mpr hij
  have H : (mergesBeside.all fun f => (List.finRange (1 * 9)).all fun i => (List.finRange (1 * 9)).all fun j =>
    !((near (i.val / 9) (j.val / 9) && (near (i.val % 9) (j.val % 9) ||
    (!regional && ((i.val % 9 == 0 && j.val % 9 == 9 - 1) || (i.val % 9 == 9 - 1 && j.val % 9 == 0))))) && f i && f j) ||
      secondMerge i == secondMerge j) = true := by subst hr; decide +kernel
  have := List.all_eq_true.mp (List.all_eq_true.mp (List.all_eq_true.mp H f hf) i (List.mem_finRange i)) j (List.mem_finRange j)
  rw [hij, hi, hj] at this
  simpa using this

-- the hypotheses are met: two merges in the whole record, one of them in the group
example : OwnGroup true 9 mergesBeside (within secondMerge mergesBeside) ∧
    (trackGrid quickFind (rowRun 9 true (1 / 3)).track (chunksOf [2] (identifyObjectsGrid quickFind false true 9 mergesBeside))).objects.merges.map
      (fun q => (q.time, q.parents)) = [(1, [1, 2]), (1, [3, 4])] ∧
    (trackGrid quickFind (rowRun 9 true (1 / 3)).track (chunksOf [2] (identifyObjectsGrid quickFind false true 9 (within secondMerge mergesBeside)))).objects.merges.map
      (fun q => (q.time, q.parents)) = [(1, [1, 2])] :=
  ⟨mergesBeside_group true rfl, by decide +kernel, by decide +kernel⟩

end MarEx.Props
