import Verif.Props.EmptySteps
import Verif.Props.Ledger
/-! The table of the events of a record with steps without extremes before and after it (C190). -/
namespace MarEx.Props
open MarEx MarEx.Spec

variable {n : Nat}

theorem zip_around {α β : Type} (z : α) (y : β) (a b : Nat) (l : List α) (m : List β) (h : l.length = m.length) :
    (around z a b l).zip (around y a b m) = around (z, y) a b (l.zip m) := by
  unfold around
  rw [List.zip_append (by simp [h]), List.zip_append (by simp)]
  simp [List.zip_replicate']

theorem globalId_noEvents (e : Nat) : globalId (noEvents : Frame n) noEvents e = 0 := by
  unfold globalId
  have : (List.finRange n).filter (fun i => decide (0 < (noEvents : Frame n) i)) = [] := by
    rw [List.filter_eq_nil_iff]
    intro i _
    simp [noEvents]
  rw [this]
  rfl

theorem presenceOf_around (a b : Nat) (fs nf : List (Frame n)) (h : fs.length = nf.length) (e : Nat) :
    presenceOf (around noEvents a b fs) (around noEvents a b nf) e = around false a b (presenceOf fs nf e) := by
  unfold presenceOf
  rw [zip_around _ _ _ _ _ _ h, map_around]
  dsimp only
  rw [globalId_noEvents]
  rfl

theorem idxOf_around (a b : Nat) (l : List Bool) (h : true ∈ l) : (around false a b l).idxOf true = a + l.idxOf true := by
  unfold around
  rw [List.append_assoc, List.idxOf_append_of_notMem (by simp [List.mem_replicate]), List.length_replicate, List.idxOf_append_of_mem h]

theorem argmaxBool_around (a b : Nat) (l : List Bool) (h : true ∈ l) : argmaxBool (around false a b l) = a + argmaxBool l := by
  unfold argmaxBool
  rw [if_pos (by simp [around, h]), if_pos (by simpa using h), idxOf_around a b l h]

theorem reverse_around {α : Type} (z : α) (a b : Nat) (l : List α) : (around z a b l).reverse = around z b a l.reverse := by
  unfold around
  simp [List.reverse_append, List.reverse_replicate, List.append_assoc]

/-- The first and last step of an event are later by the number of empty steps in front. -/
theorem times_around (a b : Nat) (l : List Bool) (h : true ∈ l) :
    timeStartIdx (around false a b l) = timeStartIdx l + a ∧ timeEndIdx (around false a b l) = timeEndIdx l + a := by
  have h2 := argmaxBool_around b a l.reverse (by simpa using h)
  have h3 : argmaxBool l.reverse < l.length := by
    unfold argmaxBool
    rw [if_pos (by simpa using h)]
    have := List.idxOf_lt_length_of_mem (List.mem_reverse.2 h)
    simpa using this
  unfold timeStartIdx timeEndIdx
  rw [argmaxBool_around a b l h, reverse_around, h2, length_around]
  omega

theorem ledgerAt_later (ev : Nat → Nat) (recs : List MergeRec) (a t : Nat) :
    ledgerAt ev (recs.map fun m => { m with time := m.time + a }) (t + a) = ledgerAt ev recs t := by
  unfold ledgerAt
  rw [List.filter_map, List.map_map]
  congr 1
  have : ((fun r : MergeRec => r.time == t + a) ∘ fun m : MergeRec => { m with time := m.time + a }) = fun r => r.time == t := by
    funext m
    by_cases hm : m.time = t <;> simp [hm]
  rw [this]
  rfl

theorem ledgerAt_none (ev : Nat → Nat) (recs : List MergeRec) (t : Nat) (h : ∀ r ∈ recs, r.time ≠ t) (slot e : Nat) : ledgerAt ev recs t slot e = -1 := by
  unfold ledgerAt
  have : recs.filter (fun r => r.time == t) = [] := by
    rw [List.filter_eq_nil_iff]
    intro r hr
    simpa using h r hr
  rw [this]
  rfl

/-- **C190**, the table of the events, merging: the record of the objects with `a` empty steps before it and `b` after it, both cut into time chunks of at least
two steps. Every event is present at the same steps of the record and at no new step, its first and last step are `a` later, and its ledger has the same
entries, `a` steps later, and -1 at the new steps. Missing: chunks of one step (`C190_one_step_chunk_fails`). -/
theorem C190_table_partial (cc : Labeller) (wrap nn : Bool) (ny nx : Nat) (thr : ℚ) (cen : Frame n → Nat → ℚ × ℚ) (a b : Nat)
    (chunks chunks' : List (List (Frame n))) (hu : TimeUnique chunks.flatten) (h : ChunksOfTwo chunks) (h' : ChunksOfTwo chunks') (hne : chunks.flatten ≠ [])
    (hsame : chunks'.flatten = around noEvents a b chunks.flatten) :
    let r := trackGrid cc (gridCfg wrap nn ny nx thr cen) chunks
    let r' := trackGrid cc (gridCfg wrap nn ny nx thr cen) chunks'
    ∀ e, presenceOf r'.objects.field r'.idField e = around false a b (presenceOf r.objects.field r.idField e) ∧
      (true ∈ presenceOf r.objects.field r.idField e →
        timeStartIdx (presenceOf r'.objects.field r'.idField e) = timeStartIdx (presenceOf r.objects.field r.idField e) + a ∧
        timeEndIdx (presenceOf r'.objects.field r'.idField e) = timeEndIdx (presenceOf r.objects.field r.idField e) + a) ∧
      (∀ t slot, ledgerOf cc r' (t + a) slot e = ledgerOf cc r t slot e) ∧
      (∀ t slot, t < a ∨ a + chunks.flatten.length ≤ t → ledgerOf cc r' t slot e = -1) := by
  intro r r' e
  obtain ⟨e1, -, -, e4, e5⟩ := C190_objects_partial cc (gridCfg wrap nn ny nx thr cen) a b chunks chunks' h h' hne hsame
  have hp : chunks'.flatten.flatMap (calcProps (gridCfg wrap nn ny nx thr cen)) = chunks.flatten.flatMap (calcProps (gridCfg wrap nn ny nx thr cen)) := by
    rw [hsame]; exact flatMap_around _ _ (by rw [calcProps, idsOf_noEvents]; rfl) a b _
  have e0 : r'.objects.field = around noEvents a b r.objects.field := by
    have := (splitAndMerge_around (gridCfg wrap nn ny nx thr cen) a b chunks chunks'
      (chunks.flatten.flatMap (calcProps (gridCfg wrap nn ny nx thr cen))) h h' hne hsame).1
    change (splitAndMerge _ chunks' _).field = around noEvents a b (splitAndMerge _ chunks _).field
    rw [hp]
    exact this
  have hlen : r.objects.field.length = r.idField.length := by
    change _ = (renameField cc r.objects.field _).length
    simp [renameField]
  have q1 : presenceOf r'.objects.field r'.idField e = around false a b (presenceOf r.objects.field r.idField e) := by
    rw [e0]
    change presenceOf _ (trackGrid cc _ chunks').idField e = _
    rw [e1]
    exact presenceOf_around a b _ _ hlen e
  have hev : eventOf cc r'.objects.field (r'.objects.links.map fun o => (o.a, o.b)) = eventOf cc r.objects.field (r.objects.links.map fun o => (o.a, o.b)) := by
    funext k
    change eventOf cc _ ((trackGrid cc _ chunks').objects.links.map _) k = _
    rw [e0, e4]
    unfold eventOf allValidIds
    rw [fieldIds_around]
  have hm : r'.objects.merges = r.objects.merges.map fun m => { m with time := m.time + a } := e5
  refine ⟨q1, fun hpres => by rw [q1]; exact times_around a b _ hpres, ?_, ?_⟩
  · intro t slot
    unfold ledgerOf
    rw [hev, hm, ledgerAt_later]
  · intro t slot ht
    unfold ledgerOf
    rw [hm]
    apply ledgerAt_none
    intro m' hm'
    obtain ⟨m, hmm, rfl⟩ := List.mem_map.1 hm'
    obtain ⟨u, _, g, _, _, k1, _, k3, _⟩ :=
      C27_merge_records wrap nn ny nx thr cen chunks _ hu (tableExact_calcProps (gridCfg wrap nn ny nx thr cen) _ hu) m hmm
    have hl : u + 1 < chunks.flatten.length := by
      have := (List.getElem?_eq_some_iff.1 k3).1
      rw [(C21_split_merge_keeps_support wrap nn ny nx thr cen chunks _ hu (tableExact_calcProps (gridCfg wrap nn ny nx thr cen) _ hu)).1] at this
      exact this
    dsimp only
    omega

/-- **C190**, the table of the events of a whole run with `allow_merging = True`: with `a` steps without extremes before the
preprocessed field and `b` after it (that the padded data give this field is `C190_empty_steps_partial`). Missing: chunks of one step
(`C190_one_step_chunk_fails`). -/
theorem C190_run_table_partial {ny nx : Nat} (cc : Labeller) (hcc : CorrectLabeller cc) (hnx : 0 < nx) (p : GridRun ny nx) (wrap nn : Bool) (thr : ℚ)
    (cen : Frame (ny * nx) → Nat → ℚ × ℚ) (ht : p.track = gridCfg wrap nn ny nx thr cen) (a b : Nat) (chunks chunks' : List Nat)
    (pre : List (Fin (ny * nx) → Bool)) (hne : pre ≠ []) (hc : ChunkLengths chunks pre.length) (hc' : ChunkLengths chunks' (a + pre.length + b)) :
    let r := trackGrid cc p.track (chunksOf chunks (identifyObjectsGrid cc false p.regional nx pre))
    let r' := trackGrid cc p.track (chunksOf chunks' (identifyObjectsGrid cc false p.regional nx (around noExtremes a b pre)))
    ∀ e, presenceOf r'.objects.field r'.idField e = around false a b (presenceOf r.objects.field r.idField e) ∧
      (true ∈ presenceOf r.objects.field r.idField e →
        timeStartIdx (presenceOf r'.objects.field r'.idField e) = timeStartIdx (presenceOf r.objects.field r.idField e) + a ∧
        timeEndIdx (presenceOf r'.objects.field r'.idField e) = timeEndIdx (presenceOf r.objects.field r.idField e) + a) ∧
      (∀ t slot, ledgerOf cc r' (t + a) slot e = ledgerOf cc r t slot e) ∧
      (∀ t slot, t < a ∨ a + pre.length ≤ t → ledgerOf cc r' t slot e = -1) := by
  have hl : (identifyObjectsGrid cc false p.regional nx pre).length = pre.length := by simp [identifyObjectsGrid]
  rw [ht, identifyObjectsGrid_around]
  have key := C190_table_partial cc wrap nn ny nx thr cen a b (chunksOf chunks (identifyObjectsGrid cc false p.regional nx pre))
    (chunksOf chunks' (around noEvents a b (identifyObjectsGrid cc false p.regional nx pre)))
    (by rw [flatten_chunksOf]; exact (C63_grid_ids_unique cc hcc p.regional nx hnx pre).1)
    (chunksOf_two (by rw [hl]; exact hc)) (chunksOf_two (by rw [length_around, hl]; exact hc'))
    (by rw [flatten_chunksOf, ← List.length_pos_iff, hl, List.length_pos_iff]; exact hne) (by rw [flatten_chunksOf, flatten_chunksOf])
  rw [flatten_chunksOf, hl] at key
  exact key

-- the hypotheses are met: two events that merge at step 3 of six, with one empty step in front and two behind
example : (let r := trackGrid quickFind (rowRun 3 true (1 / 3)).track (chunksOf [2, 4] (identifyObjectsGrid quickFind false true 3 pastMerge))
    let r' := trackGrid quickFind (rowRun 3 true (1 / 3)).track (chunksOf [3, 6] (identifyObjectsGrid quickFind false true 3 (around noExtremes 1 2 pastMerge)))
    decide (ledgerOf quickFind r 3 0 2 = 2 ∧ ledgerOf quickFind r' 4 0 2 = 2 ∧ ledgerOf quickFind r' 3 0 2 = -1 ∧
      r.idField.any (fun g => decide (∃ i, g i = 2)) = true) = true) ∧
    ChunkLengths [2, 4] pastMerge.length ∧ ChunkLengths [3, 6] (1 + pastMerge.length + 2) ∧ pastMerge ≠ [] :=
  ⟨by decide +kernel, ⟨rfl, by decide, by decide⟩, ⟨rfl, by decide, by decide⟩, by simp [pastMerge]⟩

end MarEx.Props
