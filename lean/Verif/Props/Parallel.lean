import Verif.Lemmas.Parallel
import Verif.Props.Rename
/-! Properties of the parallel split-and-merge on meshes: C20, C21, C27, C28, C51, C59, C60. -/
namespace MarEx.Props
open MarEx MarEx.Spec

variable {n : Nat}

theorem parInit_ok (c : MeshCfg n) (fs : List (Frame n)) (props : List Obj) (ht : TableExact c.w fs props) : ParOK (parInit c fs props) := by
  have hlt : ∀ f ∈ fs, ∀ i, f i < firstNewId props := by
    intro f hf i
    by_cases h0 : f i = 0
    · rw [h0]; unfold firstNewId; omega
    · exact lt_firstNewId ((ht.ids (f i)).mpr ⟨by omega, f, hf, i, rfl⟩)
  refine ⟨by unfold parInit firstNewId; dsimp only; omega, hlt, ?_⟩
  intro k hk
  unfold parInit repeated at hk
  dsimp only at hk
  rw [List.mem_filter, mem_npUnique, List.mem_map] at hk
  obtain ⟨⟨o, ho, rfl⟩, _⟩ := hk
  have := (pairsInField_links c.w c.thr props fs (o.a, o.b) (List.mem_map.mpr ⟨o, ho, rfl⟩)).2
  obtain ⟨h0, f, hf, i, hi⟩ := mem_fieldIds.mp this
  exact ⟨h0, by have := hlt f hf i; unfold parInit; dsimp only at hi ⊢; omega⟩

/-- One iteration of the main loop. -/
def Iterates (c : MeshCfg n) (s s' : ParState n) : Prop := s.merging ≠ [] ∧ parIteration c s = .ok s'

/-- Any number of iterations. -/
inductive Reaches (c : MeshCfg n) : ParState n → ParState n → Prop
  | refl (s : ParState n) : Reaches c s s
  | step {s s' s'' : ParState n} : Iterates c s s' → Reaches c s' s'' → Reaches c s s''

theorem parLoop_reaches {c : MeshCfg n} (fuel : Nat) {s r : ParState n} (h : parLoop c fuel s = .ok r) : Reaches c s r ∧ r.merging = [] := by
  induction fuel generalizing s with
  | zero => rw [parLoop] at h; cases h
  | succ fuel ih =>
    rw [parLoop] at h
    split at h
    · rename_i he
      cases h
      exact ⟨.refl _, by simpa using he⟩
    · rename_i he
      split at h
      · cases h
      · rename_i s1 h1
        exact ⟨.step ⟨by simpa using he, h1⟩ (ih h).1, (ih h).2⟩

/-- An invariant kept by every iteration holds at the end. -/
theorem Reaches.keeps {c : MeshCfg n} (P : ParState n → Prop) (hP : ∀ s s', P s → Iterates c s s' → P s') {s r : ParState n}
    (h : Reaches c s r) (hs : P s) : P r := by
  induction h with
  | refl => exact hs
  | step h1 _ ih => exact ih (hP _ _ hs h1)

/-- Relation between a record and a later version of it: same number of steps and the same labelled cells. -/
def SameSupport (fs gs : List (Frame n)) : Prop :=
  gs.length = fs.length ∧ ∀ (t : Nat) (f g : Frame n), fs[t]? = some f → gs[t]? = some g → ∀ i, 0 < g i ↔ 0 < f i

theorem IterOut.support {c : MeshCfg n} {s s' : ParState n} {outs : List (StepOut n)} {fin : List Nat} (hs : ParOK s)
    (h : IterOut c s s' outs fin) : SameSupport s.fs s'.fs := by
  refine ⟨h.length, ?_⟩
  intro t f g hf hg i
  obtain ⟨o, ho, hinv, htemp, hcell⟩ := h.cell hf hg
  rcases hcell i with ⟨h1, _⟩ | ⟨h1, h2⟩
  · rw [h1]
  · have h3 := lookup_new (counter := s.counter) (htemp _ h1)
    have h4 : 0 < o.cur i := by
      rw [hinv.ids, List.mem_range'_1] at h1
      have := hs.pos
      omega
    have := hs.pos
    exact ⟨fun _ => (hinv.sup i).mp h4, fun _ => by omega⟩

/-- **C21**, meshes: whenever the parallel split-and-merge finishes, whatever the chunk length, partition and order of the merging
objects, a cell carries a positive object ID at a step iff it did before. -/
theorem C21_mesh_split_merge_keeps_support (c : MeshCfg n) (htc : 0 < c.timechunks) (cen : Frame n → Nat → ℚ × ℚ) (fs : List (Frame n))
    (props : List Obj) (ht : TableExact c.w fs props) (r : SMResult n) (h : splitAndMergeParallel c cen fs props = .ok r) :
    r.field.length = fs.length ∧
    ∀ (t : Nat) (f g : Frame n), fs[t]? = some f → r.field[t]? = some g → ∀ i, 0 < g i ↔ 0 < f i := by
  unfold splitAndMergeParallel at h
  split at h
  · cases h
  · rename_i s hs
    simp only [Except.ok.injEq] at h
    subst h
    have hr := (parLoop_reaches _ hs).1
    have key := Reaches.keeps (fun s => ParOK s ∧ SameSupport fs s.fs) (by
      rintro a b ⟨ha, hsup⟩ ⟨_, hab⟩
      obtain ⟨outs, fin, ho⟩ := parIteration_out htc ha hab
      refine ⟨(IterOut.ok ha ho).1, ?_⟩
      have h2 := IterOut.support ha ho
      refine ⟨h2.1.trans hsup.1, ?_⟩
      intro t f g hf hg i
      obtain ⟨f', hf'⟩ := ho.pair hg
      rw [h2.2 t f' g hf' hg i, hsup.2 t f f' hf hf' i]) hr
      ⟨parInit_ok c fs props ht, rfl, fun t f g hf hg i => by
        change fs[t]? = some g at hg; rw [hf] at hg; cases hg; rfl⟩
    exact key.2

/-- **C21**, meshes, after renaming: a cell carries a positive event ID at a step iff it carried a label. -/
theorem C21_mesh_tracking_keeps_support (cc : Labeller) (c : MeshCfg n) (htc : 0 < c.timechunks) (cen : Frame n → Nat → ℚ × ℚ)
    (fs : List (Frame n)) (props : List Obj) (ht : TableExact c.w fs props) (r : SMResult n)
    (h : splitAndMergeParallel c cen fs props = .ok r) :
    (renameField cc r.field (r.links.map fun o => (o.a, o.b))).length = fs.length ∧
    ∀ (t : Nat) (f g : Frame n), fs[t]? = some f → (renameField cc r.field (r.links.map fun o => (o.a, o.b)))[t]? = some g →
      ∀ i, 0 < g i ↔ 0 < f i := by
  obtain ⟨hl, hsup⟩ := C21_mesh_split_merge_keeps_support c htc cen fs props ht r h
  have hp : PairsInField r.field (r.links.map fun o => (o.a, o.b)) := by
    unfold splitAndMergeParallel at h
    split at h
    · cases h
    · simp only [Except.ok.injEq] at h
      subst h
      exact pairsInField_links _ _ _ _
  refine ⟨by rw [← hl]; simp [renameField], ?_⟩
  intro t f g hf hg i
  unfold renameField at hg
  rw [List.getElem?_map] at hg
  have hlt := (List.getElem?_eq_some_iff.mp hf).1
  have hm : r.field[t]? = some (r.field[t]'(by rw [hl]; exact hlt)) := List.getElem?_eq_getElem _
  rw [hm] at hg
  simp only [Option.map_some, Option.some.injEq] at hg
  rw [← hsup t f _ hf hm i, ← hg]
  dsimp only
  split
  · rename_i h1
    exact ⟨fun _ => h1, fun _ => (eventOf_pos hp).mpr (mem_fieldIds.mpr ⟨h1, _, List.mem_of_getElem? hm, i, rfl⟩)⟩
  · rename_i h1
    exact ⟨fun h0 => absurd h0 (by omega), fun h0 => absurd h0 h1⟩

/-! ### C28: ID allocation -/

/-- No step of the next iteration creates more new IDs than the distance between the ID blocks of consecutive steps. -/
def RoomEnough (c : MeshCfg n) (s : ParState n) : Prop :=
  ∀ outs fin, processChunks c (piecesOf c.timechunks s.fs.length (rowsOf c s.fs s.merging s.counter)) = .ok (outs, fin) →
    ∀ o ∈ outs, o.updIds.length ≤ maxMerges s.fs s.merging * c.timechunks

theorem IterOut.unique {c : MeshCfg n} {s s' : ParState n} {outs : List (StepOut n)} {fin : List Nat} (hs : ParOK s)
    (h : IterOut c s s' outs fin) (hroom : RoomEnough c s) (hu : TimeUnique s.fs) : TimeUnique s'.fs := by
  rw [TimeUnique, List.pairwise_iff_getElem] at hu ⊢
  intro t u htl hul htu i j hpos heq
  have hg : s'.fs[t]? = some s'.fs[t] := List.getElem?_eq_getElem htl
  have hg' : s'.fs[u]? = some s'.fs[u] := List.getElem?_eq_getElem hul
  obtain ⟨f, hf⟩ := h.pair hg
  obtain ⟨f', hf'⟩ := h.pair hg'
  obtain ⟨o, ho, hinv, htemp, hcell⟩ := h.cell hf hg
  obtain ⟨o', ho', hinv', htemp', hcell'⟩ := h.cell hf' hg'
  have hb := hs.field f (List.mem_of_getElem? hf) i
  have hb' := hs.field f' (List.mem_of_getElem? hf') j
  rcases hcell i with ⟨h1, _⟩ | ⟨h1, h2⟩ <;> rcases hcell' j with ⟨h3, _⟩ | ⟨h3, h4⟩
  · obtain ⟨a1, a2⟩ := List.getElem?_eq_some_iff.mp hf
    obtain ⟨b1, b2⟩ := List.getElem?_eq_some_iff.mp hf'
    have := hu t u a1 b1 htu i j (by rw [a2]; omega)
    rw [a2, b2] at this
    omega
  · have := lookup_new (counter := s.counter) (htemp' _ h3)
    omega
  · have := lookup_new (counter := s.counter) (htemp _ h1)
    omega
  · have he : o.cur i = o'.cur j := lookup_inj (counter := s.counter) (htemp _ h1) (htemp' _ h3) (by rw [← h2, ← h4, heq])
    have r1 := hroom outs fin h.run o (List.mem_of_getElem? ho)
    have r2 := hroom outs fin h.run o' (List.mem_of_getElem? ho')
    rw [hinv.ids, List.mem_range'_1, he] at h1
    rw [hinv'.ids, List.mem_range'_1] at h3
    rw [Nat.mul_assoc] at h1 h3
    generalize maxMerges s.fs s.merging * c.timechunks = S at *
    have : (t + 1) * S ≤ u * S := Nat.mul_le_mul_right S htu
    rw [Nat.add_mul] at this
    omega

/-- **C28**, proved part: if in every iteration no time step creates more new IDs than the distance between the ID blocks reserved for
consecutive steps (`max_merges * timechunks`), then at the end no ID occurs at two time steps.
Missing: the distance is not always enough (`C28_ids_collide_fails`). -/
theorem C28_ids_unique_partial (c : MeshCfg n) (htc : 0 < c.timechunks) (cen : Frame n → Nat → ℚ × ℚ) (fs : List (Frame n))
    (props : List Obj) (ht : TableExact c.w fs props) (hu : TimeUnique fs)
    (hroom : ∀ s, Reaches c (parInit c fs props) s → RoomEnough c s)
    (r : SMResult n) (h : splitAndMergeParallel c cen fs props = .ok r) : TimeUnique r.field := by
  unfold splitAndMergeParallel at h
  split at h
  · cases h
  · rename_i s hs
    simp only [Except.ok.injEq] at h
    subst h
    have hr := (parLoop_reaches _ hs).1
    have : ∀ a b, Reaches c a b → (∀ x, Reaches c a x → RoomEnough c x) → ParOK a ∧ TimeUnique a.fs → TimeUnique b.fs := by
      intro a b hab
      induction hab with
      | refl => exact fun _ h => h.2
      | step h1 _ ih =>
        intro hx ha
        obtain ⟨outs, fin, ho⟩ := parIteration_out htc ha.1 h1.2
        exact ih (fun x hxx => hx x (.step h1 hxx)) ⟨(IterOut.ok ha.1 ho).1, IterOut.unique ha.1 ho (hx _ (.refl _)) ha.2⟩
    exact this _ _ hr hroom ⟨parInit_ok c fs props ht, hu⟩

/-- **C143**, the re-mapping (**C20** on meshes): in every iteration the temporary IDs are mapped one-to-one onto the IDs from the counter
up to the new counter, none of which occurs in the field before; every cell keeps its ID or gets one of these. -/
theorem C143_remapping_fresh (c : MeshCfg n) (htc : 0 < c.timechunks) (s s' : ParState n) (hs : ParOK s) (h : parIteration c s = .ok s') :
    ∃ temps : List Nat, s'.counter = s.counter + temps.length ∧
      (∀ k, s.counter ≤ k ∧ k < s'.counter ↔ ∃ x ∈ temps, lookupId s.counter temps x = k) ∧
      (∀ x ∈ temps, ∀ y ∈ temps, lookupId s.counter temps x = lookupId s.counter temps y → x = y) ∧
      (∀ (t : Nat) (f g : Frame n), s.fs[t]? = some f → s'.fs[t]? = some g → ∀ i,
        f i < s.counter ∧ (g i = f i ∨ ∃ x ∈ temps, g i = lookupId s.counter temps x)) := by
  obtain ⟨outs, fin, ho⟩ := parIteration_out htc hs h
  refine ⟨tempIds s.counter outs, by rw [ho.res], ?_, fun x hx y hy => lookup_inj hx hy, ?_⟩
  · intro k
    rw [ho.res]
    dsimp only
    constructor
    · rintro ⟨h1, h2⟩
      have hlt : k - s.counter < (tempIds s.counter outs).length := by omega
      refine ⟨(tempIds s.counter outs)[k - s.counter], List.getElem_mem _, ?_⟩
      unfold lookupId
      rw [if_pos (List.contains_iff_mem.mpr (List.getElem_mem _)), (show (tempIds s.counter outs).Nodup from nodup_npUnique _).idxOf_getElem]
      omega
    · rintro ⟨x, hx, rfl⟩
      exact lookup_new hx
  · intro t f g hf hg i
    obtain ⟨o, _, _, htemp, hcell⟩ := ho.cell hf hg
    refine ⟨hs.field f (List.mem_of_getElem? hf) i, ?_⟩
    rcases hcell i with ⟨h1, _⟩ | ⟨h1, h2⟩
    · exact .inl h1
    · exact .inr ⟨_, htemp _ h1, h2⟩

/-! ### A mesh for the examples: a line of cells -/

/-- Neighbours on a line of `n` cells. -/
def lineNbr (n : Nat) : Fin 3 → Fin n → Option (Fin n) := fun d i =>
  if d = 0 then (if h : 0 < i.val then some ⟨i.val - 1, by omega⟩ else none)
  else if d = 1 then (if h : i.val + 1 < n then some ⟨i.val + 1, h⟩ else none) else none

/-- Nine cells, four steps: four objects merge into object 5, which then merges with object 6 into object 7. -/
def meshRecord : List (Frame 9) :=
  [fun i => [1, 0, 2, 0, 3, 0, 4, 0, 0].getD i.val 0, fun i => [5, 5, 5, 5, 5, 5, 5, 0, 6].getD i.val 0,
   fun i => [0, 0, 0, 0, 0, 0, 7, 7, 7].getD i.val 0, fun _ => 0]

/-- Configuration of the examples: unit areas, `overlap_threshold = 1/4`, nearest-neighbour partitioning. -/
def lineCfg (tc mi : Nat) : MeshCfg 9 := meshCfg (lineNbr 9) (fun _ => 1) 1 (1/4) tc mi (fun _ _ _ => 0)

/-- Object table of the example. -/
def meshProps : List Obj := meshRecord.flatMap (calcProps ⟨fun _ => 1, 1/4, fun _ _ => (0, 0), fun _ _ _ _ _ _ _ => 0⟩)

/-- Final field of a run as lists, or the error. -/
def runLine (tc mi : Nat) : Except TErr (List (List Nat)) :=
  match splitAndMergeParallel (lineCfg tc mi) (fun _ _ => (0, 0)) meshRecord meshProps with
  | .error e => .error e
  | .ok r => .ok (r.field.map fun f => (List.finRange 9).map f)

/-- Decidable form of `Except` equality used below. -/
def okEq (r : Except TErr (List (List Nat))) (l : List (List Nat)) : Bool := match r with | .ok x => x == l | .error _ => false
/-- See `okEq`. -/
def errEq (r : Except TErr (List (List Nat))) (e : TErr) : Bool := match r with | .error x => x == e | .ok _ => false

-- non-vacuity: the table is exact, the record time-unique and the run finishes
example : TableExact (lineCfg 4 40).w meshRecord meshProps :=
  tableExact_calcProps ⟨fun _ => 1, 1/4, fun _ _ => (0, 0), fun _ _ _ _ _ _ _ => 0⟩ meshRecord (by
    rw [TimeUnique]; decide +kernel)
example : okEq (runLine 4 40) [[1, 0, 2, 0, 3, 0, 4, 0, 0], [5, 5, 8, 8, 9, 9, 10, 0, 6], [0, 0, 0, 0, 0, 0, 11, 7, 7], [0, 0, 0, 0, 0, 0, 0, 0, 0]] = true := by
  decide +kernel

/-- **C28** fails: with a time chunk of 2 the four-parent merge at step 1 needs three new IDs but only two are reserved per step, so the
third one is also given out at step 2. In the result ID 10 labels a piece of object 5 at step 1 (the continuation of object 4) and a
piece of object 7 at step 2 (the continuation of object 6), so an ID occurs at two steps, for two different objects. -/
theorem C28_ids_collide_fails :
    okEq (runLine 2 40) [[1, 0, 2, 0, 3, 0, 4, 0, 0], [5, 5, 8, 8, 9, 9, 10, 0, 6], [0, 0, 0, 0, 0, 0, 7, 7, 10], [0, 0, 0, 0, 0, 0, 0, 0, 0]] = true := by
  decide +kernel

/-! ### C59: chunk length on meshes -/

theorem processChunks_single {c : MeshCfg n} (k : Nat) (hk : 0 < k) (fuel : Nat) (rows : List (Row n)) (hf : rows.length ≤ fuel)
    (hmod : rows.length % k = 1 ∨ (k = 1 ∧ 0 < rows.length)) : ∃ e, processChunks c (piecesOf k fuel rows) = .error e := by
  induction fuel generalizing rows with
  | zero =>
    have : rows.length = 0 := by omega
    rw [this] at hmod
    rcases hmod with h | h
    · simp at h
    · omega
  | succ fuel ih =>
    cases rows with
    | nil => rcases hmod with h | h <;> simp at h
    | cons r rows =>
      rw [piecesOf, processChunks]
      cases h1 : processChunk c ((r :: rows).take k) with
      | error e => exact ⟨e, rfl⟩
      | ok p =>
        obtain ⟨o, f⟩ := p
        dsimp only
        have hlen2 : 2 ≤ ((r :: rows).take k).length := by
          by_contra hlt
          have hl : ((r :: rows).take k).length = 1 := by
            rw [List.length_take, List.length_cons] at hlt ⊢
            omega
          obtain ⟨x, hx⟩ := List.length_eq_one_iff.mp hl
          rw [hx, processChunk] at h1
          cases h1
        rw [List.length_take, List.length_cons] at hlen2
        rw [List.length_cons] at hmod hf
        have hm : rows.length + 1 ≠ k := by
          intro he
          rcases hmod with h | h
          · rw [he, Nat.mod_self] at h; omega
          · omega
        rcases Nat.lt_or_ge (rows.length + 1) k with hlt | hge
        · rcases hmod with h | h
          · rw [Nat.mod_eq_of_lt hlt] at h; omega
          · omega
        · obtain ⟨e, he⟩ := ih ((r :: rows).drop k) (by rw [List.length_drop, List.length_cons]; omega) (by
            rw [List.length_drop, List.length_cons]
            rcases hmod with h | h
            · left; exact (Nat.mod_eq_sub_mod hge).symm.trans h
            · omega)
          rw [he]
          exact ⟨e, rfl⟩

/-- **C59** fails on every record: if the number of time steps leaves a remainder of 1 when divided by the chunk length (or the chunk
length is 1), and the record contains at least one merge, tracking on a mesh raises an error, whatever the data. -/
theorem C59_remainder_one_fails (c : MeshCfg n) (cen : Frame n → Nat → ℚ × ℚ) (fs : List (Frame n)) (props : List Obj)
    (htc : 0 < c.timechunks) (hmod : fs.length % c.timechunks = 1 ∨ (c.timechunks = 1 ∧ 0 < fs.length))
    (hmerge : (parInit c fs props).merging ≠ []) : ∃ e, splitAndMergeParallel c cen fs props = .error e := by
  unfold splitAndMergeParallel
  cases hmi : c.maxIter with
  | zero => exact ⟨_, rfl⟩
  | succ fuel =>
    rw [parLoop, if_neg (by simpa using hmerge)]
    unfold parIteration
    cases idTime (parInit c fs props).fs (parInit c fs props).counter 0 with
    | error e => exact ⟨e, rfl⟩
    | ok x =>
      dsimp only
      obtain ⟨e, he⟩ := processChunks_single (c := c) c.timechunks htc (parInit c fs props).fs.length
        (rowsOf c (parInit c fs props).fs (parInit c fs props).merging (parInit c fs props).counter) (by rw [rowsOf_length])
        (by rw [rowsOf_length]; exact hmod)
      rw [he]
      exact ⟨e, rfl⟩

-- the hypotheses are met: four steps in chunks of 3
example : errEq (runLine 3 40) .index = true ∧ (parInit (lineCfg 3 40) meshRecord meshProps).merging = [5, 7] := by decide +kernel

/-- **C59** fails for the results too: the record gives different objects with chunks of 2 and of 4 steps (object 7 is split along a
different boundary and into different IDs). -/
theorem C59_result_depends_on_chunks_fails : ∃ a b, okEq (runLine 2 40) a = true ∧ okEq (runLine 4 40) b = true ∧ a ≠ b :=
  ⟨_, [[1, 0, 2, 0, 3, 0, 4, 0, 0], [5, 5, 8, 8, 9, 9, 10, 0, 6], [0, 0, 0, 0, 0, 0, 11, 7, 7], [0, 0, 0, 0, 0, 0, 0, 0, 0]],
    C28_ids_collide_fails, by decide +kernel, by decide +kernel⟩

/-- **C59**, the part that holds: if every object is linked to at most one object of the step before, tracking succeeds with every time chunk length and gives
the same result for all of them: the objects it was given, and no merges.  Missing: records with merges, for which both parts of C59 fail, see above. -/
theorem C59_no_merges_partial (c : MeshCfg n) (cen : Frame n → Nat → ℚ × ℚ) (fs : List (Frame n)) (props : List Obj) (hmax : 0 < c.maxIter)
    (hone : ((enforceOverlap c.thr props (findOverlaps c.w fs)).map (·.b)).Nodup) :
    ∃ r, r.field = fs ∧ r.merges = [] ∧ ∀ k, splitAndMergeParallel { c with timechunks := k } cen fs props = .ok r := by
  have hm : repeated ((enforceOverlap c.thr props (findOverlaps c.w fs)).map (·.b)) = [] := by
    rw [List.eq_nil_iff_forall_not_mem]
    intro x hx
    have := List.nodup_iff_count_le_one.mp hone x
    have := mem_repeated.mp hx
    omega
  obtain ⟨m, hmi⟩ : ∃ m, c.maxIter = m + 1 := ⟨c.maxIter - 1, by omega⟩
  refine ⟨{ field := fs, props := fs.flatMap (calcProps ⟨c.w, c.thr, cen, fun _ _ _ _ _ _ _ => 0⟩), merges := [], links := enforceOverlap c.thr (fs.flatMap (calcProps ⟨c.w, c.thr, cen, fun _ _ _ _ _ _ _ => 0⟩)) (findOverlaps c.w fs) }, rfl, rfl, fun k => ?_⟩
  unfold splitAndMergeParallel
  simp only [hmi, parLoop, parInit, hm, List.isEmpty_nil, if_true]

-- the hypothesis is met by the first two steps of an object that continues
example : ((enforceOverlap (lineCfg 4 40).thr (calcProps ⟨fun _ => 1, 1/4, fun _ _ => (0, 0), fun _ _ _ _ _ _ _ => 0⟩ (fun i : Fin 9 => if i.val < 3 then 1 else 0) ++
    calcProps ⟨fun _ => 1, 1/4, fun _ _ => (0, 0), fun _ _ _ _ _ _ _ => 0⟩ (fun i : Fin 9 => if i.val < 2 then 2 else 0))
    (findOverlaps (lineCfg 4 40).w [fun i : Fin 9 => if i.val < 3 then 1 else 0, fun i : Fin 9 => if i.val < 2 then 2 else 0])).map (·.b)) = [2] := by
  decide +kernel

/-! ### C60: iteration limit -/

/-- `k` iterations. -/
inductive ReachesIn (c : MeshCfg n) : Nat → ParState n → ParState n → Prop
  | zero (s : ParState n) : ReachesIn c 0 s s
  | succ {k : Nat} {s s' s'' : ParState n} : Iterates c s s' → ReachesIn c k s' s'' → ReachesIn c (k + 1) s s''

theorem gatherParents_not_max {c : MeshCfg n} {m1 cur : Frame n} {child : Nat} (ps : List Nat) (acc : List (Nat × ℚ)) :
    gatherParents c m1 cur child ps acc ≠ .error .maxIterations := by
  induction ps generalizing acc with
  | nil => rw [gatherParents]; exact fun h => by cases h
  | cons p ps ih =>
    rw [gatherParents]
    split
    · exact fun h => by cases h
    · split
      · exact ih _
      · exact ih _

theorem runQueue_not_max {c : MeshCfg n} {m1 p1 : Frame n} (q : List Nat) (st : StepOut n) :
    runQueue c m1 p1 q st ≠ .error .maxIterations := by
  induction q generalizing st with
  | nil => rw [runQueue]; exact fun h => by cases h
  | cons k q ih =>
    rw [runQueue]
    split
    · rename_i e he
      intro h
      cases h
      unfold processMeshChild at he
      split at he
      · rename_i e' hg
        cases he
        exact gatherParents_not_max _ _ hg
      · split at he
        · cases he
        · dsimp only at he
          split at he
          · cases he
          · split at he
            · cases he
            · split at he <;> cases he
    · exact ih _

theorem chunkGo_not_max {c : MeshCfg n} (rs : List (Row n)) (m1 cur : Frame n) (extra : List Nat) :
    chunkGo c m1 cur extra rs ≠ .error .maxIterations := by
  induction rs generalizing m1 cur extra with
  | nil => rw [chunkGo]; exact fun h => by cases h
  | cons r rs ih =>
    rw [chunkGo]
    split
    · rename_i e he
      intro h; cases h
      exact runQueue_not_max _ _ he
    · split
      · split <;> exact fun h => by cases h
      · split
        · rename_i e he
          intro h; cases h
          exact ih _ _ _ he
        · exact fun h => by cases h

theorem parIteration_not_max {c : MeshCfg n} (s : ParState n) : parIteration c s ≠ .error .maxIterations := by
  have hchunk : ∀ rs : List (Row n), processChunk c rs ≠ .error .maxIterations := by
    intro rs
    match rs with
    | [] => rw [processChunk]; exact fun h => by cases h
    | [_] => rw [processChunk]; exact fun h => by cases h
    | r0 :: r1 :: rs => rw [processChunk]; exact chunkGo_not_max _ _ _ _
  have hchunks : ∀ l : List (List (Row n)), processChunks c l ≠ .error .maxIterations := by
    intro l
    induction l with
    | nil => rw [processChunks]; exact fun h => by cases h
    | cons ch l ih =>
      rw [processChunks]
      split
      · rename_i e he
        intro h; cases h
        exact hchunk _ he
      · split
        · rename_i e he
          intro h; cases h
          exact ih he
        · exact fun h => by cases h
  unfold parIteration
  split
  · rename_i e he
    intro h; cases h
    unfold idTime at he
    split at he <;> cases he
  · split
    · rename_i e he
      intro h; cases h
      exact hchunks _ he
    · exact fun h => by cases h

theorem parLoop_ok_iff (c : MeshCfg n) (fuel : Nat) (s r : ParState n) :
    parLoop c fuel s = .ok r ↔ ∃ k, k < fuel ∧ ReachesIn c k s r ∧ r.merging = [] := by
  induction fuel generalizing s with
  | zero => rw [parLoop]; simp
  | succ fuel ih =>
    rw [parLoop]
    split
    · rename_i he
      constructor
      · intro h; cases h
        exact ⟨0, by omega, .zero _, by simpa using he⟩
      · rintro ⟨k, _, hr, _⟩
        cases hr with
        | zero => rfl
        | succ hi _ => exact absurd (by simpa using he) hi.1
    · rename_i he
      have hne : s.merging ≠ [] := by simpa using he
      cases h1 : parIteration c s with
      | error e =>
        constructor
        · intro h; cases h
        · rintro ⟨k, _, hr, hm⟩
          cases hr with
          | zero => exact absurd hm hne
          | succ hi _ => rw [hi.2] at h1; cases h1
      | ok s1 =>
        dsimp only
        rw [ih]
        constructor
        · rintro ⟨k, hk, hr, hm⟩
          exact ⟨k + 1, by omega, .succ ⟨hne, h1⟩ hr, hm⟩
        · rintro ⟨k, hk, hr, hm⟩
          cases hr with
          | zero => exact absurd hm hne
          | succ hi hr' =>
            rw [hi.2] at h1; cases h1
            exact ⟨_, by omega, hr', hm⟩

theorem parLoop_max_iff (c : MeshCfg n) (fuel : Nat) (s : ParState n) :
    parLoop c fuel s = .error .maxIterations ↔ ∃ r, ReachesIn c fuel s r := by
  induction fuel generalizing s with
  | zero => rw [parLoop]; exact ⟨fun _ => ⟨s, .zero s⟩, fun _ => rfl⟩
  | succ fuel ih =>
    rw [parLoop]
    split
    · rename_i he
      constructor
      · intro h; cases h
      · rintro ⟨r, hr⟩
        cases hr with
        | succ hi _ => exact absurd (by simpa using he) hi.1
    · rename_i he
      have hne : s.merging ≠ [] := by simpa using he
      cases h1 : parIteration c s with
      | error e =>
        constructor
        · intro h
          cases h
          exact absurd h1 (parIteration_not_max s)
        · rintro ⟨r, hr⟩
          cases hr with
          | succ hi _ => rw [hi.2] at h1; cases h1
      | ok s1 =>
        dsimp only
        rw [ih]
        constructor
        · rintro ⟨r, hr⟩; exact ⟨r, .succ ⟨hne, h1⟩ hr⟩
        · rintro ⟨r, hr⟩
          cases hr with
          | succ hi hr' =>
            rw [hi.2] at h1; cases h1
            exact ⟨r, hr'⟩

/-- **C60**: the main loop returns a state exactly when that state is reached by fewer than `max_iteration` iterations and has no merging
objects left; it raises "maximum iterations" exactly when `max_iteration` iterations were needed or not enough. -/
theorem C60_ends_converged (c : MeshCfg n) (fs : List (Frame n)) (props : List Obj) :
    (∀ s, parLoop c c.maxIter (parInit c fs props) = .ok s ↔
      ∃ k, k < c.maxIter ∧ ReachesIn c k (parInit c fs props) s ∧ s.merging = []) ∧
    (parLoop c c.maxIter (parInit c fs props) = .error .maxIterations ↔ ∃ s, ReachesIn c c.maxIter (parInit c fs props) s) :=
  ⟨fun s => parLoop_ok_iff c c.maxIter _ s, parLoop_max_iff c c.maxIter _⟩

/-- **C128** fails at the limit for every record: if all merges are resolved after exactly `max_iteration` iterations, tracking still reports
that they are not. -/
theorem C128_converged_at_limit_fails (c : MeshCfg n) (cen : Frame n → Nat → ℚ × ℚ) (fs : List (Frame n)) (props : List Obj) (s : ParState n)
    (h : ReachesIn c c.maxIter (parInit c fs props) s) (_hconv : s.merging = []) :
    splitAndMergeParallel c cen fs props = .error .maxIterations := by
  unfold splitAndMergeParallel
  rw [(C60_ends_converged c fs props).2.mpr ⟨s, h⟩]

/-- **C128** fails at the limit: the example converges after exactly two iterations (with `max_iteration = 3` it succeeds), but with
`max_iteration = 2` it is reported as not converged. -/
theorem C128_exact_limit_fails :
    errEq (runLine 2 2) .maxIterations = true ∧
    okEq (runLine 2 3) [[1, 0, 2, 0, 3, 0, 4, 0, 0], [5, 5, 8, 8, 9, 9, 10, 0, 6], [0, 0, 0, 0, 0, 0, 7, 7, 10], [0, 0, 0, 0, 0, 0, 0, 0, 0]] = true := by
  decide +kernel

/-! ### C27 on meshes -/

/-- **C112**, meshes, per iteration: every record has at least two parents, as many children and overlap values as parents, pairwise
distinct children, and its first child is an ID that existed before the iteration while the others did not. -/
theorem C112_mesh_merge_records (c : MeshCfg n) (htc : 0 < c.timechunks) (s s' : ParState n) (hs : ParOK s) (h : parIteration c s = .ok s') :
    ∃ new, s'.recs = s.recs ++ new ∧ ∀ m ∈ new, 2 ≤ m.parents.length ∧ m.children.length = m.parents.length ∧
      m.areas.length = m.parents.length ∧ m.children.Nodup ∧ m.time < s.fs.length ∧
      ∃ k ks, m.children = k :: ks ∧ k < s.counter ∧ ∀ x ∈ ks, s.counter ≤ x ∧ x < s'.counter := by
  obtain ⟨outs, fin, ho⟩ := parIteration_out htc hs h
  refine ⟨recordsOf s.counter (tempIds s.counter outs) outs, by rw [ho.res], ?_⟩
  intro m hm
  unfold recordsOf at hm
  obtain ⟨p, hp, hm⟩ := List.mem_flatMap.mp hm
  obtain ⟨raw, hraw, rfl⟩ := List.mem_map.mp hm
  obtain ⟨t, ht⟩ := List.mem_iff_getElem?.mp hp
  rw [List.getElem?_zip_eq_some] at ht
  have htl := (List.getElem?_eq_some_iff.mp ht.2).1
  rw [List.getElem?_range htl, Option.some.injEq] at ht
  have hfl : t < s.fs.length := by rw [← ho.len]; exact htl
  obtain ⟨o, ho', hinv⟩ := ho.inv t _ (List.getElem?_eq_getElem hfl)
  rw [ht.2, Option.some.injEq] at ho'
  subst ho'
  obtain ⟨h1, h2, h3, h4, k, ks, h5, h6, h7⟩ := hinv.recs raw hraw
  have htemp : ∀ x ∈ ks, x ∈ tempIds s.counter outs := by
    intro x hx
    refine mem_tempIds.mpr ⟨?_, p.2, List.mem_of_getElem? ht.2, raw, hraw, by rw [h5]; simp [hx]⟩
    have := h7 x hx
    rw [hinv.ids, List.mem_range'_1] at this
    omega
  have hk : lookupId s.counter (tempIds s.counter outs) k = k := lookup_old tempIds_ge h6
  refine ⟨by simpa using h1, by simpa using h2, by simpa using h3, ?_, by dsimp only; omega, ?_⟩
  · dsimp only
    rw [h5] at h4 ⊢
    rw [List.map_cons, hk, List.nodup_cons]
    refine ⟨?_, ?_⟩
    · intro hmem
      obtain ⟨x, hx, hxe⟩ := List.mem_map.mp hmem
      have := lookup_new (counter := s.counter) (htemp x hx)
      omega
    · refine (List.nodup_cons.mp h4).2.map_on ?_
      intro x hx y hy hxy
      exact lookup_inj (htemp x hx) (htemp y hy) hxy
  · refine ⟨k, ks.map (lookupId s.counter (tempIds s.counter outs)), by dsimp only; rw [h5, List.map_cons, hk], h6, ?_⟩
    intro x hx
    obtain ⟨y, hy, rfl⟩ := List.mem_map.mp hx
    have := lookup_new (counter := s.counter) (htemp y hy)
    rw [ho.res]
    exact this

/-- Merge records of a run of the example. -/
def recsLine (tc mi : Nat) : List (Nat × List Nat × List Nat) :=
  match splitAndMergeParallel (lineCfg tc mi) (fun _ _ => (0, 0)) meshRecord meshProps with
  | .error _ => []
  | .ok r => r.merges.map fun m => (m.time, m.children, m.parents)

/-- Meshes: a record can name a parent that does not touch the child in the final field. In the example the record of step 2 says that
object 7 merged from 5 and 6, but in the final field (see `C28_ids_collide_fails`) object 5 is at cells 0–1 and object 7 at cells 6–7. -/
theorem C112_mesh_stale_parent_fails : recsLine 2 40 = [(1, [5, 8, 9, 10], [1, 2, 3, 4]), (2, [7, 10], [5, 6])] := by decide +kernel

/-! ### C51: time index of an ID -/

/-- **C51**: whenever the table is built, the time index of every ID that occurs in the field is a step at which it occurs, and the first
such step. -/
theorem C51_time_of_present_id (fs : List (Frame n)) (m k t : Nat) (h : idTime fs m k = .ok t) (hk : ∃ f ∈ fs, ∃ i, f i = k) :
    (∃ f, fs[t]? = some f ∧ ∃ i, f i = k) ∧ ∀ (u : Nat) f, u < t → fs[u]? = some f → ∀ i, f i ≠ k := by
  unfold idTime at h
  split at h
  · cases h
  · cases h
    have hany : ∀ f : Frame n, ((List.finRange n).any fun i => f i == k) = true ↔ ∃ i, f i = k := by
      intro f; rw [List.any_eq_true]
      constructor
      · rintro ⟨i, _, hi⟩; exact ⟨i, by simpa using hi⟩
      · rintro ⟨i, hi⟩; exact ⟨i, List.mem_finRange _, by simpa using hi⟩
    obtain ⟨f, hf, hi⟩ := hk
    have hmem : true ∈ fs.map fun f => (List.finRange n).any fun i => f i == k := List.mem_map.mpr ⟨f, hf, (hany f).mpr hi⟩
    obtain ⟨h1, h2⟩ := argmaxBool_spec hmem
    unfold timeOf
    refine ⟨?_, ?_⟩
    · rw [List.getElem?_map] at h1
      obtain ⟨g, hg, hgt⟩ := Option.map_eq_some_iff.mp h1
      exact ⟨g, hg, (hany g).mp hgt⟩
    · intro u g hu hg i hgi
      apply h2 u hu
      rw [List.getElem?_map, hg, Option.map_some, (hany g).mpr ⟨i, hgi⟩]

/-- **C134**: the table is built whenever the record has at most 100 steps and all IDs are below `max_objects`. -/
theorem C134_table_built_partial (fs : List (Frame n)) (m k : Nat) (hne : fs ≠ []) (hlen : fs.length ≤ 100) (hm : ∀ f ∈ fs, ∀ i, f i < m) :
    ∃ t, idTime fs m k = .ok t := by
  unfold idTime
  rw [if_neg]
  · exact ⟨_, rfl⟩
  · rw [List.any_eq_true]
    rintro ⟨f, hf, h⟩
    rw [decide_eq_true_eq] at h
    have hl : (npUnique ((List.finRange n).map f)).length ≤ m := by
      have hsub : npUnique ((List.finRange n).map f) ⊆ List.range m := by
        intro x hx
        rw [mem_npUnique, List.mem_map] at hx
        obtain ⟨i, _, rfl⟩ := hx
        exact List.mem_range.mpr (hm f hf i)
      have := ((nodup_npUnique ((List.finRange n).map f)).subperm hsub).length_le
      rwa [List.length_range] at this
    have h0 : 0 < fs.length := List.length_pos_of_ne_nil hne
    have : m ≤ m * 100 / fs.length := by
      rw [Nat.le_div_iff_mul_le h0]
      exact Nat.mul_le_mul_left m hlen
    omega

/-- **C134** fails: the table has `int(max_objects / n_time * 100)` columns, and building it raises whenever some step has more distinct values (0 included) than
that. -/
theorem C134_columns_fails (fs : List (Frame n)) (m k : Nat) (f : Frame n) (hf : f ∈ fs) (vals : List Nat) (hv : vals.Nodup)
    (hmem : ∀ v ∈ vals, ∃ i, f i = v) (hcol : m * 100 / fs.length < vals.length) : idTime fs m k = .error .index := by
  unfold idTime
  rw [if_pos]
  rw [List.any_eq_true]
  refine ⟨f, hf, ?_⟩
  rw [decide_eq_true_eq]
  refine Nat.lt_of_lt_of_le hcol ?_
  refine (hv.subperm ?_).length_le
  intro v h
  obtain ⟨i, rfl⟩ := hmem v h
  exact mem_npUnique.mpr (List.mem_map.mpr ⟨i, List.mem_finRange i, rfl⟩)

/-- **C134** fails for every long record: with more than 100 steps for each of its `max_objects` IDs (0 included) the table has no column at all, and building
it raises whatever the steps contain. -/
theorem C134_long_record_fails (fs : List (Frame n)) (m k : Nat) (hn : 0 < n) (hlen : m * 100 < fs.length) : idTime fs m k = .error .index := by
  obtain ⟨f, hf⟩ := List.exists_mem_of_length_pos (by omega : 0 < fs.length)
  refine C134_columns_fails fs m k f hf [f ⟨0, hn⟩] (by simp) (by simp) ?_
  rw [Nat.div_eq_of_lt hlen]; simp

/-- Two objects at the first step, nothing later: with 300 steps there is one column for the three values. -/
example : idTime ((fun i : Fin 3 => i.val) :: List.replicate 299 (fun _ => 0)) 3 1 = .error .index :=
  C134_columns_fails _ _ _ (fun i => i.val) (List.mem_cons_self ..) [0, 1, 2] (by decide) (by decide)
    (by rw [List.length_cons, List.length_replicate]; decide)
example : idTime (List.replicate 301 (fun i : Fin 3 => i.val)) 3 1 = .error .index :=
  C134_long_record_fails _ _ _ (by decide) (by rw [List.length_replicate]; decide)

end MarEx.Props
