import Verif.Model.TempStore
import Verif.Props.MeshMerge
/-! Properties of the temporary store of mesh tracking: C152, C153, C154. -/
namespace MarEx.Props
open MarEx MarEx.Spec

variable {n : Nat}

/-! ### Steps without a merge change nothing -/

theorem processMeshChild_quiet {c : MeshCfg n} {m1 p1 : Frame n} {st st' : StepOut n} {child : Nat}
    (h : processMeshChild c m1 p1 st child = .ok st') (hq : st.merges = [] → ∀ i, st.upd i = none) :
    st'.merges = [] → ∀ i, st'.upd i = none := by
  unfold processMeshChild at h
  split at h
  · cases h
  · dsimp only at h
    split at h
    · cases h; exact hq
    · split at h
      · cases h
      · split at h
        · cases h
        · split at h
          · cases h
          · cases h
            intro hm
            simp at hm

theorem runQueue_quiet {c : MeshCfg n} {m1 p1 : Frame n} (q : List Nat) {st st' : StepOut n} (h : runQueue c m1 p1 q st = .ok st')
    (hq : st.merges = [] → ∀ i, st.upd i = none) : st'.merges = [] → ∀ i, st'.upd i = none := by
  induction q generalizing st with
  | nil => cases h; exact hq
  | cons k ks ih =>
    rw [runQueue] at h
    split at h
    · cases h
    · rename_i st1 h1
      exact ih h (processMeshChild_quiet h1 hq)

/-- Every step of the list changes no cell unless it has a merge. -/
def Quiet (outs : List (StepOut n)) : Prop := ∀ o ∈ outs, o.merges = [] → ∀ i, o.upd i = none

theorem chunkGo_quiet {c : MeshCfg n} (rs : List (Row n)) (m1 cur : Frame n) (extra : List Nat) {outs : List (StepOut n)} {fin : List Nat}
    (h : chunkGo c m1 cur extra rs = .ok (outs, fin)) : Quiet outs := by
  induction rs generalizing m1 cur extra outs fin with
  | nil => cases h; intro o ho; cases ho
  | cons r rs ih =>
    rw [chunkGo] at h
    split at h
    · cases h
    · rename_i st hst
      have h0 := runQueue_quiet _ hst (fun _ _ => rfl)
      split at h
      · split at h
        · cases h
        · cases h
          intro o ho
          rw [List.mem_singleton] at ho
          exact ho ▸ h0
      · split at h
        · cases h
        · rename_i outs' fin' hg
          cases h
          intro o ho
          rcases List.mem_cons.mp ho with rfl | ho
          · exact h0
          · exact ih _ _ _ hg o ho

theorem processChunks_quiet {c : MeshCfg n} (chs : List (List (Row n))) {outs : List (StepOut n)} {fin : List Nat}
    (h : processChunks c chs = .ok (outs, fin)) : Quiet outs := by
  induction chs generalizing outs fin with
  | nil => cases h; intro o ho; cases ho
  | cons ch chs ih =>
    rw [processChunks] at h
    split at h
    · cases h
    · rename_i o1 f1 h1
      split at h
      · cases h
      · rename_i o2 f2 h2
        cases h
        intro o ho
        rcases List.mem_append.mp ho with ho | ho
        · match ch, h1 with
          | [], h1 => cases h1; cases ho
          | [_], h1 => cases h1
          | r0 :: r1 :: rs, h1 => exact chunkGo_quiet _ _ _ _ h1 o ho
        · exact ih h2 o ho

theorem chunkGo_length {c : MeshCfg n} (rs : List (Row n)) (m1 cur : Frame n) (extra : List Nat) {outs : List (StepOut n)} {fin : List Nat}
    (h : chunkGo c m1 cur extra rs = .ok (outs, fin)) : outs.length = rs.length := by
  induction rs generalizing m1 cur extra outs fin with
  | nil => cases h; rfl
  | cons r rs ih =>
    rw [chunkGo] at h
    split at h
    · cases h
    · split at h
      · rename_i he
        split at h
        · cases h
        · cases h
          rw [List.isEmpty_iff] at he
          simp [he]
      · split at h
        · cases h
        · rename_i outs' fin' hg
          cases h
          simp [ih _ _ _ hg]

theorem processChunks_length {c : MeshCfg n} (chs : List (List (Row n))) {outs : List (StepOut n)} {fin : List Nat}
    (h : processChunks c chs = .ok (outs, fin)) : outs.length = chs.flatten.length := by
  induction chs generalizing outs fin with
  | nil => cases h; rfl
  | cons ch chs ih =>
    rw [processChunks] at h
    split at h
    · cases h
    · rename_i o1 f1 h1
      split at h
      · cases h
      · rename_i o2 f2 h2
        cases h
        rw [List.length_append, List.flatten_cons, List.length_append, ih h2]
        congr 1
        match ch, h1 with
        | [], h1 => cases h1; rfl
        | [_], h1 => cases h1
        | r0 :: r1 :: rs, h1 => exact chunkGo_length _ _ _ _ h1

/-! ### The update tasks -/

/-- Cell `i` of step `t` has been written by an execution that read its chunk before: the chunk of the step was read by execution `j`,
which later wrote the cell, without having been reused in between. -/
def Written (k : Nat) (evs : List (StoreEv n)) (t : Nat) (i : Fin n) : Prop :=
  ∃ j which pre mid post, evs = pre ++ .read j (t / k) :: (mid ++ .write j which :: post) ∧ which t i = true ∧ ∀ ch, .read j ch ∉ mid

/-- The value the update gives cell `i` of a step. -/
theorem updateFrame_twice (counter : Nat) (temps : List Nat) (f v : Frame n) (o : StepOut n) (i : Fin n)
    (h : v i = f i ∨ v i = updateFrame counter temps f o i) : updateFrame counter temps v o i = updateFrame counter temps f o i := by
  unfold updateFrame at h ⊢
  cases ho : o.upd i with
  | none => rw [ho] at h; simpa using h
  | some j => rfl

/-- Every cell of `gs` has either its old or its new value. -/
def OldOrNew (counter : Nat) (temps : List Nat) (outs : List (StepOut n)) (fs gs : List (Frame n)) : Prop :=
  gs.length = fs.length ∧ ∀ (t : Nat) (f g : Frame n), fs[t]? = some f → gs[t]? = some g → ∀ i,
    g i = f i ∨ g i = updateFrame counter temps f (outs.getD t (initStep zeroFrame 0)) i

theorem OldOrNew.refl (counter : Nat) (temps : List Nat) (outs : List (StepOut n)) (fs : List (Frame n)) : OldOrNew counter temps outs fs fs :=
  ⟨rfl, fun t f g hf hg i => by rw [hf] at hg; cases hg; exact .inl rfl⟩

/-- What holds after any number of events. -/
structure StoreInv (counter : Nat) (temps : List Nat) (outs : List (StepOut n)) (fs : List (Frame n)) (st : StoreSt n) : Prop where
  field : OldOrNew counter temps outs fs st.field
  mem : ∀ j ch snap, st.mem j = some (ch, snap) → OldOrNew counter temps outs fs snap

theorem OldOrNew.update {counter : Nat} {temps : List Nat} {outs : List (StepOut n)} {fs snap : List (Frame n)}
    (h : OldOrNew counter temps outs fs snap) {t : Nat} {f : Frame n} (hf : fs[t]? = some f) (i : Fin n) :
    updateFrame counter temps (snap.getD t zeroFrame) (outs.getD t (initStep zeroFrame 0)) i =
      updateFrame counter temps f (outs.getD t (initStep zeroFrame 0)) i := by
  have hlt : t < snap.length := by rw [h.1]; exact (List.getElem?_eq_some_iff.mp hf).1
  have hs : snap[t]? = some (snap[t]) := List.getElem?_eq_getElem hlt
  have : snap.getD t zeroFrame = snap[t] := by rw [List.getD_eq_getElem?_getD, hs]; rfl
  rw [this]
  exact updateFrame_twice _ _ _ _ _ _ (h.2 t f _ hf hs i)

theorem storeStep_inv {k counter : Nat} {temps : List Nat} {outs : List (StepOut n)} {fs : List (Frame n)} {st : StoreSt n}
    (h : StoreInv counter temps outs fs st) (e : StoreEv n) : StoreInv counter temps outs fs (storeStep k counter temps outs st e) := by
  cases e with
  | read j ch =>
    refine ⟨h.field, ?_⟩
    intro j' ch' snap hm
    simp only [storeStep] at hm
    split at hm
    · cases hm; exact h.field
    · exact h.mem _ _ _ hm
  | write j which =>
    simp only [storeStep]
    split
    · exact h
    · rename_i ch snap hm
      split
      · refine ⟨⟨by simp [h.field.1], ?_⟩, h.mem⟩
        intro t f g hf hg i
        simp only [List.getElem?_mapIdx, Option.map_eq_some_iff] at hg
        obtain ⟨g', hg', rfl⟩ := hg
        dsimp only
        split
        · exact .inr ((h.mem _ _ _ hm).update hf i)
        · exact h.field.2 t f g' hf hg' i
      · exact h

theorem foldl_storeInv {k counter : Nat} {temps : List Nat} {outs : List (StepOut n)} {fs : List (Frame n)} (evs : List (StoreEv n))
    {st : StoreSt n} (h : StoreInv counter temps outs fs st) : StoreInv counter temps outs fs (evs.foldl (storeStep k counter temps outs) st) := by
  induction evs generalizing st with
  | nil => exact h
  | cons e evs ih => exact ih (storeStep_inv h e)

/-- A cell with its new value keeps it. -/
theorem storeStep_new {k counter : Nat} {temps : List Nat} {outs : List (StepOut n)} {fs : List (Frame n)} {st : StoreSt n}
    (h : StoreInv counter temps outs fs st) (e : StoreEv n) {t : Nat} {f g : Frame n} (hf : fs[t]? = some f) (hg : st.field[t]? = some g)
    {i : Fin n} (hv : g i = updateFrame counter temps f (outs.getD t (initStep zeroFrame 0)) i) :
    ∃ g', (storeStep k counter temps outs st e).field[t]? = some g' ∧ g' i = updateFrame counter temps f (outs.getD t (initStep zeroFrame 0)) i := by
  cases e with
  | read j ch => exact ⟨g, hg, hv⟩
  | write j which =>
    simp only [storeStep]
    split
    · exact ⟨g, hg, hv⟩
    · rename_i ch snap hm
      split
      · dsimp only
        rw [List.getElem?_mapIdx, hg]
        refine ⟨_, rfl, ?_⟩
        dsimp only
        split
        · exact (h.mem _ _ _ hm).update hf i
        · exact hv
      · exact ⟨g, hg, hv⟩

theorem foldl_store_new {k counter : Nat} {temps : List Nat} {outs : List (StepOut n)} {fs : List (Frame n)} (evs : List (StoreEv n))
    {st : StoreSt n} (h : StoreInv counter temps outs fs st) {t : Nat} {f g : Frame n} (hf : fs[t]? = some f) (hg : st.field[t]? = some g)
    {i : Fin n} (hv : g i = updateFrame counter temps f (outs.getD t (initStep zeroFrame 0)) i) :
    ∃ g', (evs.foldl (storeStep k counter temps outs) st).field[t]? = some g' ∧
      g' i = updateFrame counter temps f (outs.getD t (initStep zeroFrame 0)) i := by
  induction evs generalizing st g with
  | nil => exact ⟨g, hg, hv⟩
  | cons e evs ih =>
    obtain ⟨g', hg', hv'⟩ := storeStep_new (k := k) h e hf hg hv
    exact ih (storeStep_inv h e) hg' hv'

/-- The data an execution has read stay in its memory. -/
theorem foldl_store_mem {k counter : Nat} {temps : List Nat} {outs : List (StepOut n)} (evs : List (StoreEv n)) {st : StoreSt n} {j : Nat}
    (h : ∀ ch, .read j ch ∉ evs) : (evs.foldl (storeStep k counter temps outs) st).mem j = st.mem j := by
  induction evs generalizing st with
  | nil => rfl
  | cons e evs ih =>
    rw [List.foldl_cons, ih (fun ch hc => h ch (List.mem_cons_of_mem _ hc))]
    cases e with
    | read j' ch =>
      have : j ≠ j' := fun hj => h ch (by rw [hj]; exact List.mem_cons_self ..)
      simp [storeStep, this]
    | write j' which =>
      simp only [storeStep]
      split
      · rfl
      · split <;> rfl

theorem chunkHasMerge_false {k : Nat} {outs : List (StepOut n)} (hq : Quiet outs) {t : Nat} (h : chunkHasMerge k outs (t / k) = false) (i : Fin n) :
    (outs.getD t (initStep zeroFrame 0)).upd i = none := by
  rw [List.getD_eq_getElem?_getD]
  cases ho : outs[t]? with
  | none => rfl
  | some o =>
    have hlt := (List.getElem?_eq_some_iff.mp ho).1
    unfold chunkHasMerge at h
    rw [List.any_eq_false] at h
    have := h t (List.mem_range.mpr hlt)
    rw [List.getD_eq_getElem?_getD, ho] at this
    simp only [beq_self_eq_true, Option.getD_some, Bool.true_and, Bool.not_eq_true', Bool.not_eq_false, List.isEmpty_iff] at this
    exact hq o (List.mem_of_getElem? ho) this i

/-- After the events, a written cell has its new value. -/
theorem runStore_written {k counter : Nat} {temps : List Nat} {outs : List (StepOut n)} (hq : Quiet outs) (fs : List (Frame n))
    (evs : List (StoreEv n)) {t : Nat} {f : Frame n} (hf : fs[t]? = some f) {i : Fin n} (hw : Written k evs t i) :
    ∃ g, (runStore k counter temps outs fs evs).field[t]? = some g ∧ g i = updateFrame counter temps f (outs.getD t (initStep zeroFrame 0)) i := by
  have h0 : StoreInv counter temps outs fs ⟨fs, fun _ => none⟩ := ⟨.refl _ _ _ _, fun _ _ _ h => by cases h⟩
  by_cases hm : chunkHasMerge k outs (t / k) = true
  · obtain ⟨j, which, pre, mid, post, rfl, hwh, hmid⟩ := hw
    unfold runStore
    rw [List.foldl_append, List.foldl_cons, List.foldl_append, List.foldl_cons]
    have h1 := foldl_storeInv (k := k) pre h0
    have h2 := storeStep_inv (k := k) h1 (.read j (t / k))
    have h3 := foldl_storeInv (k := k) mid h2
    have hmem := foldl_store_mem (k := k) (counter := counter) (temps := temps) (outs := outs) mid
      (st := storeStep k counter temps outs (pre.foldl (storeStep k counter temps outs) ⟨fs, fun _ => none⟩) (.read j (t / k))) hmid
    generalize hst : mid.foldl (storeStep k counter temps outs) _ = st at h3 hmem ⊢
    have hsnap : ∃ snap, st.mem j = some (t / k, snap) := ⟨_, by rw [hmem]; simp [storeStep]; rfl⟩
    obtain ⟨snap, hsnap⟩ := hsnap
    have h4 := storeStep_inv (k := k) h3 (.write j which)
    have hlt : t < st.field.length := by rw [h3.field.1]; exact (List.getElem?_eq_some_iff.mp hf).1
    refine foldl_store_new post h4 hf
      (g := fun i => if which t i = true then updateFrame counter temps (snap.getD t zeroFrame) (outs.getD t (initStep zeroFrame 0)) i else (st.field[t]) i)
      (i := i) ?_ ?_
    · simp only [storeStep, hsnap]
      rw [if_pos hm]
      rw [List.getElem?_mapIdx, List.getElem?_eq_getElem hlt]
      simp
    · rw [if_pos hwh]
      exact (h3.mem _ _ _ hsnap).update hf i
  · have hn := chunkHasMerge_false hq (by simpa using hm) i
    have hinv := foldl_storeInv (k := k) evs h0
    have hlt : t < (runStore k counter temps outs fs evs).field.length := by
      have := hinv.field.1
      unfold runStore
      rw [this]; exact (List.getElem?_eq_some_iff.mp hf).1
    refine ⟨_, List.getElem?_eq_getElem hlt, ?_⟩
    rcases hinv.field.2 t f _ hf (List.getElem?_eq_getElem hlt) i with h | h
    · have : updateFrame counter temps f (outs.getD t (initStep zeroFrame 0)) i = f i := by unfold updateFrame; rw [hn]
      rw [this]; exact h
    · exact h

theorem runStore_exact {k counter : Nat} {temps : List Nat} {outs : List (StepOut n)} (hq : Quiet outs) (fs : List (Frame n))
    (hlen : outs.length = fs.length) (evs : List (StoreEv n)) (hw : ∀ t, t < fs.length → ∀ i, Written k evs t i) :
    (runStore k counter temps outs fs evs).field = (fs.zip outs).map fun p => updateFrame counter temps p.1 p.2 := by
  have h0 : StoreInv counter temps outs fs ⟨fs, fun _ => none⟩ := ⟨.refl _ _ _ _, fun _ _ _ h => by cases h⟩
  have hl : (runStore k counter temps outs fs evs).field.length = fs.length := (foldl_storeInv (k := k) evs h0).field.1
  apply List.ext_getElem?
  intro t
  by_cases ht : t < fs.length
  · have hf : fs[t]? = some fs[t] := List.getElem?_eq_getElem ht
    have ho : outs[t]? = some (outs[t]'(by omega)) := List.getElem?_eq_getElem _
    have hz : (fs.zip outs)[t]? = some (fs[t], outs[t]'(by omega)) := List.getElem?_zip_eq_some.mpr ⟨hf, ho⟩
    rw [List.getElem?_map, hz, List.getElem?_eq_getElem (by omega : t < (runStore k counter temps outs fs evs).field.length)]
    simp only [Option.map_some, Option.some.injEq]
    funext i
    obtain ⟨g, hg, hv⟩ := runStore_written (counter := counter) (temps := temps) hq fs evs hf (hw t ht i)
    rw [List.getElem?_eq_getElem (by omega : t < (runStore k counter temps outs fs evs).field.length), Option.some.injEq] at hg
    rw [hg, hv, List.getD_eq_getElem?_getD, ho]
    rfl
  · rw [List.getElem?_eq_none (by omega), List.getElem?_eq_none (by rw [List.length_map, List.length_zip]; omega)]

theorem updateOnDisk_exact {k counter : Nat} {temps : List Nat} {outs : List (StepOut n)} (hq : Quiet outs) (fs : List (Frame n))
    (hlen : outs.length = fs.length) (evs : List (StoreEv n)) (hw : ∀ t, t < fs.length → ∀ i, Written k evs t i) :
    updateOnDisk k counter temps outs (some fs) fs evs = some ((fs.zip outs).map fun p => updateFrame counter temps p.1 p.2) := by
  unfold updateOnDisk
  split
  · rename_i ha
    rw [List.all_eq_true] at ha
    congr 1
    apply List.ext_getElem?
    intro t
    by_cases ht : t < fs.length
    · have hf : fs[t]? = some fs[t] := List.getElem?_eq_getElem ht
      have ho : outs[t]? = some (outs[t]'(by omega)) := List.getElem?_eq_getElem _
      have hz : (fs.zip outs)[t]? = some (fs[t], outs[t]'(by omega)) := List.getElem?_zip_eq_some.mpr ⟨hf, ho⟩
      rw [List.getElem?_map, hz, hf]
      simp only [Option.map_some, Option.some.injEq]
      funext i
      unfold updateFrame
      rw [hq _ (List.mem_of_getElem? ho) (by simpa using ha _ (List.mem_of_getElem? ho)) i]
    · rw [List.getElem?_eq_none (by omega), List.getElem?_eq_none (by rw [List.length_map, List.length_zip]; omega)]
  · rw [Option.getD_some, runStore_exact hq fs hlen evs hw]

theorem processChunks_rows_length {c : MeshCfg n} (htc : 0 < c.timechunks) (fs : List (Frame n)) (merging : List Nat) (counter : Nat)
    {outs : List (StepOut n)} {fin : List Nat}
    (h : processChunks c (piecesOf c.timechunks fs.length (rowsOf c fs merging counter)) = .ok (outs, fin)) : outs.length = fs.length := by
  rw [processChunks_length _ h, piecesOf_flatten _ htc _ _ (by rw [rowsOf_length]), rowsOf_length]

theorem diskIteration_exact (c : MeshCfg n) (htc : 0 < c.timechunks) (evs : List (StoreEv n)) (s : DiskState n) (fs : List (Frame n))
    (hd : s.disk = some fs) (hw : ∀ t, t < fs.length → ∀ i, Written c.timechunks evs t i) :
    (∀ e, parIteration c (s.load fs) = .error e → diskIteration c evs s = .error (.track e)) ∧
    ∀ s', parIteration c (s.load fs) = .ok s' →
      diskIteration c evs s = .ok ⟨some s'.fs, s'.merging, s'.processed, s'.counter, s'.recs⟩ ∧ s'.fs.length = fs.length := by
  unfold parIteration diskIteration DiskState.load
  rw [hd]
  dsimp only
  cases hi : idTime fs s.counter 0 with
  | error e0 => exact ⟨fun e h => by cases h; rfl, fun s' h => by cases h⟩
  | ok _ =>
    dsimp only
    cases hp : processChunks c (piecesOf c.timechunks fs.length (rowsOf c fs s.merging s.counter)) with
    | error e0 => exact ⟨fun e h => by cases h; rfl, fun s' h => by cases h⟩
    | ok r =>
      obtain ⟨outs, fin⟩ := r
      refine ⟨fun e h => (by cases h), fun s' h => ?_⟩
      have hl := processChunks_rows_length htc _ _ _ hp
      dsimp only at h ⊢
      rw [updateOnDisk_exact (processChunks_quiet _ hp) fs hl evs hw]
      cases h
      refine ⟨rfl, ?_⟩
      rw [List.length_map, List.length_zip]
      omega

theorem diskLoop_exact (c : MeshCfg n) (htc : 0 < c.timechunks) (sched : Nat → List (StoreEv n)) (L : Nat)
    (hw : ∀ it t, t < L → ∀ i, Written c.timechunks (sched it) t i) (fuel it : Nat) (s : DiskState n) (fs : List (Frame n))
    (hd : s.disk = some fs) (hL : fs.length = L) :
    (∀ e, parLoop c fuel (s.load fs) = .error e → diskLoop c sched (fun _ d => d) fuel it s = .error (.track e)) ∧
    ∀ s', parLoop c fuel (s.load fs) = .ok s' →
      diskLoop c sched (fun _ d => d) fuel it s = .ok ⟨some s'.fs, s'.merging, s'.processed, s'.counter, s'.recs⟩ := by
  induction fuel generalizing it s fs with
  | zero => exact ⟨fun e h => by cases h; rfl, fun s' h => by cases h⟩
  | succ fuel ih =>
    rw [parLoop, diskLoop]
    have hm : (s.load fs).merging = s.merging := rfl
    rw [hm]
    by_cases he : s.merging.isEmpty = true
    · rw [if_pos he, if_pos he]
      refine ⟨fun e h => (by cases h), fun s' h => ?_⟩
      cases h
      rw [hd]
      rfl
    · rw [if_neg he, if_neg he]
      have hit := diskIteration_exact c htc (sched it) s fs hd (fun t ht => hw it t (by omega))
      cases hp : parIteration c (s.load fs) with
      | error e0 =>
        dsimp only
        refine ⟨fun e h => ?_, fun s' h => by cases h⟩
        cases h
        rw [hit.1 e0 hp]
      | ok s1 =>
        obtain ⟨h1, h2⟩ := hit.2 s1 hp
        dsimp only
        rw [h1]
        exact ih (it + 1) ⟨some s1.fs, s1.merging, s1.processed, s1.counter, s1.recs⟩ s1.fs rfl (by omega)

/-- **C152**: the split-and-merge of a mesh run through the temporary store gives exactly the result (or the error) of the same algorithm in
memory — whatever an earlier run, finished or not, has left in `temp_dir` (`left`), in whatever order the update tasks run and overlap, and
however often a task dies after writing any part of its region and is run again —, provided that in every iteration every cell is in the
end written by an execution that had read its chunk. -/
theorem C152_store_is_transparent (c : MeshCfg n) (htc : 0 < c.timechunks) (cen : Frame n → Nat → ℚ × ℚ) (sched : Nat → List (StoreEv n))
    (fs : List (Frame n)) (props : List Obj) (left : Option (List (Frame n)))
    (hw : ∀ it t, t < fs.length → ∀ i, Written c.timechunks (sched it) t i) :
    diskSplitMerge c cen sched (fun _ d => d) left fs props = (splitAndMergeParallel c cen fs props).mapError DErr.track := by
  unfold diskSplitMerge splitAndMergeParallel
  have h := diskLoop_exact c htc sched fs.length hw c.maxIter 0
    ⟨refreshStore (removeStore left) fs, (parInit c fs props).merging, (parInit c fs props).processed, (parInit c fs props).counter,
      (parInit c fs props).recs⟩ fs rfl rfl
  have hl : (DiskState.load ⟨refreshStore (removeStore left) fs, (parInit c fs props).merging, (parInit c fs props).processed,
    (parInit c fs props).counter, (parInit c fs props).recs⟩ fs) = parInit c fs props := rfl
  rw [hl] at h
  dsimp only
  cases hp : parLoop c c.maxIter (parInit c fs props) with
  | error e => rw [h.1 e hp]; rfl
  | ok s => rw [h.2 s hp]; rfl

/-- A schedule of the example with a chunk of four steps: execution 0 reads the chunk, writes the cells below 5 of its region and dies;
execution 1 reads what is there then and writes everything; execution 2, a duplicate that started before, overwrites the odd cells. -/
def retrySched : List (StoreEv 9) :=
  [.read 0 0, .read 2 0, .write 0 fun _ i => decide (i.val < 5), .read 1 0, .write 1 fun _ _ => true, .write 2 fun _ i => i.val % 2 == 1]

-- non-vacuity: with this schedule in every iteration the hypotheses hold, and the run of the record with two merges finishes
example : ∀ _it t : Nat, t < meshRecord.length → ∀ i, Written (lineCfg 4 40).timechunks retrySched t i := by
  intro _ t ht i
  have h4 : t / 4 = 0 := Nat.div_eq_of_lt ht
  have hk : (lineCfg 4 40).timechunks = 4 := rfl
  rw [hk]
  refine ⟨1, fun _ _ => true, [.read 0 0, .read 2 0, .write 0 fun _ i => decide (i.val < 5)], [], [.write 2 fun _ i => i.val % 2 == 1], ?_, rfl,
    fun ch h => by cases h⟩
  rw [h4]
  rfl

/-- Times, children and parents of merge records. -/
def recLists (l : List MergeRec) : List (Nat × List Nat × List Nat) := l.map fun m => (m.time, m.children, m.parents)

/-- Records of the first iteration of the example, and the records computed again after its update. -/
def recordsLost (tc : Nat) : Except TErr (List (Nat × List Nat × List Nat) × List (Nat × List Nat × List Nat)) :=
  let s := parInit (lineCfg tc 40) meshRecord meshProps
  match parIteration (lineCfg tc 40) s with
  | .error e => .error e
  | .ok s' =>
    match recordsAfterLoss (lineCfg tc 40) s s'.fs [8, 9, 10, 11] with
    | .error e => .error e
    | .ok l => .ok (recLists s'.recs, recLists l)

/-- **C153**, the part that holds: results of the parallel step that are lost before the store is updated are computed again as they were. -/
theorem C153_loss_before_update_partial (c : MeshCfg n) (s s' : ParState n) (h : parIteration c s = .ok s') :
    ∃ outs fin temps, processChunks c (piecesOf c.timechunks s.fs.length (rowsOf c s.fs s.merging s.counter)) = .ok (outs, fin) ∧
      recordsAfterLoss c s s.fs temps = .ok (recordsOf s.counter temps outs) ∧ s'.recs = s.recs ++ recordsOf s.counter temps outs := by
  unfold parIteration at h
  split at h
  · cases h
  · split at h
    · cases h
    · rename_i outs fin hp
      cases h
      refine ⟨outs, fin, tempIds s.counter outs, hp, ?_, rfl⟩
      unfold recordsAfterLoss
      have hz : ((rowsOf c s.fs s.merging s.counter).zip (rowsOf c s.fs s.merging s.counter)).map
          (fun p => { p.1 with m1 := p.2.m1, p1 := p.2.p1 }) = rowsOf c s.fs s.merging s.counter := by
        apply List.ext_getElem?
        intro t
        cases hr : (rowsOf c s.fs s.merging s.counter)[t]? with
        | none => rw [List.getElem?_map, List.getElem?_eq_none (by simpa using hr)]; rfl
        | some r => rw [List.getElem?_map, (List.getElem?_zip_eq_some (z := (r, r))).mpr ⟨hr, hr⟩]; rfl
      rw [hz, hp]

/-- **C153** fails: in the example the first iteration splits object 5 among its four parents and object 7 among two. If the results of the
parallel step are lost after the store has been updated — a worker dies —, the scheduler computes them again from the updated store, in
which the objects are already split, and no merge is recorded at all. -/
theorem C153_loss_after_update_fails :
    (match recordsLost 4 with
     | .ok r => r == ([(1, [5, 8, 9, 10], [1, 2, 3, 4]), (2, [7, 11], [6, 10])], [])
     | .error _ => false) = true := by
  decide +kernel

/-! ### Two trackers with one `temp_dir` -/

/-- **C154**, the part that holds: trackers run one after the other with one `temp_dir` do not influence each other. Whatever earlier runs
did to the store, finished or broken off anywhere (`history`: any sequence of changes), a run from the constructor on that nobody
interferes with gives the result of the algorithm in memory. -/
theorem C154_one_after_another_partial (c : MeshCfg n) (htc : 0 < c.timechunks) (cen : Frame n → Nat → ℚ × ℚ)
    (sched : Nat → List (StoreEv n)) (history : List (Option (List (Frame n)) → Option (List (Frame n)))) (fs : List (Frame n))
    (props : List Obj) (hw : ∀ it t, t < fs.length → ∀ i, Written c.timechunks (sched it) t i) :
    diskSplitMerge c cen sched (fun _ d => d) (history.foldl (fun d f => f d) none) fs props =
      (splitAndMergeParallel c cen fs props).mapError DErr.track :=
  C152_store_is_transparent c htc cen sched fs props _ hw

theorem processMeshChild_empty {c : MeshCfg n} {p1 : Frame n} {st : StepOut n} {child : Nat} :
    processMeshChild c zeroFrame p1 st child = .ok st := by
  have h0 : idsUnder zeroFrame st.cur child = [] := by
    rw [List.eq_nil_iff_forall_not_mem]
    intro x hx
    obtain ⟨hp, i, hi, _⟩ := mem_idsUnder.mp hx
    rw [← hi] at hp
    exact absurd hp (lt_irrefl _)
  unfold processMeshChild
  rw [h0, gatherParents]
  rfl

theorem runQueue_empty {c : MeshCfg n} {p1 : Frame n} (q : List Nat) (st : StepOut n) : runQueue c zeroFrame p1 q st = .ok st := by
  induction q with
  | nil => rfl
  | cons k ks ih => rw [runQueue, processMeshChild_empty]; exact ih

theorem chunkGo_empty {c : MeshCfg n} (rs : List (Row n)) (hr : ∀ r ∈ rs, r.p1 = zeroFrame) (extra : List Nat) {outs : List (StepOut n)}
    {fin : List Nat} (h : chunkGo c zeroFrame zeroFrame extra rs = .ok (outs, fin)) : (∀ o ∈ outs, o.merges = []) ∧ fin = [] := by
  induction rs generalizing extra outs fin with
  | nil => cases h; exact ⟨fun o ho => (by cases ho), rfl⟩
  | cons r rs ih =>
    rw [chunkGo, runQueue_empty] at h
    dsimp only at h
    have hz : (initStep (n := n) zeroFrame r.off).cur = zeroFrame := rfl
    split at h
    · have : addNew [] (initStep (n := n) zeroFrame r.off).found = [] := rfl
      rw [this] at h
      simp only [List.length_nil, Nat.not_lt_zero, if_false] at h
      cases h
      refine ⟨fun o ho => ?_, rfl⟩
      rw [List.mem_singleton] at ho
      rw [ho]
      rfl
    · rw [hz, hr r (List.mem_cons_self ..)] at h
      split at h
      · cases h
      · rename_i outs' fin' hg
        cases h
        obtain ⟨h1, h2⟩ := ih (fun r' hr' => hr r' (List.mem_cons_of_mem _ hr')) _ hg
        refine ⟨fun o ho => ?_, h2⟩
        rcases List.mem_cons.mp ho with rfl | ho
        · rfl
        · exact h1 o ho

theorem processChunks_empty {c : MeshCfg n} (chs : List (List (Row n))) (hr : ∀ ch ∈ chs, ∀ r ∈ ch, r.m1 = zeroFrame ∧ r.p1 = zeroFrame)
    {outs : List (StepOut n)} {fin : List Nat} (h : processChunks c chs = .ok (outs, fin)) : (∀ o ∈ outs, o.merges = []) ∧ fin = [] := by
  induction chs generalizing outs fin with
  | nil => cases h; exact ⟨fun o ho => (by cases ho), rfl⟩
  | cons ch chs ih =>
    rw [processChunks] at h
    split at h
    · cases h
    · rename_i o1 f1 h1
      split at h
      · cases h
      · rename_i o2 f2 h2
        cases h
        obtain ⟨h3, h4⟩ := ih (fun ch' hc => hr ch' (List.mem_cons_of_mem _ hc)) h2
        have h5 : (∀ o ∈ o1, o.merges = []) ∧ f1 = [] := by
          have hc := hr ch (List.mem_cons_self ..)
          match ch, h1, hc with
          | [], h1, _ => cases h1; exact ⟨fun o ho => (by cases ho), rfl⟩
          | [_], h1, _ => cases h1
          | r0 :: r1 :: rs, h1, hc =>
            rw [processChunk, (hc r0 (by simp)).1, (hc r1 (by simp)).1] at h1
            exact chunkGo_empty _ (fun r hr => (hc r hr).2) _ h1
        refine ⟨fun o ho => ?_, by rw [h5.2, h4]; rfl⟩
        rcases List.mem_append.mp ho with ho | ho
        · exact h5.1 o ho
        · exact h3 o ho

theorem mem_piecesOf {α : Type} {k fuel : Nat} {l : List α} {ch : List α} {a : α} (hc : ch ∈ piecesOf k fuel l) (ha : a ∈ ch) : a ∈ l := by
  induction fuel generalizing l with
  | zero => cases hc
  | succ fuel ih =>
    match l with
    | [] => cases hc
    | b :: l =>
      rw [piecesOf] at hc
      rcases List.mem_cons.mp hc with rfl | hc
      · exact List.mem_of_mem_take ha
      · exact List.mem_of_mem_drop (ih hc)

/-- An iteration on an empty store does nothing. -/
theorem diskIteration_empty {c : MeshCfg n} {evs : List (StoreEv n)} {s s' : DiskState n} {L : Nat}
    (hd : s.disk = some (List.replicate L zeroFrame)) (h : diskIteration c evs s = .ok s') :
    s'.disk = some (List.replicate L zeroFrame) ∧ s'.recs = s.recs := by
  unfold diskIteration at h
  rw [hd] at h
  dsimp only at h
  split at h
  · cases h
  · split at h
    · cases h
    · rename_i outs fin hp
      have hz : ∀ t, (List.replicate L (zeroFrame (n := n))).getD t zeroFrame = zeroFrame := by
        intro t
        rw [List.getD_eq_getElem?_getD, List.getElem?_replicate]
        split <;> rfl
      have he := processChunks_empty _ (fun ch hc r hr => by
        obtain ⟨t, _, rfl⟩ := List.mem_map.mp (mem_piecesOf hc hr)
        refine ⟨?_, hz _⟩
        dsimp only
        split
        · rfl
        · exact hz _) hp
      cases h
      refine ⟨?_, ?_⟩
      · unfold updateOnDisk
        rw [if_pos]
        rw [List.all_eq_true]
        intro o ho
        rw [he.1 o ho]
        rfl
      · have hr : recordsOf s.counter (tempIds s.counter outs) outs = [] := by
          rw [List.eq_nil_iff_forall_not_mem]
          intro m hm
          unfold recordsOf at hm
          obtain ⟨p, hp', hm⟩ := List.mem_flatMap.mp hm
          rw [he.1 p.2 (List.of_mem_zip hp').2] at hm
          cases hm
        dsimp only
        rw [hr, List.append_nil]

/-- The other tracker: just before the first iteration of this one it writes its own object field, which has no object, into the store
they share, and does nothing more. -/
def otherRefreshes (L : Nat) : Nat → Option (List (Frame n)) → Option (List (Frame n)) := fun it d =>
  if it = 0 then refreshStore d (List.replicate L zeroFrame) else d

theorem diskLoop_empty {c : MeshCfg n} {sched : Nat → List (StoreEv n)} {L : Nat} (fuel it : Nat) {s s' : DiskState n}
    (hd : otherRefreshes L it s.disk = some (List.replicate L zeroFrame)) (h : diskLoop c sched (otherRefreshes L) fuel it s = .ok s') :
    s'.disk = some (List.replicate L zeroFrame) ∧ s'.recs = s.recs := by
  induction fuel generalizing it s with
  | zero => cases h
  | succ fuel ih =>
    rw [diskLoop] at h
    split at h
    · cases h; exact ⟨hd, rfl⟩
    · split at h
      · cases h
      · rename_i s1 h1
        obtain ⟨h2, h3⟩ := diskIteration_empty (L := L) hd h1
        obtain ⟨h4, h5⟩ := ih (it + 1) (by unfold otherRefreshes; rw [if_neg (by omega)]; exact h2) h
        exact ⟨h4, by rw [h5]; exact h3⟩

/-- **C154** fails: let a tracker run on any record, and let another tracker with the same `temp_dir` and a record without objects write
its field before the first iteration of this one. Whenever this tracker returns, it returns a record without a single object and without a
merge, and raises nothing. -/
theorem C154_concurrent_trackers_fails (c : MeshCfg n) (cen : Frame n → Nat → ℚ × ℚ) (sched : Nat → List (StoreEv n))
    (left : Option (List (Frame n))) (fs : List (Frame n)) (props : List Obj) (r : SMResult n)
    (h : diskSplitMerge c cen sched (otherRefreshes fs.length) left fs props = .ok r) :
    (∀ f ∈ r.field, ∀ i, f i = 0) ∧ r.merges = [] := by
  unfold diskSplitMerge at h
  dsimp only at h
  split at h
  · cases h
  · rename_i s hs
    obtain ⟨h1, h2⟩ := diskLoop_empty (L := fs.length) c.maxIter 0 rfl hs
    rw [h1] at h
    cases h
    refine ⟨?_, ?_⟩
    · intro f hf i
      rw [List.eq_of_mem_replicate hf]
      rfl
    · rw [h2]; rfl

-- non-vacuity: the record of the example has objects and two merges, and its tracker returns
example : (match diskSplitMerge (lineCfg 4 40) (fun _ _ => (0, 0)) (fun _ => retrySched) (otherRefreshes 4) none meshRecord meshProps with
    | .ok r => r.field.length == 4 && r.merges.isEmpty
    | .error _ => false) = true := by
  decide +kernel

end MarEx.Props
