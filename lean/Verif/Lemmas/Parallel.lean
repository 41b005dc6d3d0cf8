import Verif.Model.Parallel
import Verif.Lemmas.Util
import Verif.Spec.Tracking
import Mathlib.Data.List.Forall2
/-! Invariants of the chunk-parallel split-and-merge. -/
namespace MarEx
variable {n : Nat}

/-- What holds of the result of one time step, relative to the frame `f` it started from and its first new ID `off`; all IDs of the
field are below `B`. -/
structure StepInv (B : Nat) (f : Frame n) (off : Nat) (st : StepOut n) : Prop where
  sup : ∀ i, 0 < st.cur i ↔ 0 < f i
  keep : ∀ i, st.upd i = none → st.cur i = f i
  new : ∀ i j, st.upd i = some j → st.updIds[j]? = some (st.cur i)
  ids : st.updIds = List.range' off st.updIds.length
  next : st.nextId = off + st.updIds.length
  kids : ∀ k ∈ st.updIds, ∃ m ∈ st.merges, k ∈ m.children
  recs : ∀ m ∈ st.merges, 2 ≤ m.parents.length ∧ m.children.length = m.parents.length ∧ m.areas.length = m.parents.length ∧
    m.children.Nodup ∧ ∃ k ks, m.children = k :: ks ∧ k < B ∧ (∀ x ∈ ks, x ∈ st.updIds)
  found : ∀ k ∈ st.found, 0 < k ∧ k < B

theorem initStep_inv (B : Nat) (f : Frame n) (off : Nat) : StepInv B f off (initStep f off) where
  sup := fun i => Iff.rfl
  keep := fun i _ => rfl
  new := fun i j h => by cases h
  ids := rfl
  next := rfl
  kids := fun k h => by cases h
  recs := fun m h => by cases h
  found := fun k h => by cases h

theorem idsUnder_pos {f g : Frame n} {k x : Nat} (h : x ∈ idsUnder f g k) : 0 < x := by
  unfold idsUnder at h
  rw [List.mem_filter] at h
  simpa using h.2

theorem idsUnder_lt {f g : Frame n} {k x B : Nat} (hB : ∀ i, f i < B) (h : x ∈ idsUnder f g k) : x < B := by
  unfold idsUnder at h
  rw [List.mem_filter, mem_npUnique, List.mem_map] at h
  obtain ⟨⟨i, _, rfl⟩, _⟩ := h
  exact hB i

theorem nextChildren_pos {c : MeshCfg n} {cur p1 : Frame n} {ids : List Nat} {x B : Nat} (hB : ∀ i, p1 i < B)
    (h : x ∈ nextChildren c cur p1 ids) : 0 < x ∧ x < B := by
  unfold nextChildren at h
  obtain ⟨k, _, h⟩ := List.mem_flatMap.mp h
  exact ⟨idsUnder_pos (List.mem_filter.mp h).1, idsUnder_lt hB (List.mem_filter.mp h).1⟩

theorem processMeshChild_inv {c : MeshCfg n} {m1 p1 f : Frame n} {off : Nat} {st st' : StepOut n} {child B : Nat} (hoff : 0 < off)
    (hBo : B ≤ off) (hB : ∀ i, p1 i < B) (hi : StepInv B f off st) (hc : 0 < child ∧ child < B)
    (h : processMeshChild c m1 p1 st child = .ok st') : StepInv B f off st' := by
  unfold processMeshChild at h
  split at h
  · cases h
  · rename_i ps hps
    split at h
    · cases h; exact hi
    · rename_i hlen
      dsimp only at h
      split at h
      · cases h
      · split at h
        · cases h
        · rename_i hidx
          split at h
          · cases h
          · simp only [Except.ok.injEq] at h
            subst h
            generalize hN : List.range' st.nextId (ps.length - 1) = newIds at *
            generalize hI : c.part m1 st.cur child (ps.map (·.1)) = idx at *
            have hlenN : newIds.length = ps.length - 1 := by rw [← hN, List.length_range']
            have hidx' : ∀ i, st.cur i = child → idx i < (child :: newIds).length := by
              intro i hci
              by_contra hge
              apply hidx
              rw [List.any_eq_true]
              exact ⟨i, List.mem_finRange _, by simp only [Bool.and_eq_true, beq_iff_eq, decide_eq_true_eq]; exact ⟨hci, by omega⟩⟩
            have hlabmem : ∀ i, st.cur i = child → (child :: newIds).getD (idx i) 0 ∈ child :: newIds := by
              intro i hci
              have := hidx' i hci
              rw [List.getD_eq_getElem _ _ this]
              exact List.getElem_mem _
            have hnewpos : ∀ k ∈ newIds, 0 < k := by
              intro k hk
              rw [← hN, List.mem_range'_1, hi.next] at hk
              omega
            have hnodup : newIds.Nodup := by rw [← hN]; exact List.nodup_range'
            constructor
            · intro i
              dsimp only
              split
              · rename_i hci
                rw [← hi.sup i, hci]
                have := hlabmem i hci
                rcases List.mem_cons.mp this with h | h
                · rw [h]
                · exact ⟨fun _ => hc.1, fun _ => hnewpos _ h⟩
              · exact hi.sup i
            · intro i hu
              dsimp only at hu ⊢
              split at hu
              · cases hu
              · rename_i hn
                split
                · rename_i hci
                  have hl := hlabmem i hci
                  rcases List.mem_cons.mp hl with h | h
                  · rw [h, ← hci]; exact hi.keep i hu
                  · exact absurd ⟨hci, h⟩ hn
                · exact hi.keep i hu
            · intro i j hu
              dsimp only at hu ⊢
              split at hu
              · rename_i hn
                cases hu
                rw [if_pos hn.1, List.getElem?_append_right (by omega), Nat.add_sub_cancel_left]
                rw [List.getElem?_eq_getElem (List.idxOf_lt_length_iff.mpr hn.2), List.getElem_idxOf]
              · rename_i hn
                have hj := hi.new i j hu
                have hjl := (List.getElem?_eq_some_iff.mp hj).1
                rw [List.getElem?_append_left hjl]
                split
                · rename_i hci
                  have hl := hlabmem i hci
                  rcases List.mem_cons.mp hl with h | h
                  · rw [h, ← hci]; exact hj
                  · exact absurd ⟨hci, h⟩ hn
                · exact hj
            · dsimp only
              rw [List.length_append, ← hN, List.length_range', hi.next, ← List.range'_append_1]
              congr 1
              exact hi.ids
            · dsimp only
              rw [List.length_append, hlenN, hi.next]; omega
            · intro k hk
              dsimp only at hk ⊢
              rcases List.mem_append.mp hk with hk | hk
              · obtain ⟨m, hm, hkm⟩ := hi.kids k hk
                exact ⟨m, List.mem_append_left _ hm, hkm⟩
              · exact ⟨_, List.mem_append_right _ (List.mem_singleton_self _), List.mem_cons_of_mem _ hk⟩
            · intro m hm
              dsimp only at hm
              rcases List.mem_append.mp hm with hm | hm
              · obtain ⟨a, b, c', d, k, ks, e1, e2, e3⟩ := hi.recs m hm
                exact ⟨a, b, c', d, k, ks, e1, e2, fun x hx => List.mem_append_left _ (e3 x hx)⟩
              · rw [List.mem_singleton] at hm
                subst hm
                refine ⟨by rw [List.length_map]; omega, ?_, by rw [List.length_map, List.length_map], ?_,
                  child, newIds, rfl, hc.2, fun x hx => List.mem_append_right _ hx⟩
                · rw [List.length_map, List.length_cons, hlenN]; omega
                · refine List.nodup_cons.mpr ⟨?_, hnodup⟩
                  intro hm
                  rw [← hN, List.mem_range'_1, hi.next] at hm
                  omega
            · intro k hk
              dsimp only at hk
              rcases List.mem_append.mp hk with hk | hk
              · exact hi.found k hk
              · exact nextChildren_pos hB hk

theorem runQueue_inv {c : MeshCfg n} {m1 p1 f : Frame n} {off B : Nat} (hoff : 0 < off) (hBo : B ≤ off) (hB : ∀ i, p1 i < B)
    (q : List Nat) {st st' : StepOut n}
    (hi : StepInv B f off st) (hq : ∀ k ∈ q, 0 < k ∧ k < B) (h : runQueue c m1 p1 q st = .ok st') : StepInv B f off st' := by
  induction q generalizing st with
  | nil => rw [runQueue] at h; cases h; exact hi
  | cons k q ih =>
    rw [runQueue] at h
    split at h
    · cases h
    · rename_i s1 h1
      exact ih (processMeshChild_inv hoff hBo hB hi (hq k (by simp)) h1) (fun x hx => hq x (by simp [hx])) h

theorem nodup_addNew {q new : List Nat} (h : q.Nodup) : (addNew q new).Nodup := by
  unfold addNew
  induction new generalizing q with
  | nil => exact h
  | cons x xs ih =>
    rw [List.foldl_cons]
    apply ih
    split
    · exact h
    · rename_i hx
      rw [List.nodup_append]
      refine ⟨h, by simp, ?_⟩
      intro a ha b hb
      simp only [List.mem_singleton] at hb
      subst hb
      rintro rfl
      exact hx (by simpa using ha)

theorem mem_addNew {q new : List Nat} {x : Nat} : x ∈ addNew q new ↔ x ∈ q ∨ x ∈ new := by
  unfold addNew
  induction new generalizing q with
  | nil => simp
  | cons a new ih =>
    rw [List.foldl_cons, ih]
    split
    · rename_i h
      rw [List.contains_iff_mem] at h
      constructor
      · rintro (h1 | h1)
        · exact .inl h1
        · exact .inr (by simp [h1])
      · rintro (h1 | h1)
        · exact .inl h1
        · rcases List.mem_cons.mp h1 with rfl | h1
          · exact .inl h
          · exact .inr h1
    · rw [List.mem_append, List.mem_singleton, List.mem_cons, or_assoc]

/-- Frames and rows belong together: the shifted fields of the rows are the neighbouring frames. -/
def AlignedRows : List (Frame n × Row n) → Prop
  | [] => True
  | [_] => True
  | a :: b :: l => a.2.p1 = b.1 ∧ b.2.m1 = a.1 ∧ AlignedRows (b :: l)

theorem AlignedRows.tail {a : Frame n × Row n} {l : List (Frame n × Row n)} (h : AlignedRows (a :: l)) : AlignedRows l := by
  cases l with
  | nil => trivial
  | cons b l => exact h.2.2

theorem AlignedRows.take {l : List (Frame n × Row n)} (h : AlignedRows l) (k : Nat) : AlignedRows (l.take k) := by
  induction l generalizing k with
  | nil => simp [AlignedRows]
  | cons a l ih =>
    cases k with
    | zero => simp [AlignedRows]
    | succ k =>
      rw [List.take_succ_cons]
      have h2 := ih h.tail k
      cases l with
      | nil => simp [AlignedRows]
      | cons b l =>
        cases k with
        | zero => simp [AlignedRows]
        | succ k =>
          rw [List.take_succ_cons] at h2 ⊢
          exact ⟨h.1, h.2.1, h2⟩

theorem AlignedRows.drop {l : List (Frame n × Row n)} (h : AlignedRows l) (k : Nat) : AlignedRows (l.drop k) := by
  induction k generalizing l with
  | zero => simpa using h
  | succ k ih =>
    cases l with
    | nil => simp [AlignedRows]
    | cons a l => rw [List.drop_succ_cons]; exact ih h.tail

/-- The rows are admissible: first new IDs not below `B`, field and queued IDs below `B`. -/
def RowsOK (B : Nat) (l : List (Frame n × Row n)) : Prop :=
  ∀ p ∈ l, 0 < p.2.off ∧ B ≤ p.2.off ∧ (∀ i, p.2.p1 i < B) ∧ ∀ k ∈ p.2.queue, 0 < k ∧ k < B

theorem chunkGo_inv {c : MeshCfg n} {B : Nat} (l : List (Frame n × Row n)) (ha : AlignedRows l) (hr : RowsOK B l) (m1 cur : Frame n) (extra : List Nat)
    (hcur : ∀ p, l.head? = some p → p.1 = cur) (he : ∀ k ∈ extra, 0 < k ∧ k < B) {outs : List (StepOut n)} {fin : List Nat}
    (h : chunkGo c m1 cur extra (l.map (·.2)) = .ok (outs, fin)) :
    List.Forall₂ (fun p o => StepInv B p.1 p.2.off o) l outs ∧ ∀ k ∈ fin, 0 < k ∧ k < B := by
  induction l generalizing m1 cur extra outs fin with
  | nil =>
    rw [List.map_nil, chunkGo] at h
    cases h
    exact ⟨.nil, by simp⟩
  | cons p l ih =>
    rw [List.map_cons, chunkGo] at h
    have hp := hr p (by simp)
    have hpc : p.1 = cur := hcur p rfl
    split at h
    · cases h
    · rename_i st hst
      have hinv : StepInv B p.1 p.2.off st := by
        rw [hpc]
        refine runQueue_inv hp.1 hp.2.1 hp.2.2.1 _ (initStep_inv _ _ _) ?_ hst
        intro k hk
        rcases mem_addNew.mp hk with hk | hk
        · exact hp.2.2.2 k hk
        · exact he k hk
      split at h
      · rename_i hemp
        split at h
        · cases h
        · cases h
          have hl : l = [] := by simpa using hemp
          subst hl
          refine ⟨.cons hinv .nil, ?_⟩
          intro k hk
          rcases mem_addNew.mp hk with hk | hk
          · cases hk
          · exact hinv.found k hk
      · split at h
        · cases h
        · rename_i outs' fin' hgo
          cases h
          have := ih ha.tail (fun q hq => hr q (by simp [hq])) st.cur p.2.p1 st.found (by
            intro q hq
            cases l with
            | nil => cases hq
            | cons b l => cases hq; exact ha.1.symm) hinv.found hgo
          exact ⟨.cons hinv this.1, this.2⟩

theorem processChunk_inv {c : MeshCfg n} {B : Nat} (l : List (Frame n × Row n)) (ha : AlignedRows l) (hr : RowsOK B l)
    {outs : List (StepOut n)} {fin : List Nat} (h : processChunk c (l.map (·.2)) = .ok (outs, fin)) :
    List.Forall₂ (fun p o => StepInv B p.1 p.2.off o) l outs ∧ ∀ k ∈ fin, 0 < k ∧ k < B := by
  cases l with
  | nil =>
    rw [List.map_nil, processChunk] at h
    cases h
    exact ⟨.nil, by simp⟩
  | cons a l =>
    cases l with
    | nil => rw [List.map_cons, List.map_nil, processChunk] at h; cases h
    | cons b l =>
      rw [List.map_cons, List.map_cons, processChunk, ← List.map_cons, ← List.map_cons] at h
      exact chunkGo_inv _ ha hr _ _ _ (by intro p hp; cases hp; exact ha.2.1.symm) (by simp) h

theorem processChunks_inv {c : MeshCfg n} {B : Nat} (k : Nat) (hk : 0 < k) (fuel : Nat) (l : List (Frame n × Row n)) (hfuel : l.length ≤ fuel)
    (ha : AlignedRows l) (hr : RowsOK B l) {outs : List (StepOut n)} {fin : List Nat}
    (h : processChunks c (piecesOf k fuel (l.map (·.2))) = .ok (outs, fin)) :
    List.Forall₂ (fun p o => StepInv B p.1 p.2.off o) l outs ∧ ∀ k ∈ fin, 0 < k ∧ k < B := by
  induction fuel generalizing l outs fin with
  | zero =>
    have : l = [] := List.length_eq_zero_iff.mp (by omega)
    subst this
    rw [piecesOf, processChunks] at h
    cases h
    exact ⟨.nil, by simp⟩
  | succ fuel ih =>
    cases l with
    | nil =>
      rw [List.map_nil, piecesOf, processChunks] at h
      cases h
      exact ⟨.nil, by simp⟩
    | cons a l =>
      rw [List.map_cons, piecesOf, processChunks, ← List.map_cons, ← List.map_take, ← List.map_drop] at h
      split at h
      · cases h
      · rename_i o1 f1 h1
        split at h
        · cases h
        · rename_i o2 f2 h2
          cases h
          have r1 := processChunk_inv _ (ha.take k) (fun p hp => hr p (List.mem_of_mem_take hp)) h1
          have r2 := ih ((a :: l).drop k) (by rw [List.length_drop, List.length_cons]; rw [List.length_cons] at hfuel; omega)
            (ha.drop k) (fun p hp => hr p (List.mem_of_mem_drop hp)) h2
          refine ⟨?_, ?_⟩
          · rw [← List.take_append_drop k (a :: l)]
            exact List.rel_append r1.1 r2.1
          · intro x hx
            rcases List.mem_append.mp hx with hx | hx
            · exact r1.2 x hx
            · exact r2.2 x hx

theorem alignedRows_of_index (l : List (Frame n × Row n))
    (h : ∀ t a b, l[t]? = some a → l[t + 1]? = some b → a.2.p1 = b.1 ∧ b.2.m1 = a.1) : AlignedRows l := by
  induction l with
  | nil => trivial
  | cons a l ih =>
    cases l with
    | nil => trivial
    | cons b l =>
      have := h 0 a b rfl rfl
      exact ⟨this.1, this.2, ih fun t x y hx hy => h (t + 1) x y (by simpa using hx) (by simpa using hy)⟩

theorem forall₂_getElem? {α β : Type} {R : α → β → Prop} {l : List α} {m : List β} (h : List.Forall₂ R l m) (t : Nat) {a : α}
    (ha : l[t]? = some a) : ∃ b, m[t]? = some b ∧ R a b := by
  induction h generalizing t with
  | nil => cases ha
  | cons h1 _ ih =>
    cases t with
    | zero => simp at ha; subst ha; exact ⟨_, rfl, h1⟩
    | succ t => simp at ha; obtain ⟨b, hb, hr⟩ := ih t ha; exact ⟨b, by simpa using hb, hr⟩

theorem rowsOf_length (c : MeshCfg n) (fs : List (Frame n)) (merging : List Nat) (counter : Nat) :
    (rowsOf c fs merging counter).length = fs.length := by
  unfold rowsOf; rw [List.length_map, List.length_range]

theorem rowsOf_getElem? {c : MeshCfg n} {fs : List (Frame n)} {merging : List Nat} {counter t : Nat} {r : Row n}
    (h : (rowsOf c fs merging counter)[t]? = some r) :
    t < fs.length ∧ r = ⟨if t = 0 then zeroFrame else fs.getD (t - 1) zeroFrame, fs.getD (t + 1) zeroFrame,
      merging.filter fun b => timeOf fs b == t, t * maxMerges fs merging * c.timechunks + counter⟩ := by
  unfold rowsOf at h
  rw [List.getElem?_map] at h
  rcases Nat.lt_or_ge t fs.length with hlt | hge
  · rw [List.getElem?_range hlt] at h
    simp only [Option.map_some, Option.some.injEq] at h
    exact ⟨hlt, h.symm⟩
  · rw [List.getElem?_eq_none (by rw [List.length_range]; exact hge)] at h
    cases h

theorem aligned_rowsOf (c : MeshCfg n) (fs : List (Frame n)) (merging : List Nat) (counter : Nat) :
    AlignedRows (fs.zip (rowsOf c fs merging counter)) := by
  apply alignedRows_of_index
  intro t a b ha hb
  rw [List.getElem?_zip_eq_some] at ha hb
  obtain ⟨hl1, h1⟩ := rowsOf_getElem? ha.2
  obtain ⟨hl2, h2⟩ := rowsOf_getElem? hb.2
  rw [h1, h2]
  refine ⟨?_, ?_⟩
  · dsimp only
    rw [List.getD_eq_getElem?_getD, hb.1]; rfl
  · dsimp only
    rw [if_neg (by omega), Nat.add_sub_cancel, List.getD_eq_getElem?_getD, ha.1]; rfl

theorem rowsOK_rowsOf (c : MeshCfg n) (fs : List (Frame n)) (merging : List Nat) (counter : Nat) (hc : 0 < counter)
    (hf : ∀ f ∈ fs, ∀ i, f i < counter) (hm : ∀ k ∈ merging, 0 < k ∧ k < counter) :
    RowsOK counter (fs.zip (rowsOf c fs merging counter)) := by
  intro p hp
  obtain ⟨t, ht⟩ := List.mem_iff_getElem?.mp hp
  rw [List.getElem?_zip_eq_some] at ht
  obtain ⟨hl, hr⟩ := rowsOf_getElem? ht.2
  rw [hr]
  refine ⟨by dsimp only; omega, by dsimp only; omega, ?_, ?_⟩
  · intro i
    dsimp only
    rw [List.getD_eq_getElem?_getD]
    cases hg : fs[t + 1]? with
    | none => simpa [zeroFrame] using hc
    | some g => exact hf g (List.mem_of_getElem? hg) i
  · intro k hk
    exact hm k (List.mem_filter.mp hk).1

/-- Everything about one iteration. -/
structure IterOut (c : MeshCfg n) (s s' : ParState n) (outs : List (StepOut n)) (fin : List Nat) : Prop where
  run : processChunks c (piecesOf c.timechunks s.fs.length (rowsOf c s.fs s.merging s.counter)) = .ok (outs, fin)
  res : s' = { fs := (s.fs.zip outs).map fun p => updateFrame s.counter (tempIds s.counter outs) p.1 p.2
               merging := (dedup (fin.map (lookupId s.counter (tempIds s.counter outs)))).filter fun k => !s.processed.contains k
               processed := s.processed ++ dedup (fin.map (lookupId s.counter (tempIds s.counter outs)))
               counter := s.counter + (tempIds s.counter outs).length
               recs := s.recs ++ recordsOf s.counter (tempIds s.counter outs) outs }
  len : outs.length = s.fs.length
  inv : ∀ (t : Nat) f, s.fs[t]? = some f → ∃ o, outs[t]? = some o ∧ StepInv s.counter f (t * maxMerges s.fs s.merging * c.timechunks + s.counter) o
  fin_ok : ∀ k ∈ fin, 0 < k ∧ k < s.counter

/-- The state of the main loop is sound: all IDs are below the counter. -/
structure ParOK (s : ParState n) : Prop where
  pos : 0 < s.counter
  field : ∀ f ∈ s.fs, ∀ i, f i < s.counter
  merging : ∀ k ∈ s.merging, 0 < k ∧ k < s.counter

theorem parIteration_out {c : MeshCfg n} {s s' : ParState n} (htc : 0 < c.timechunks) (hs : ParOK s) (h : parIteration c s = .ok s') :
    ∃ outs fin, IterOut c s s' outs fin := by
  unfold parIteration at h
  split at h
  · cases h
  · split at h
    · cases h
    · rename_i outs fin hrun
      simp only [Except.ok.injEq] at h
      have hz : ((s.fs.zip (rowsOf c s.fs s.merging s.counter)).map (·.2)) = rowsOf c s.fs s.merging s.counter := by
        exact List.map_snd_zip (by rw [rowsOf_length])
      have hi := processChunks_inv (B := s.counter) (c := c) c.timechunks htc s.fs.length (s.fs.zip (rowsOf c s.fs s.merging s.counter))
        (by rw [List.length_zip]; omega) (aligned_rowsOf _ _ _ _) (rowsOK_rowsOf _ _ _ _ hs.pos hs.field hs.merging) (by rw [hz]; exact hrun)
      refine ⟨outs, fin, hrun, h.symm, ?_, ?_, hi.2⟩
      · rw [← hi.1.length_eq, List.length_zip, rowsOf_length, Nat.min_self]
      · intro t f hf
        have hlt := (List.getElem?_eq_some_iff.mp hf).1
        have hr : (rowsOf c s.fs s.merging s.counter)[t]? = some ((rowsOf c s.fs s.merging s.counter)[t]'(by rw [rowsOf_length]; exact hlt)) :=
          List.getElem?_eq_getElem _
        obtain ⟨o, ho, hinv⟩ := forall₂_getElem? hi.1 t (a := (f, _)) (List.getElem?_zip_eq_some.mpr ⟨hf, hr⟩)
        refine ⟨o, ho, ?_⟩
        have := (rowsOf_getElem? hr).2
        rw [this] at hinv
        exact hinv

theorem mem_tempIds {counter : Nat} {outs : List (StepOut n)} {k : Nat} :
    k ∈ tempIds counter outs ↔ counter ≤ k ∧ ∃ o ∈ outs, ∃ m ∈ o.merges, k ∈ m.children := by
  unfold tempIds
  rw [mem_npUnique, List.mem_flatMap]
  constructor
  · rintro ⟨o, ho, h⟩
    obtain ⟨m, hm, h⟩ := List.mem_flatMap.mp h
    rw [List.mem_filter, decide_eq_true_eq] at h
    exact ⟨h.2, o, ho, m, hm, h.1⟩
  · rintro ⟨h1, o, ho, m, hm, hk⟩
    exact ⟨o, ho, List.mem_flatMap.mpr ⟨m, hm, List.mem_filter.mpr ⟨hk, by simpa using h1⟩⟩⟩

theorem lookup_old {counter : Nat} {temps : List Nat} {k : Nat} (h : ∀ x ∈ temps, counter ≤ x) (hk : k < counter) :
    lookupId counter temps k = k := by
  unfold lookupId
  rw [if_neg]
  rw [List.contains_iff_mem]
  intro hm
  have := h k hm
  omega

theorem lookup_new {counter : Nat} {temps : List Nat} {k : Nat} (hk : k ∈ temps) :
    counter ≤ lookupId counter temps k ∧ lookupId counter temps k < counter + temps.length := by
  unfold lookupId
  rw [if_pos (List.contains_iff_mem.mpr hk)]
  have := List.idxOf_lt_length_iff.mpr hk
  omega

theorem lookup_inj {counter : Nat} {temps : List Nat} {a b : Nat} (ha : a ∈ temps) (hb : b ∈ temps)
    (h : lookupId counter temps a = lookupId counter temps b) : a = b := by
  unfold lookupId at h
  rw [if_pos (List.contains_iff_mem.mpr ha), if_pos (List.contains_iff_mem.mpr hb)] at h
  have : temps.idxOf a = temps.idxOf b := by omega
  exact (List.idxOf_inj ha).mp this

/-- A cell after an iteration: it kept its ID, or it got the permanent ID of one of the new IDs of its step. -/
theorem IterOut.cell {c : MeshCfg n} {s s' : ParState n} {outs : List (StepOut n)} {fin : List Nat} (h : IterOut c s s' outs fin)
    {t : Nat} {f g : Frame n} (hf : s.fs[t]? = some f) (hg : s'.fs[t]? = some g) :
    ∃ o, outs[t]? = some o ∧ StepInv s.counter f (t * maxMerges s.fs s.merging * c.timechunks + s.counter) o ∧
      (∀ k ∈ o.updIds, k ∈ tempIds s.counter outs) ∧
      ∀ i, (g i = f i ∧ o.cur i = f i) ∨ (o.cur i ∈ o.updIds ∧ g i = lookupId s.counter (tempIds s.counter outs) (o.cur i)) := by
  obtain ⟨o, ho, hinv⟩ := h.inv t f hf
  have hgo : g = updateFrame s.counter (tempIds s.counter outs) f o := by
    rw [h.res] at hg
    dsimp only at hg
    rw [List.getElem?_map, (List.getElem?_zip_eq_some (z := (f, o))).mpr ⟨hf, ho⟩] at hg
    simp only [Option.map_some, Option.some.injEq] at hg
    exact hg.symm
  refine ⟨o, ho, hinv, ?_, ?_⟩
  · intro k hk
    obtain ⟨m, hm, hkm⟩ := hinv.kids k hk
    refine mem_tempIds.mpr ⟨?_, o, List.mem_of_getElem? ho, m, hm, hkm⟩
    rw [hinv.ids, List.mem_range'_1] at hk
    omega
  · intro i
    rw [hgo]
    unfold updateFrame
    cases hu : o.upd i with
    | none => exact .inl ⟨rfl, hinv.keep i hu⟩
    | some j =>
      have hj := hinv.new i j hu
      refine .inr ⟨List.mem_of_getElem? hj, ?_⟩
      dsimp only
      rw [List.getD_eq_getElem?_getD, hj]
      rfl

theorem IterOut.length {c : MeshCfg n} {s s' : ParState n} {outs : List (StepOut n)} {fin : List Nat} (h : IterOut c s s' outs fin) :
    s'.fs.length = s.fs.length := by
  rw [h.res]; simp [h.len]

theorem IterOut.pair {c : MeshCfg n} {s s' : ParState n} {outs : List (StepOut n)} {fin : List Nat} (h : IterOut c s s' outs fin)
    {t : Nat} {g : Frame n} (hg : s'.fs[t]? = some g) : ∃ f, s.fs[t]? = some f := by
  have := (List.getElem?_eq_some_iff.mp hg).1
  rw [h.length] at this
  exact ⟨_, List.getElem?_eq_getElem this⟩

theorem tempIds_ge {counter : Nat} {outs : List (StepOut n)} : ∀ x ∈ tempIds counter outs, counter ≤ x := fun _ hx => (mem_tempIds.mp hx).1

theorem IterOut.ok {c : MeshCfg n} {s s' : ParState n} {outs : List (StepOut n)} {fin : List Nat} (hs : ParOK s) (h : IterOut c s s' outs fin) :
    ParOK s' ∧ s.counter ≤ s'.counter := by
  have hcnt : s'.counter = s.counter + (tempIds s.counter outs).length := by rw [h.res]
  refine ⟨⟨?_, ?_, ?_⟩, by omega⟩
  · have := hs.pos; omega
  · intro g hg i
    obtain ⟨t, ht⟩ := List.mem_iff_getElem?.mp hg
    obtain ⟨f, hf⟩ := h.pair ht
    obtain ⟨o, ho, hinv, htemp, hcell⟩ := h.cell hf ht
    have h0 := hs.field f (List.mem_of_getElem? hf) i
    rcases hcell i with ⟨h1, _⟩ | ⟨h1, h2⟩
    · omega
    · have := lookup_new (counter := s.counter) (htemp _ h1)
      omega
  · intro k hk
    rw [h.res] at hk
    dsimp only at hk
    have hk1 := (List.mem_filter.mp hk).1
    unfold dedup at hk1
    rcases mem_addNew.mp hk1 with hk1 | hk1
    · cases hk1
    · obtain ⟨x, hx, rfl⟩ := List.mem_map.mp hk1
      have hx2 := h.fin_ok x hx
      rw [lookup_old tempIds_ge hx2.2, hcnt]
      omega

end MarEx
