import Verif.Props.Parallel
import Verif.Props.Partition
/-! Merges on meshes, one merging object and one time step at a time: C85; the bound on the number of iterations: C60. -/
namespace MarEx.Props
open MarEx MarEx.Spec

variable {n : Nat}

theorem mem_idsUnder {f g : Frame n} {k x : Nat} : x ∈ idsUnder f g k ↔ 0 < x ∧ ∃ i, f i = x ∧ g i = k := by
  unfold idsUnder
  rw [List.mem_filter, mem_npUnique, List.mem_map]
  constructor
  · rintro ⟨⟨i, hi, rfl⟩, h⟩
    exact ⟨by simpa using h, i, rfl, by simpa using (List.mem_filter.mp hi).2⟩
  · rintro ⟨h, i, rfl, hi⟩
    exact ⟨⟨i, List.mem_filter.mpr ⟨List.mem_finRange _, by simpa using hi⟩, rfl⟩, by simpa using h⟩

theorem sorted_idsUnder (f g : Frame n) (k : Nat) : (idsUnder f g k).Pairwise (· < ·) := (sorted_npUnique _).filter _

theorem objectArea_pos {w : Fin n → ℚ} (hw : ∀ i, 0 < w i) {f : Frame n} {i : Fin n} {k : Nat} (h : f i = k) : 0 < objectArea w f k := by
  unfold objectArea
  have hm : w i ∈ (List.finRange n).map fun i => if f i = k then w i else 0 :=
    List.mem_map.mpr ⟨i, List.mem_finRange _, by simp [h]⟩
  have hnn : ∀ x ∈ (List.finRange n).map fun i => if f i = k then w i else 0, 0 ≤ x := by
    intro x hx
    obtain ⟨j, _, rfl⟩ := List.mem_map.mp hx
    split
    · exact (hw j).le
    · exact le_refl _
  exact lt_of_lt_of_le (hw i) (List.single_le_sum hnn _ hm)

theorem accept_iff {w : Fin n → ℚ} (hw : ∀ i, 0 < w i) {f g : Frame n} {a b : Nat} {thr : ℚ} (h : ∃ i, f i = a ∧ g i = b) :
    ¬ overlapFraction w f a g b < thr ↔ thr * min (objectArea w f a) (objectArea w g b) ≤ commonArea w f a g b := by
  obtain ⟨i, hi, hj⟩ := h
  have hm : 0 < min (objectArea w f a) (objectArea w g b) := lt_min (objectArea_pos hw hi) (objectArea_pos hw hj)
  unfold overlapFraction
  rw [not_lt]
  change thr ≤ commonArea w f a g b / min (objectArea w f a) (objectArea w g b) ↔ _
  rw [le_div_iff₀ hm]

theorem queue_iff {w : Fin n → ℚ} (hw : ∀ i, 0 < w i) {f g : Frame n} {a b : Nat} {thr : ℚ} (h : ∃ i, f i = a ∧ g i = b) :
    thr < overlapFraction w f a g b ↔ thr * min (objectArea w f a) (objectArea w g b) < commonArea w f a g b := by
  obtain ⟨i, hi, hj⟩ := h
  have hm : 0 < min (objectArea w f a) (objectArea w g b) := lt_min (objectArea_pos hw hi) (objectArea_pos hw hj)
  unfold overlapFraction
  change thr < commonArea w f a g b / min (objectArea w f a) (objectArea w g b) ↔ _
  rw [lt_div_iff₀ hm]

/-- The accepted ones among candidate parents. -/
def acceptedOf (c : MeshCfg n) (m1 cur : Frame n) (child : Nat) (ps : List Nat) : List Nat :=
  ps.filter fun p => !decide (overlapFraction c.w m1 p cur child < c.thr)

theorem gatherParents_ok {c : MeshCfg n} {m1 cur : Frame n} {child : Nat} (ps : List Nat) {acc r : List (Nat × ℚ)}
    (h : gatherParents c m1 cur child ps acc = .ok r) :
    r = acc ++ (acceptedOf c m1 cur child ps).map fun p => (p, commonArea c.w m1 p cur child) := by
  induction ps generalizing acc with
  | nil => rw [gatherParents] at h; cases h; simp [acceptedOf]
  | cons p ps ih =>
    rw [gatherParents] at h
    split at h
    · cases h
    · split at h
      · rename_i h1
        rw [ih h]
        simp [acceptedOf, h1]
      · rename_i h1
        rw [ih h]
        simp only [acceptedOf, List.filter_cons]
        rw [if_pos (by simpa using h1)]
        simp [sharedArea, commonArea]

theorem gatherParents_error {c : MeshCfg n} {m1 cur : Frame n} {child : Nat} (ps : List Nat) {acc : List (Nat × ℚ)} {e : TErr}
    (h : gatherParents c m1 cur child ps acc = .error e) :
    e = .tooManyParents ∧ ∃ a q b, ps = a ++ q :: b ∧ 10 ≤ acc.length + (acceptedOf c m1 cur child a).length := by
  induction ps generalizing acc with
  | nil => rw [gatherParents] at h; cases h
  | cons p ps ih =>
    rw [gatherParents] at h
    split at h
    · rename_i h1
      cases h
      exact ⟨rfl, [], p, ps, rfl, by simp [acceptedOf]; exact h1⟩
    · split at h
      · rename_i h1
        obtain ⟨he, a, q, b, rfl, hle⟩ := ih h
        refine ⟨he, p :: a, q, b, rfl, ?_⟩
        rw [show acceptedOf c m1 cur child (p :: a) = acceptedOf c m1 cur child a by simp [acceptedOf, h1]]
        exact hle
      · rename_i h1
        obtain ⟨he, a, q, b, rfl, hle⟩ := ih h
        refine ⟨he, p :: a, q, b, rfl, ?_⟩
        rw [show acceptedOf c m1 cur child (p :: a) = p :: acceptedOf c m1 cur child a by
          unfold acceptedOf; rw [List.filter_cons, if_pos (by simpa using h1)]]
        simp only [List.length_append, List.length_cons, List.length_nil] at hle ⊢
        omega

theorem gatherParents_raises {c : MeshCfg n} {m1 cur : Frame n} {child : Nat} (a : List Nat) (q : Nat) (b : List Nat) (acc : List (Nat × ℚ))
    (h : 10 ≤ acc.length + (acceptedOf c m1 cur child a).length) :
    gatherParents c m1 cur child (a ++ q :: b) acc = .error .tooManyParents := by
  induction a generalizing acc with
  | nil =>
    rw [List.nil_append, gatherParents, if_pos (by simpa [acceptedOf] using h)]
  | cons p a ih =>
    rw [List.cons_append, gatherParents]
    split
    · rfl
    · split
      · rename_i h1
        apply ih
        rwa [show acceptedOf c m1 cur child (p :: a) = acceptedOf c m1 cur child a by simp [acceptedOf, h1]] at h
      · rename_i h1
        apply ih
        rw [show acceptedOf c m1 cur child (p :: a) = p :: acceptedOf c m1 cur child a by
          unfold acceptedOf; rw [List.filter_cons, if_pos (by simpa using h1)]] at h
        simp only [List.length_append, List.length_cons, List.length_nil] at h ⊢
        omega

/-- The parents that are accepted are exactly those with enough overlap. -/
theorem parentList_accepted {c : MeshCfg n} (hw : ∀ i, 0 < c.w i) (m1 cur : Frame n) (child : Nat) :
    ParentList c.w c.thr m1 cur child (acceptedOf c m1 cur child (idsUnder m1 cur child)) := by
  refine ⟨(sorted_idsUnder _ _ _).filter _, fun p => ?_⟩
  unfold acceptedOf OverlapEnough
  rw [List.mem_filter, mem_idsUnder]
  constructor
  · rintro ⟨⟨h0, hi⟩, h⟩
    exact ⟨h0, hi, (accept_iff hw hi).mp (by simpa using h)⟩
  · rintro ⟨h0, hi, h⟩
    exact ⟨⟨h0, hi⟩, by simpa using (accept_iff hw hi).mpr h⟩

theorem parentList_unique {w : Fin n → ℚ} {thr : ℚ} {f g : Frame n} {b : Nat} {l l' : List Nat} (h : ParentList w thr f g b l)
    (h' : ParentList w thr f g b l') : l = l' := by
  apply List.Perm.eq_of_pairwise (le := (· < ·))
  · intro a b _ _ h1 h2; omega
  · exact h.1
  · exact h'.1
  · rw [List.perm_ext_iff_of_nodup (h.1.imp fun hab => Nat.ne_of_lt hab) (h'.1.imp fun hab => Nat.ne_of_lt hab)]
    intro a; rw [h.2, h'.2]

/-- The result of processing one merging object `child` whose parents are `ps`: its cells are shared out among one piece per parent, the
first piece keeps the child's ID and the others get the next free IDs; a record with the parents and the shared areas is added; the objects of
the next step that overlap a piece by more than the threshold are noted. -/
structure SplitAmong (c : MeshCfg n) (m1 p1 : Frame n) (child : Nat) (ps : List Nat) (st st' : StepOut n) : Prop where
  children : ∃ m, st'.merges = st.merges ++ [m] ∧ m.children = child :: List.range' st.nextId (ps.length - 1) ∧ m.parents = ps ∧
    m.areas = ps.map fun p => commonArea c.w m1 p st.cur child
  next : st'.nextId = st.nextId + (ps.length - 1)
  others : ∀ i, st.cur i ≠ child → st'.cur i = st.cur i
  pieces : ∀ i, st.cur i = child →
    (child :: List.range' st.nextId (ps.length - 1))[c.part m1 st.cur child ps i]? = some (st'.cur i)
  found : ∀ x, x ∈ st'.found ↔ x ∈ st.found ∨ ∃ k, (k = child ∨ st.nextId ≤ k ∧ k < st'.nextId) ∧ 0 < x ∧ (∃ i, st'.cur i = k ∧ p1 i = x) ∧
    c.thr * min (objectArea c.w st'.cur k) (objectArea c.w p1 x) < commonArea c.w st'.cur k p1 x

/-- **C85**: if processing a merging object succeeds, then with `ps` the list of exactly the objects of the step before that overlap it by at
least `overlap_threshold` of the smaller area, nothing changes if there are fewer than two of them, and otherwise the object is split among
exactly these. -/
theorem C85_split_among_exactly_the_parents (c : MeshCfg n) (hw : ∀ i, 0 < c.w i) (m1 p1 : Frame n) (st st' : StepOut n) (child : Nat)
    (h : processMeshChild c m1 p1 st child = .ok st') (ps : List Nat) (hps : ParentList c.w c.thr m1 st.cur child ps) :
    (ps.length < 2 → st' = st) ∧ (2 ≤ ps.length → SplitAmong c m1 p1 child ps st st') := by
  have hacc := parentList_unique (parentList_accepted hw m1 st.cur child) hps
  unfold processMeshChild at h
  split at h
  · cases h
  · rename_i l hl
    have hl' := gatherParents_ok _ hl
    rw [hacc, List.nil_append] at hl'
    have hlen : l.length = ps.length := by rw [hl', List.length_map]
    have h1 : l.map (·.1) = ps := by rw [hl', List.map_map]; simp [Function.comp_def]
    have h2 : l.map (·.2) = ps.map fun p => commonArea c.w m1 p st.cur child := by rw [hl', List.map_map]; rfl
    split at h
    · rename_i hlt
      cases h
      exact ⟨fun _ => rfl, fun h2 => by omega⟩
    · rename_i hge
      refine ⟨fun h2 => by omega, fun _ => ?_⟩
      dsimp only at h
      rw [h1, h2, hlen] at h
      split at h
      · cases h
      · split at h
        · cases h
        · rename_i hidx
          split at h
          · cases h
          · cases h
            have hidx' : ∀ i, st.cur i = child → c.part m1 st.cur child ps i < (child :: List.range' st.nextId (ps.length - 1)).length := by
              intro i hi
              by_contra hc
              apply hidx
              rw [List.any_eq_true]
              exact ⟨i, List.mem_finRange _, by simp [hi]; simpa using hc⟩
            refine ⟨⟨_, rfl, rfl, rfl, rfl⟩, rfl, fun i hi => if_neg hi, fun i hi => ?_, fun x => ?_⟩
            · dsimp only
              rw [if_pos hi, List.getD_eq_getElem _ _ (hidx' i hi), List.getElem?_eq_getElem (hidx' i hi)]
            · dsimp only
              rw [List.mem_append]
              apply or_congr Iff.rfl
              unfold nextChildren
              rw [List.mem_flatMap]
              apply exists_congr
              intro k
              have hk : k ∈ child :: List.range' st.nextId (ps.length - 1) ↔ k = child ∨ st.nextId ≤ k ∧ k < st.nextId + (ps.length - 1) := by
                rw [List.mem_cons, List.mem_range'_1]
              rw [hk, List.mem_filter, mem_idsUnder]
              constructor
              · rintro ⟨h, ⟨h0, i, hi, hj⟩, hlt⟩
                exact ⟨h, h0, ⟨i, hj, hi⟩, (queue_iff hw ⟨i, hj, hi⟩).mp (by simpa using hlt)⟩
              · rintro ⟨h, h0, ⟨i, hj, hi⟩, hlt⟩
                exact ⟨h, ⟨h0, i, hi, hj⟩, by simpa using (queue_iff hw ⟨i, hj, hi⟩).mpr hlt⟩

/-- **C85** fails for large merges: processing stops with "too many parent objects" exactly when ten objects with enough overlap are followed,
in the order of the IDs, by one more object that shares a cell with the child — even if that one does not overlap enough. -/
theorem C85_too_many_parents_fails (c : MeshCfg n) (hw : ∀ i, 0 < c.w i) (m1 p1 : Frame n) (st : StepOut n) (child : Nat) :
    processMeshChild c m1 p1 st child = .error .tooManyParents ↔
      ∃ q, 0 < q ∧ (∃ i, m1 i = q ∧ st.cur i = child) ∧
        ∃ S : List Nat, S.Nodup ∧ 10 ≤ S.length ∧ ∀ p ∈ S, p < q ∧ OverlapEnough c.w c.thr m1 p st.cur child := by
  have hA := parentList_accepted (c := c) hw m1 st.cur child
  constructor
  · intro h
    have hg : gatherParents c m1 st.cur child (idsUnder m1 st.cur child) [] = .error .tooManyParents := by
      unfold processMeshChild at h
      split at h
      · rename_i e he; rw [he]; cases h; rfl
      · split at h
        · cases h
        · dsimp only at h
          split at h
          · cases h
          · split at h
            · cases h
            · split at h <;> cases h
    obtain ⟨_, a, q, b, hab, hle⟩ := gatherParents_error _ hg
    have hsort := sorted_idsUnder m1 st.cur child
    rw [hab] at hsort hA
    have hq : q ∈ idsUnder m1 st.cur child := by rw [hab]; simp
    obtain ⟨hq0, hqi⟩ := mem_idsUnder.mp hq
    refine ⟨q, hq0, hqi, acceptedOf c m1 st.cur child a, ?_, by simpa using hle, ?_⟩
    · have : a.Pairwise (· < ·) := (List.pairwise_append.mp hsort).1
      exact (this.imp fun h => Nat.ne_of_lt h).filter _
    · intro p hp
      have hpa : p ∈ a := (List.mem_filter.mp hp).1
      refine ⟨(List.pairwise_append.mp hsort).2.2 p hpa q (by simp), (hA.2 p).mp ?_⟩
      unfold acceptedOf at hp ⊢
      rw [List.mem_filter] at hp ⊢
      exact ⟨by simp [hpa], hp.2⟩
  · rintro ⟨q, hq0, hqi, S, hS, hlen, hall⟩
    have hq : q ∈ idsUnder m1 st.cur child := mem_idsUnder.mpr ⟨hq0, hqi⟩
    obtain ⟨a, b, hab⟩ := List.append_of_mem hq
    have hsort := sorted_idsUnder m1 st.cur child
    rw [hab] at hsort
    have hsub : S ⊆ acceptedOf c m1 st.cur child a := by
      intro p hp
      obtain ⟨hpq, hov⟩ := hall p hp
      have := (hA.2 p).mpr hov
      unfold acceptedOf at this ⊢
      rw [List.mem_filter] at this ⊢
      refine ⟨?_, this.2⟩
      have h1 := this.1
      rw [hab, List.mem_append, List.mem_cons] at h1
      rcases h1 with h1 | rfl | h1
      · exact h1
      · omega
      · have := (List.pairwise_cons.mp (List.pairwise_append.mp hsort).2.1).1 p h1
        omega
    have hle := (hS.subperm hsub).length_le
    unfold processMeshChild
    rw [hab, gatherParents_raises a q b [] (by simp; omega)]

/-- **C85** fails at the sizes of the fixed tables: with at least two parents, processing raises if the step has 20 merges already, or if
the step would have more than 255 new objects. -/
theorem C85_table_sizes_fails (c : MeshCfg n) (hw : ∀ i, 0 < c.w i) (m1 p1 : Frame n) (st : StepOut n) (child : Nat) (ps : List Nat)
    (hps : ParentList c.w c.thr m1 st.cur child ps) (h2 : 2 ≤ ps.length)
    (hfull : 20 ≤ st.merges.length ∨ 255 < st.updIds.length + (ps.length - 1)) :
    ∃ e, processMeshChild c m1 p1 st child = .error e := by
  have hacc := parentList_unique (parentList_accepted hw m1 st.cur child) hps
  unfold processMeshChild
  cases hl : gatherParents c m1 st.cur child (idsUnder m1 st.cur child) [] with
  | error e => exact ⟨e, rfl⟩
  | ok l =>
    have hl' := gatherParents_ok _ hl
    rw [hacc, List.nil_append] at hl'
    have hlen : l.length = ps.length := by rw [hl', List.length_map]
    dsimp only
    rw [if_neg (by omega)]
    split
    · exact ⟨_, rfl⟩
    · split
      · exact ⟨_, rfl⟩
      · rw [if_pos]
        · exact ⟨_, rfl⟩
        · rw [List.length_range', hlen]
          rcases hfull with h | h
          · omega
          · exact h

/-- **C85**, proved part for the existence of a result: with at most ten parents, fewer than 20 merges before, at most 255 new objects and a
partition that names one of the parents for each cell, processing succeeds. Missing: larger merges (`C85_too_many_parents_fails`,
`C85_table_sizes_fails`). -/
theorem C85_succeeds_within_limits_partial (c : MeshCfg n) (hw : ∀ i, 0 < c.w i) (m1 p1 : Frame n) (st : StepOut n) (child : Nat)
    (ps : List Nat) (hps : ParentList c.w c.thr m1 st.cur child ps)
    (hq : ∀ (S : List Nat), S.Nodup → (∀ p ∈ S, 0 < p ∧ ∃ i, m1 i = p ∧ st.cur i = child) → S.length ≤ 10)
    (hm : st.merges.length < 20) (hu : st.updIds.length + (ps.length - 1) ≤ 255)
    (hpart : ∀ i, st.cur i = child → c.part m1 st.cur child ps i < ps.length) :
    ∃ st', processMeshChild c m1 p1 st child = .ok st' := by
  have hacc := parentList_unique (parentList_accepted hw m1 st.cur child) hps
  have hno : processMeshChild c m1 p1 st child ≠ .error .tooManyParents := by
    rw [Ne, C85_too_many_parents_fails c hw]
    rintro ⟨q, hq0, hqi, S, hS, hlen, hall⟩
    have := hq (q :: S) (List.nodup_cons.mpr ⟨fun h => by have := (hall q h).1; omega, hS⟩) (by
      intro p hp
      rcases List.mem_cons.mp hp with rfl | hp
      · exact ⟨hq0, hqi⟩
      · exact ⟨(hall p hp).2.1, (hall p hp).2.2.1⟩)
    simp at this
    omega
  unfold processMeshChild at hno ⊢
  cases hl : gatherParents c m1 st.cur child (idsUnder m1 st.cur child) [] with
  | error e =>
    rw [hl] at hno
    have := (gatherParents_error _ hl).1
    subst this
    exact absurd rfl hno
  | ok l =>
    have hl' := gatherParents_ok _ hl
    rw [hacc, List.nil_append] at hl'
    have hlen : l.length = ps.length := by rw [hl', List.length_map]
    have h1 : l.map (·.1) = ps := by rw [hl', List.map_map]; simp [Function.comp_def]
    dsimp only
    split
    · exact ⟨_, rfl⟩
    · rename_i hge
      rw [if_neg (by omega), if_neg, if_neg]
      · exact ⟨_, rfl⟩
      · rw [List.length_range', hlen]; omega
      · rw [h1, hlen]
        simp only [List.any_eq_true, not_exists, not_and]
        intro i _
        simp only [Bool.and_eq_true, beq_iff_eq, decide_eq_true_eq, not_and, not_le, List.length_cons, List.length_range']
        intro hi
        have := hpart i hi
        omega

/-! ### One time step -/

theorem parentList_congr {w : Fin n → ℚ} {thr : ℚ} {m1 f g : Frame n} {k : Nat} (h : ∀ i, f i = k ↔ g i = k) {l : List Nat}
    (hl : ParentList w thr m1 f k l) : ParentList w thr m1 g k l := by
  have e1 : objectArea w f k = objectArea w g k := by unfold objectArea; simp only [h]
  have e2 : ∀ p, commonArea w m1 p f k = commonArea w m1 p g k := by intro p; unfold commonArea; simp only [h]
  refine ⟨hl.1, fun p => ?_⟩
  rw [hl.2 p]
  unfold OverlapEnough
  rw [e1, e2]
  simp only [h]

/-- Record `m` describes the merge of object `k` of step `f`: its parents are the objects of the step before that overlap it enough, with the
shared areas, and every cell of `k` carries, in the result `g`, one of the children of the record, `k` itself being the first. -/
def RecordOf (w : Fin n → ℚ) (thr : ℚ) (m1 f g : Frame n) (k : Nat) (m : RawMerge) : Prop :=
  ParentList w thr m1 f k m.parents ∧ 2 ≤ m.parents.length ∧ m.children.length = m.parents.length ∧
  (m.areas = m.parents.map fun p => commonArea w m1 p f k) ∧ m.children.head? = some k ∧ ∀ i, f i = k → g i ∈ m.children

theorem runQueue_complete {c : MeshCfg n} (hw : ∀ i, 0 < c.w i) {m1 p1 f : Frame n} {off : Nat} (q : List Nat) {st st' : StepOut n}
    (hnd : q.Nodup) (hq : ∀ k ∈ q, k < off) (hnext : off ≤ st.nextId) (hcur : ∀ k ∈ q, ∀ i, st.cur i = k ↔ f i = k)
    (h : runQueue c m1 p1 q st = .ok st') :
    ∃ ks new, ks.Sublist q ∧ (∀ k ∈ q, k ∈ ks ↔ ∃ ps, ParentList c.w c.thr m1 f k ps ∧ 2 ≤ ps.length) ∧
      st'.merges = st.merges ++ new ∧ List.Forall₂ (RecordOf c.w c.thr m1 f st'.cur) ks new ∧
      ∀ i, f i ∉ ks → st'.cur i = st.cur i := by
  induction q generalizing st with
  | nil =>
    rw [runQueue] at h; cases h
    exact ⟨[], [], List.Sublist.refl _, by simp, by simp, List.Forall₂.nil, fun i _ => rfl⟩
  | cons k q ih =>
    rw [runQueue] at h
    split at h
    · cases h
    · rename_i st1 h1
      obtain ⟨hk, hnd'⟩ := List.nodup_cons.mp hnd
      set ps := acceptedOf c m1 st.cur k (idsUnder m1 st.cur k) with hps'
      have hps := parentList_accepted (c := c) hw m1 st.cur k
      rw [← hps'] at hps
      have hpsf : ParentList c.w c.thr m1 f k ps := parentList_congr (hcur k (by simp)) hps
      obtain ⟨hlt, hge⟩ := C85_split_among_exactly_the_parents c hw m1 p1 st st1 k h1 ps hps
      rcases Nat.lt_or_ge ps.length 2 with h2 | h2
      · have := hlt h2
        subst this
        obtain ⟨ks, new, hs, hm, hmer, hrec, hoth⟩ := ih hnd' (fun x hx => hq x (by simp [hx])) hnext (fun x hx => hcur x (by simp [hx])) h
        refine ⟨ks, new, hs.cons k, ?_, hmer, hrec, hoth⟩
        intro x hx
        rcases List.mem_cons.mp hx with rfl | hx
        · constructor
          · intro hx; exact absurd (hs.subset hx) hk
          · rintro ⟨ps', hp', hl⟩
            rw [parentList_unique hp' hpsf] at hl
            omega
        · exact hm x hx
      · have hsp := hge h2
        obtain ⟨m, hmm, hmc, hmp, hma⟩ := hsp.children
        have hkoff := hq k (by simp)
        have hmemc : ∀ i, st.cur i = k → st1.cur i ∈ m.children := by
          intro i hi
          rw [hmc]
          exact List.mem_of_getElem? (hsp.pieces i hi)
        have hcur1 : ∀ x ∈ q, ∀ i, st1.cur i = x ↔ f i = x := by
          intro x hx i
          rw [← hcur x (by simp [hx]) i]
          have hxk : x ≠ k := fun e => hk (e ▸ hx)
          have hxo := hq x (by simp [hx])
          by_cases hi : st.cur i = k
          · have hmi := hmemc i hi
            rw [hmc, List.mem_cons, List.mem_range'_1] at hmi
            constructor
            · intro e
              exfalso
              rcases hmi with h' | h'
              · exact hxk (e.symm.trans h')
              · omega
            · intro e
              exact absurd (e.symm.trans hi) hxk
          · rw [hsp.others i hi]
        obtain ⟨ks, new, hs, hm, hmer, hrec, hoth⟩ := ih hnd' (fun x hx => hq x (by simp [hx])) (by rw [hsp.next]; omega) hcur1 h
        have hkks : k ∉ ks := fun hx => hk (hs.subset hx)
        refine ⟨k :: ks, m :: new, hs.cons_cons k, ?_, ?_, List.Forall₂.cons ?_ hrec, ?_⟩
        · intro x hx
          rcases List.mem_cons.mp hx with rfl | hx
          · exact ⟨fun _ => ⟨ps, hpsf, h2⟩, fun _ => by simp⟩
          · rw [← hm x hx]
            have hxk : x ≠ k := fun e => hk (e ▸ hx)
            simp [hxk]
        · rw [hmer, hmm]; simp
        · refine ⟨by rw [hmp]; exact hpsf, by rw [hmp]; exact h2, ?_, ?_, by rw [hmc]; rfl, ?_⟩
          · rw [hmc, hmp, List.length_cons, List.length_range']; omega
          · rw [hma, hmp]
            apply List.map_congr_left
            intro p _
            unfold commonArea
            simp only [hcur k (by simp)]
          · intro i hi
            rw [hoth i (by rw [hi]; exact hkks)]
            exact hmemc i ((hcur k (by simp) i).mpr hi)
        · intro i hi
          rw [List.mem_cons, not_or] at hi
          rw [hoth i hi.2]
          exact hsp.others i (fun e => hi.1 ((hcur k (by simp) i).mp e))

/-- **C85**, one time step: if the queued objects of a step `f` are processed without error, there is exactly one record for every queued object
with two or more parents (`ks`, in the order of the queue), and none for the others; each record names exactly the parents and the shared
areas, and cells of objects without a record are unchanged. -/
theorem C85_step_records_exact (c : MeshCfg n) (hw : ∀ i, 0 < c.w i) (m1 p1 f : Frame n) (off : Nat) (q : List Nat) (hnd : q.Nodup)
    (hq : ∀ k ∈ q, k < off) (st : StepOut n) (h : runQueue c m1 p1 q (initStep f off) = .ok st) :
    ∃ ks, ks.Sublist q ∧ (∀ k ∈ q, k ∈ ks ↔ ∃ ps, ParentList c.w c.thr m1 f k ps ∧ 2 ≤ ps.length) ∧
      List.Forall₂ (RecordOf c.w c.thr m1 f st.cur) ks st.merges ∧ ∀ i, f i ∉ ks → st.cur i = f i := by
  obtain ⟨ks, new, h1, h2, h3, h4, h5⟩ := runQueue_complete (f := f) hw q hnd hq (le_refl off) (fun k _ i => Iff.rfl) h
  have : st.merges = new := by simpa [initStep] using h3
  exact ⟨ks, h1, h2, this ▸ h4, h5⟩

theorem runQueue_sizes {c : MeshCfg n} (hw : ∀ i, 0 < c.w i) {m1 p1 : Frame n} (q : List Nat) {st st' : StepOut n}
    (h : runQueue c m1 p1 q st = .ok st') (h0 : st.merges.length ≤ 20) : st'.merges.length ≤ 20 := by
  induction q generalizing st with
  | nil => rw [runQueue] at h; cases h; exact h0
  | cons k q ih =>
    rw [runQueue] at h
    split at h
    · cases h
    · rename_i st1 h1
      apply ih h
      have hps := parentList_accepted (c := c) hw m1 st.cur k
      obtain ⟨hlt, hge⟩ := C85_split_among_exactly_the_parents c hw m1 p1 st st1 k h1 _ hps
      rcases Nat.lt_or_ge (acceptedOf c m1 st.cur k (idsUnder m1 st.cur k)).length 2 with h2 | h2
      · rw [hlt h2]; exact h0
      · obtain ⟨m, hmm, _⟩ := (hge h2).children
        rw [hmm, List.length_append]
        by_contra hc
        obtain ⟨e, he⟩ := C85_table_sizes_fails c hw m1 p1 st k _ hps h2 (Or.inl (by simp at hc; omega))
        rw [h1] at he; cases he

/-- **C85** fails for a step with many merges: if more than 20 of the queued objects have two or more parents, processing the step raises. -/
theorem C85_more_than_20_merges_fails (c : MeshCfg n) (hw : ∀ i, 0 < c.w i) (m1 p1 f : Frame n) (off : Nat) (q : List Nat) (hnd : q.Nodup)
    (hq : ∀ k ∈ q, k < off) (S : List Nat) (hS : S.Nodup) (hlen : 20 < S.length)
    (hall : ∀ k ∈ S, k ∈ q ∧ ∃ ps, ParentList c.w c.thr m1 f k ps ∧ 2 ≤ ps.length) :
    ∃ e, runQueue c m1 p1 q (initStep f off) = .error e := by
  cases h : runQueue c m1 p1 q (initStep f off) with
  | error e => exact ⟨e, rfl⟩
  | ok st =>
    obtain ⟨ks, h1, h2, h3, _⟩ := C85_step_records_exact c hw m1 p1 f off q hnd hq st h
    have hle := runQueue_sizes hw q h (by simp [initStep])
    have hsub : S ⊆ ks := fun k hk => (h2 k (hall k hk).1).mpr (hall k hk).2
    have := (hS.subperm hsub).length_le
    have := h3.length_eq
    omega

/-- **C85** fails at the end of a chunk: the objects of the next step that the last step of a chunk made ambiguous are handed to the next chunk in a table
of 20. Up to 20 distinct ones are handed on, each once; with more the run raises. -/
theorem C85_more_than_20_handed_on_fails (c : MeshCfg n) (m1 cur : Frame n) (extra : List Nat) (r : Row n) (st : StepOut n)
    (h : runQueue c m1 r.p1 (addNew r.queue extra) (initStep cur r.off) = .ok st) :
    (st.found.toFinset.card ≤ 20 → ∃ fin, chunkGo c m1 cur extra [r] = .ok ([st], fin) ∧ fin.Nodup ∧ ∀ k, k ∈ fin ↔ k ∈ st.found) ∧
    (20 < st.found.toFinset.card → chunkGo c m1 cur extra [r] = .error .index) := by
  have hmem : ∀ k, k ∈ addNew [] st.found ↔ k ∈ st.found := fun k => by simp [mem_addNew]
  have hnd : (addNew [] st.found).Nodup := nodup_addNew List.nodup_nil
  have hcard : (addNew [] st.found).length = st.found.toFinset.card := by
    rw [← List.toFinset_card_of_nodup hnd]
    congr 1
    ext k
    simp [hmem]
  have hrun : chunkGo c m1 cur extra [r] = if 20 < (addNew [] st.found).length then .error .index else .ok ([st], addNew [] st.found) := by
    rw [chunkGo, h]; rfl
  rw [hrun, hcard]
  exact ⟨fun hle => ⟨_, if_neg (by omega), hnd, hmem⟩, fun hlt => if_pos hlt⟩

/-! ### The mesh partition -/

theorem idxOf_of_getElem? {l : List Nat} (hnd : l.Nodup) {r p : Nat} (h : l[r]? = some p) : l.idxOf p = r := by
  obtain ⟨hr, rfl⟩ := List.getElem?_eq_some_iff.mp h
  exact hnd.idxOf_getElem r hr

/-- **C85**, which piece a cell belongs to (`nn_partitioning=True`): `R` is twice the square root of the largest parent area in units of the mean
cell area, rounded down, but at least 20. A cell of the merged object that lies on a parent goes to the piece of that parent. A cell
connected to a parent by at most `2 R` hops inside the object goes to a parent at most three times as many hops away as the nearest. -/
theorem C85_cells_follow_parents_partial (nbr : Fin 3 → Fin n → Option (Fin n)) (w : Fin n → ℚ) (hw : ∀ i, 0 < w i) (meanArea thr : ℚ)
    (tc mi : Nat) (far : Frame n → List Nat → Fin n → Nat) (m1 p1 : Frame n) (st st' : StepOut n) (child : Nat)
    (h : processMeshChild (meshCfg nbr w meanArea thr tc mi far) m1 p1 st child = .ok st') (ps : List Nat)
    (hps : ParentList w thr m1 st.cur child ps) (h2 : 2 ≤ ps.length) (A : ℚ) (hA : LargestArea (objectArea w m1) ps A)
    (R : Nat) (hR : SearchRadius 2 (A / meanArea) 20 R) (i : Fin n) (hi : st.cur i = child) :
    (∀ r : Nat, ps[r]? = some (m1 i) → (child :: List.range' st.nextId (ps.length - 1))[r]? = some (st'.cur i)) ∧
    (∀ j k, m1 j ∈ ps → k ≤ 2 * R → HopsIn nbr (fun i => decide (st.cur i = child)) k j i →
      ∃ (r : Nat) (q : Fin n) (m : Nat), ps[r]? = some (m1 q) ∧ (child :: List.range' st.nextId (ps.length - 1))[r]? = some (st'.cur i) ∧ Hops nbr m q i ∧
        ∀ q' k', m1 q' ∈ ps → Hops nbr k' q' i → m ≤ 3 * k') := by
  have hsp := (C85_split_among_exactly_the_parents _ hw m1 p1 st st' child h ps hps).2 h2
  have hpiece := hsp.pieces i hi
  have hnd : ps.Nodup := hps.1.imp fun h => Nat.ne_of_lt h
  set fr : Fin n → Option Nat := fun j => if ps.contains (m1 j) then some (ps.idxOf (m1 j)) else none with hfr
  have hpart : (meshCfg nbr w meanArea thr tc mi far).part m1 st.cur child ps i =
      partitionMeshNN nbr (fun j => st.cur j == child) fr (2 * R) (far m1 ps) i := by
    have e : (ps.map (weightOf w m1)).foldl max 0 = A := by
      have := foldl_max_largest (area := objectArea w m1) hA
      change (ps.map (objectArea w m1)).foldl max 0 = A
      rw [this]
      obtain ⟨⟨p, hp, rfl⟩, _⟩ := hA
      obtain ⟨_, ⟨i, hi, _⟩, _⟩ := (hps.2 p).mp hp
      exact max_eq_right (objectArea_pos hw hi).le
    have hRR : R = max (sqrtTimes (A / meanArea) 2) 20 := by
      rw [searchRadius_eq hR]
      congr 1
      rcases le_total 0 (A / meanArea) with h0 | h0
      · rw [max_eq_right h0]
      · rw [max_eq_left h0]
        unfold sqrtTimes
        have h1 : (A / meanArea * ((2 : Nat) : ℚ) ^ 2).floor ≤ 0 := by
          have : ⌊A / meanArea * ((2 : Nat) : ℚ) ^ 2⌋ ≤ ⌊(0 : ℚ)⌋ := Int.floor_mono (by push_cast; linarith)
          rw [Int.floor_zero] at this
          exact this
        rw [Int.toNat_of_nonpos h1]
        norm_num
        rfl
    unfold meshCfg
    dsimp only
    rw [e, ← hRR, mul_comm R 2]
  rw [hpart] at hpiece
  have hfr_some : ∀ (j : Fin n) (x : Nat), fr j = some x ↔ ps[x]? = some (m1 j) := by
    intro j x
    rw [hfr]
    dsimp only
    by_cases hj : m1 j ∈ ps
    · rw [if_pos (by simpa using hj)]
      constructor
      · intro e; cases e; exact List.getElem?_idxOf hj
      · intro e; rw [idxOf_of_getElem? hnd e]
    · rw [if_neg (by simpa using hj)]
      constructor
      · intro e; cases e
      · intro e; exact absurd (List.mem_of_getElem? e) hj
  constructor
  · intro r hr
    have h0 : 0 < 2 * R := by
      rcases hR with ⟨rfl, _⟩ | ⟨h0, _⟩ <;> omega
    have := (C56_at_most_three_times_partial nbr (fun j => st.cur j == child) fr (2 * R) h0 (far m1 ps) i (by simpa using hi)).1 r
      ((hfr_some i r).mpr hr)
    rw [this] at hpiece
    exact hpiece
  · intro j k hj hk hpath
    obtain ⟨x, hx⟩ := List.mem_iff_getElem?.mp hj
    have hpath' : HopsIn nbr (fun j => st.cur j == child) k j i := by
      have : (fun i => decide (st.cur i = child)) = fun j => st.cur j == child := by funext j; simp [Bool.beq_eq_decide_eq]
      rwa [this] at hpath
    obtain ⟨q, m, h1, h2, h3⟩ := C56_connected_cells_partial nbr (fun j => st.cur j == child) fr (2 * R) (far m1 ps) i (by simpa using hi) j x k
      ((hfr_some j x).mpr hx) hk hpath'
    refine ⟨_, q, m, (hfr_some q _).mp h1, hpiece, h2, ?_⟩
    intro q' k' hq' hk'
    obtain ⟨y, hy⟩ := List.mem_iff_getElem?.mp hq'
    exact h3 q' y k' ((hfr_some q' y).mpr hy) hk'

/-! ### Whole runs -/

/-- Final field and links of a run on a line of `n` cells of area 1 with `overlap_threshold = 1/2`, chunks of `tc` steps. -/
def runSmall (n tc : Nat) (rows : List (List Nat)) : Option (List (List Nat) × List (Nat × Nat)) :=
  let fs : List (Frame n) := rows.map fun r i => r.getD i.val 0
  let c := meshCfg (lineNbr n) (fun _ => 1) 1 (1/2) tc 40 (fun _ _ _ => 0)
  match splitAndMergeParallel c (fun _ _ => (0, 0)) fs (fs.flatMap (calcProps ⟨c.w, c.thr, fun _ _ => (0, 0), fun _ _ _ _ _ _ _ => 0⟩)) with
  | .error _ => none
  | .ok r => some (r.field.map fun f => (List.finRange n).map f, r.links.map fun o => (o.a, o.b))

/-- **C85** fails at an exact tie: objects 1 and 2 merge into 3, which is split into 3 and 5; object 4 of the next step overlaps each of the two
pieces by exactly the threshold (1 cell of 2). It is not looked at again, so in the result object 4 still has the two parents 3 and 5. -/
theorem C85_exact_tie_fails : runSmall 4 4 [[1, 1, 2, 2], [3, 3, 3, 3], [0, 4, 4, 0], [0, 0, 0, 0]] =
    some ([[1, 1, 2, 2], [3, 3, 5, 5], [0, 4, 4, 0], [0, 0, 0, 0]], [(1, 3), (2, 5), (3, 4), (5, 4)]) := by decide +kernel

/-- **C85** fails for the pieces: object 4 (cells 0–3) has the parents 1 and 2; object 3 (three cells) shares one cell with it, less than half.
After the split the piece 4 has two cells, one of them on object 3, which is now half of the piece. Pieces are not looked at again, so in the
result object 4 still has the two parents 1 and 3. -/
theorem C85_piece_still_merged_fails : runSmall 7 2 [[1, 3, 0, 2, 0, 3, 3], [4, 4, 4, 4, 0, 0, 0]] =
    some ([[1, 3, 0, 2, 0, 3, 3], [4, 4, 5, 5, 0, 0, 0]], [(1, 4), (2, 5), (3, 4)]) := by decide +kernel

/-! ### Concrete cases -/

/-- Eight cells: objects 1 to 4 of one cell each in the step before, object 5 on cells 0–7. -/
def caseM1 : Frame 8 := fun i => [1, 0, 2, 0, 0, 3, 0, 4].getD i.val 0
/-- The configuration of the cases. -/
def caseCfg : MeshCfg 8 := meshCfg (lineNbr 8) (fun _ => 1) 1 (1/2) 4 40 (fun _ _ _ => 0)
/-- The state before the merge. -/
def caseSt : StepOut 8 := initStep (fun _ => 5) 6

-- non-vacuity of C85: the merge of four objects succeeds, with the parent list [1, 2, 3, 4]
example : ParentList caseCfg.w caseCfg.thr caseM1 caseSt.cur 5 [1, 2, 3, 4] := by
  have h := parentList_accepted (c := caseCfg) (fun _ => by simp [caseCfg, meshCfg]) caseM1 caseSt.cur 5
  rwa [show acceptedOf caseCfg caseM1 caseSt.cur 5 (idsUnder caseM1 caseSt.cur 5) = [1, 2, 3, 4] by decide +kernel] at h

example : (match processMeshChild caseCfg caseM1 (fun _ => 0) caseSt 5 with
    | .ok st => (List.finRange 8).map st.cur == [5, 5, 6, 6, 7, 7, 7, 8] && st.merges == [⟨[5, 6, 7, 8], [1, 2, 3, 4], [1, 1, 1, 1]⟩]
    | .error _ => false) = true := by decide +kernel

-- largest parent area 1, radius 20
example : LargestArea (objectArea caseCfg.w caseM1) [1, 2, 3, 4] 1 ∧ SearchRadius 2 (1 / 1) 20 20 :=
  ⟨⟨⟨1, by simp, by decide +kernel⟩, by decide +kernel⟩, Or.inl ⟨rfl, by norm_num⟩⟩

-- eleven one-cell parents under one object: too many
example : (match processMeshChild (n := 11) (meshCfg (lineNbr 11) (fun _ => 1) 1 (1/2) 4 40 (fun _ _ _ => 0)) (fun i => i.val + 1) (fun _ => 0)
    (initStep (fun _ => 12) 13) 12 with | .error e => e == .tooManyParents | .ok _ => false) = true := by decide +kernel

-- an object of the next step that becomes ambiguous and is handed on
example : (match runQueue caseCfg caseM1 (fun _ => 9) (addNew [5] []) (initStep caseSt.cur 40) with
    | .ok st => st.found.toFinset.card == 1 | .error _ => false) = true := by decide +kernel

/-! ### C27 on meshes: the parents named by a record exist -/

/-- Every parent recorded at a step is an object of the frame used as the step before. -/
def ParentsIn (m1 : Frame n) (ms : List RawMerge) : Prop := ∀ m ∈ ms, ∀ p ∈ m.parents, 0 < p ∧ ∃ i, m1 i = p

theorem runQueue_parents {c : MeshCfg n} {m1 p1 : Frame n} (q : List Nat) {st st' : StepOut n} (hst : ParentsIn m1 st.merges)
    (h : runQueue c m1 p1 q st = .ok st') : ParentsIn m1 st'.merges := by
  induction q generalizing st with
  | nil => rw [runQueue] at h; cases h; exact hst
  | cons k q ih =>
    rw [runQueue] at h
    split at h
    · cases h
    · rename_i s1 h1
      refine ih ?_ h
      unfold processMeshChild at h1
      split at h1
      · cases h1
      · rename_i ps hps
        split at h1
        · cases h1; exact hst
        · dsimp only at h1
          split at h1
          · cases h1
          · split at h1
            · cases h1
            · split at h1
              · cases h1
              · simp only [Except.ok.injEq] at h1
                subst h1
                intro m hm p hp
                rcases List.mem_append.mp hm with hm | hm
                · exact hst m hm p hp
                · rw [List.mem_singleton] at hm
                  subst hm
                  dsimp only at hp
                  rw [gatherParents_ok _ hps, List.nil_append, List.map_map] at hp
                  obtain ⟨x, hx, rfl⟩ := List.mem_map.mp hp
                  obtain ⟨h0, i, hi, _⟩ := mem_idsUnder.mp (List.mem_filter.mp hx).1
                  exact ⟨h0, i, hi⟩

/-- The frame used as the step before, within a chunk: the given one for the first step, then the updated frames. -/
def prevFrame (m1 : Frame n) (outs : List (StepOut n)) : Nat → Frame n
  | 0 => m1
  | t + 1 => match outs[t]? with | some o => o.cur | none => m1

theorem chunkGo_parents {c : MeshCfg n} (rs : List (Row n)) (m1 cur : Frame n) (extra : List Nat) {outs : List (StepOut n)}
    {fin : List Nat} (h : chunkGo c m1 cur extra rs = .ok (outs, fin)) :
    outs.length = rs.length ∧ ∀ t o, outs[t]? = some o → ParentsIn (prevFrame m1 outs t) o.merges := by
  induction rs generalizing m1 cur extra outs fin with
  | nil => rw [chunkGo] at h; cases h; exact ⟨rfl, by simp⟩
  | cons r rs ih =>
    rw [chunkGo] at h
    split at h
    · cases h
    · rename_i st hst
      have hp : ParentsIn m1 st.merges := runQueue_parents _ (by intro m hm; cases hm) hst
      split at h
      · rename_i hemp
        have : rs = [] := by simpa using hemp
        subst this
        split at h
        · cases h
        · cases h
          refine ⟨rfl, fun t o ho => ?_⟩
          cases t with
          | zero => simp at ho; subst ho; exact hp
          | succ t => simp at ho
      · split at h
        · cases h
        · rename_i outs' fin' hgo
          cases h
          obtain ⟨hl, hr⟩ := ih _ _ _ hgo
          refine ⟨by simp [hl], fun t o ho => ?_⟩
          cases t with
          | zero => simp at ho; subst ho; exact hp
          | succ t =>
            have := hr t o (by simpa using ho)
            cases t with
            | zero => simpa [prevFrame] using this
            | succ t =>
              have hlt := (List.getElem?_eq_some_iff.mp ho).1
              simp only [List.length_cons] at hlt
              have hg : outs'[t]? = some (outs'[t]'(by omega)) := List.getElem?_eq_getElem _
              simp only [prevFrame, List.getElem?_cons_succ, hg] at this ⊢
              exact this

theorem processChunk_parents {c : MeshCfg n} (rs : List (Row n)) {outs : List (StepOut n)} {fin : List Nat}
    (h : processChunk c rs = .ok (outs, fin)) :
    outs.length = rs.length ∧ ∀ t o, outs[t]? = some o → ∃ r, rs[t]? = some r ∧
      (ParentsIn r.m1 o.merges ∨ ∃ o', 0 < t ∧ outs[t - 1]? = some o' ∧ ParentsIn o'.cur o.merges) := by
  match rs with
  | [] => rw [processChunk] at h; cases h; exact ⟨rfl, by simp⟩
  | [_] => rw [processChunk] at h; cases h
  | r0 :: r1 :: rs =>
    rw [processChunk] at h
    obtain ⟨hl, hr⟩ := chunkGo_parents _ _ _ _ h
    refine ⟨hl, fun t o ho => ?_⟩
    have hlt := (List.getElem?_eq_some_iff.mp ho).1
    have hp := hr t o ho
    refine ⟨_, List.getElem?_eq_getElem (by rw [← hl]; exact hlt), ?_⟩
    cases t with
    | zero => exact .inl hp
    | succ t =>
      have hg : outs[t]? = some (outs[t]'(by omega)) := List.getElem?_eq_getElem _
      simp only [prevFrame, hg] at hp
      exact .inr ⟨_, by omega, hg, hp⟩

theorem processChunks_parents {c : MeshCfg n} (chs : List (List (Row n))) {outs : List (StepOut n)} {fin : List Nat}
    (h : processChunks c chs = .ok (outs, fin)) :
    outs.length = chs.flatten.length ∧ ∀ t o, outs[t]? = some o → ∃ r, chs.flatten[t]? = some r ∧
      (ParentsIn r.m1 o.merges ∨ ∃ o', 0 < t ∧ outs[t - 1]? = some o' ∧ ParentsIn o'.cur o.merges) := by
  induction chs generalizing outs fin with
  | nil => rw [processChunks] at h; cases h; exact ⟨rfl, by simp⟩
  | cons ch chs ih =>
    rw [processChunks] at h
    split at h
    · cases h
    · rename_i o1 f1 h1
      split at h
      · cases h
      · rename_i o2 f2 h2
        cases h
        obtain ⟨l1, r1⟩ := processChunk_parents _ h1
        obtain ⟨l2, r2⟩ := ih h2
        refine ⟨by simp [l1, l2], fun t o ho => ?_⟩
        rw [List.flatten_cons]
        rcases Nat.lt_or_ge t o1.length with ht | ht
        · rw [List.getElem?_append_left ht] at ho
          obtain ⟨r, hr, hp⟩ := r1 t o ho
          refine ⟨r, by rw [List.getElem?_append_left (by omega)]; exact hr, ?_⟩
          rcases hp with hp | ⟨o', h0, ho', hp⟩
          · exact .inl hp
          · exact .inr ⟨o', h0, by rw [List.getElem?_append_left (by omega)]; exact ho', hp⟩
        · rw [List.getElem?_append_right ht] at ho
          obtain ⟨r, hr, hp⟩ := r2 _ o ho
          refine ⟨r, by rw [List.getElem?_append_right (by omega), ← l1]; exact hr, ?_⟩
          rcases hp with hp | ⟨o', h0, ho', hp⟩
          · exact .inl hp
          · exact .inr ⟨o', by omega, by
              rw [List.getElem?_append_right (by omega), show t - 1 - o1.length = t - o1.length - 1 by omega]; exact ho', hp⟩

theorem piecesOf_flatten {α : Type} (k : Nat) (hk : 0 < k) (fuel : Nat) (l : List α) (hf : l.length ≤ fuel) :
    (piecesOf k fuel l).flatten = l := by
  induction fuel generalizing l with
  | zero => have : l = [] := List.length_eq_zero_iff.mp (by omega); subst this; rfl
  | succ fuel ih =>
    cases l with
    | nil => rfl
    | cons a l =>
      rw [piecesOf, List.flatten_cons, ih _ (by rw [List.length_drop]; simp only [List.length_cons] at hf ⊢; omega),
        List.take_append_drop]

/-- **C112**, meshes: the parents named by the records of an iteration are objects that exist, under these IDs, in the
step before the merge: in the field as it was before the iteration, or in the field as the iteration leaves it.  So no
record has a parent at step 0, and no record names a temporary ID. -/
theorem C112_mesh_parents_exist (c : MeshCfg n) (htc : 0 < c.timechunks) (s s' : ParState n) (hs : ParOK s)
    (h : parIteration c s = .ok s') :
    ∃ new, s'.recs = s.recs ++ new ∧ ∀ m ∈ new, ∀ p ∈ m.parents, 0 < p ∧ p < s'.counter ∧ 0 < m.time ∧
      ((∃ f, s.fs[m.time - 1]? = some f ∧ ∃ i, f i = p) ∨ ∃ f, s'.fs[m.time - 1]? = some f ∧ ∃ i, f i = p) := by
  obtain ⟨outs, fin, ho⟩ := parIteration_out htc hs h
  have hok := ho.ok hs
  refine ⟨recordsOf s.counter (tempIds s.counter outs) outs, by rw [ho.res], ?_⟩
  intro m hm p hp
  unfold recordsOf at hm
  obtain ⟨q, hq, hm⟩ := List.mem_flatMap.mp hm
  obtain ⟨raw, hraw, rfl⟩ := List.mem_map.mp hm
  obtain ⟨t, ht⟩ := List.mem_iff_getElem?.mp hq
  rw [List.getElem?_zip_eq_some] at ht
  have htl := (List.getElem?_eq_some_iff.mp ht.2).1
  rw [List.getElem?_range htl, Option.some.injEq] at ht
  obtain ⟨_, hpar⟩ := processChunks_parents _ ho.run
  rw [piecesOf_flatten _ htc _ _ (by rw [rowsOf_length])] at hpar
  obtain ⟨r, hr, hcase⟩ := hpar t q.2 ht.2
  obtain ⟨hlt, hrow⟩ := rowsOf_getElem? hr
  dsimp only at hp ⊢
  obtain ⟨x, hx, rfl⟩ := List.mem_map.mp hp
  rw [← ht.1]
  rcases hcase with hcase | ⟨o', h0, ho', hcase⟩
  · obtain ⟨hx0, i, hi⟩ := hcase raw hraw x hx
    rw [hrow] at hi
    dsimp only at hi
    have ht0 : t ≠ 0 := by
      rintro rfl
      rw [if_pos rfl] at hi
      simp only [zeroFrame] at hi
      omega
    rw [if_neg ht0] at hi
    have hg : s.fs[t - 1]? = some (s.fs[t - 1]'(by omega)) := List.getElem?_eq_getElem _
    rw [List.getD_eq_getElem?_getD, hg, Option.getD_some] at hi
    have hlt' : x < s.counter := by rw [← hi]; exact hs.field _ (List.getElem_mem _) i
    rw [lookup_old tempIds_ge hlt']
    exact ⟨hx0, by omega, by omega, .inl ⟨_, hg, i, hi⟩⟩
  · obtain ⟨hx0, i, hi⟩ := hcase raw hraw x hx
    have hg : s'.fs[t - 1]? = some (s'.fs[t - 1]'(by rw [ho.length]; omega)) := List.getElem?_eq_getElem _
    obtain ⟨f, hf⟩ := ho.pair hg
    obtain ⟨o, ho1, hinv, htemp, hcell⟩ := ho.cell hf hg
    rw [ho'] at ho1
    cases ho1
    have hval : (s'.fs[t - 1]'(by rw [ho.length]; omega)) i = lookupId s.counter (tempIds s.counter outs) x := by
      rcases hcell i with ⟨h1, h2⟩ | ⟨h1, h2⟩
      · have hfx : f i < s.counter := hs.field f (List.mem_of_getElem? hf) i
        rw [h1, ← hi, h2, lookup_old tempIds_ge hfx]
      · rw [h2, hi]
    have hlt' := hok.1.field _ (List.getElem_mem (l := s'.fs) (n := t - 1) (by rw [ho.length]; omega)) i
    rw [hval] at hlt'
    refine ⟨?_, hlt', h0, .inr ⟨_, hg, i, hval⟩⟩
    have hsup := (IterOut.support hs ho).2 (t - 1) f _ hf hg i
    rw [← hval, hsup]
    rcases hcell i with ⟨h1, h2⟩ | ⟨h1, h2⟩
    · rw [← h2, hi]; exact hx0
    · rw [← hinv.sup i, hi]; exact hx0

-- non-vacuity: in the example record the records of the two iterations name the parents 1–4 at step 0, and 5 and 6 at step 1
example : recsLine 2 40 = [(1, [5, 8, 9, 10], [1, 2, 3, 4]), (2, [7, 10], [5, 6])] := by decide +kernel

end MarEx.Props
