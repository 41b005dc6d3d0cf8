import Verif.Props.Mirror
import Verif.Props.Choice
/-! C207 and C164 with `allow_merging=True`: a run that reports no merge gives the same events on a map of the same cells in another order. -/
namespace MarEx.Spec

/-- Two chunkings of a record of `N` steps that are the same, or both have chunks of at least two steps. -/
def SameChunks (chunks chunks' : List Nat) (N : Nat) : Prop := chunks' = chunks ∨ (ChunkLengths chunks N ∧ ChunkLengths chunks' N)

end MarEx.Spec

namespace MarEx.Props
open MarEx MarEx.Spec

variable {n : Nat}

/-! ### Links between two frames -/

/-- Links of two frames. -/
def linksOf (c : TrackCfg n) (p : List Obj) (f g : Frame n) : List Ov := enforceOverlap c.thr p (checkOverlapSlice c.w f g)

/-- No object of `g` is linked to two of `f`. -/
def OneParent (c : TrackCfg n) (p : List Obj) (f g : Frame n) : Prop :=
  ∀ a b k, LinkedTo (linksOf c p f g) a k → LinkedTo (linksOf c p f g) b k → a = b

theorem linked_cell {c : TrackCfg n} {p : List Obj} {f g : Frame n} {a b : Nat} (h : LinkedTo (linksOf c p f g) a b) :
    ∃ i, f i = a ∧ g i = b ∧ 0 < f i ∧ 0 < g i := by
  obtain ⟨o, ho, rfl, rfl⟩ := h
  obtain ⟨h1, h2, ⟨i, h3, h4⟩, -⟩ := mem_checkOverlapSlice.1 (mem_enforce ho).1
  exact ⟨i, h3, h4, by omega, by omega⟩

theorem linked_iff {c : TrackCfg n} {p : List Obj} {f g : Frame n} (hf : AreasListed c.w f p) (hg : AreasListed c.w g p) (i j : Fin n) (hi : 0 < f i)
    (hj : 0 < g j) : LinkedTo (linksOf c p f g) (f i) (g j) ↔ (∃ k, f k = f i ∧ g k = g j) ∧
      fractionAtLeast (commonArea c.w f (f i) g (g j)) (min (objectArea c.w f (f i)) (objectArea c.w g (g j))) c.thr = true := by
  unfold LinkedTo linksOf enforceOverlap
  constructor
  · rintro ⟨o, ho, ha, hb⟩
    rw [List.mem_filter, ha, hb, hf i hi, hg j hj] at ho
    obtain ⟨h1, h2⟩ := ho
    obtain ⟨-, -, h3, h4⟩ := mem_checkOverlapSlice.1 h1
    rw [ha, hb] at h3 h4
    rw [h4] at h2
    exact ⟨h3, h2⟩
  · rintro ⟨h1, h2⟩
    refine ⟨⟨f i, g j, commonArea c.w f (f i) g (g j)⟩, ?_, rfl, rfl⟩
    rw [List.mem_filter]
    refine ⟨mem_checkOverlapSlice.2 ⟨hi, hj, h1, rfl⟩, ?_⟩
    dsimp only
    rw [hf i hi, hg j hj]
    exact h2

/-- Two configurations for the same cells in two orders. -/
structure SameCfg (e : Equiv.Perm (Fin n)) (c c' : TrackCfg n) : Prop where
  w : c'.w = renumber e c.w
  thr : c'.thr = c.thr

theorem links_groups {e : Equiv.Perm (Fin n)} {c c' : TrackCfg n} (hc : SameCfg e c c') {p p' : List Obj} {f g f' g' : Frame n}
    (hf : AreasListed c.w f p) (hg : AreasListed c.w g p) (hf' : AreasListed c'.w f' p') (hg' : AreasListed c'.w g' p') (kf : StepGroups e f f')
    (kg : StepGroups e g g') (i j : Fin n) (hi : 0 < f i) (hj : 0 < g j) :
    LinkedTo (linksOf c' p' f' g') (f' (e i)) (g' (e j)) ↔ LinkedTo (linksOf c p f g) (f i) (g j) := by
  rw [linked_iff hf hg i j hi hj, linked_iff hf' hg' (e i) (e j) ((kf.1 i).2 hi) ((kg.1 j).2 hj), hc.w, hc.thr, objectArea_groups c.w kf i hi,
    objectArea_groups c.w kg j hj, commonArea_groups c.w kf kg i j hi hj]
  refine and_congr_left fun _ => ?_
  constructor
  · rintro ⟨k, h1, h2⟩
    obtain ⟨k, rfl⟩ := e.surjective k
    exact ⟨k, ((kf.2 i k hi).1 h1.symm).symm, ((kg.2 j k hj).1 h2.symm).symm⟩
  · rintro ⟨k, h1, h2⟩
    exact ⟨e k, ((kf.2 i k hi).2 h1.symm).symm, ((kg.2 j k hj).2 h2.symm).symm⟩

theorem oneParent_groups {e : Equiv.Perm (Fin n)} {c c' : TrackCfg n} (hc : SameCfg e c c') {p p' : List Obj} {f g f' g' : Frame n}
    (hf : AreasListed c.w f p) (hg : AreasListed c.w g p) (hf' : AreasListed c'.w f' p') (hg' : AreasListed c'.w g' p') (kf : StepGroups e f f')
    (kg : StepGroups e g g') (h : OneParent c p f g) : OneParent c' p' f' g' := by
  intro a b k ha hb
  obtain ⟨i, h1, h2, h3, h4⟩ := linked_cell ha
  obtain ⟨j, h5, h6, h7, h8⟩ := linked_cell hb
  obtain ⟨i, rfl⟩ := e.surjective i
  obtain ⟨j, rfl⟩ := e.surjective j
  have pi := (kf.1 i).1 h3
  have pj := (kf.1 j).1 h7
  have qi := (kg.1 i).1 h4
  have qj := (kg.1 j).1 h8
  rw [← h1, ← h2, links_groups hc hf hg hf' hg' kf kg i i pi qi] at ha
  rw [← h5, ← h6, links_groups hc hf hg hf' hg' kf kg j j pj qj] at hb
  have e1 : g i = g j := (kg.2 i j qi).1 (h2.trans h6.symm)
  rw [← e1] at hb
  have e2 := h _ _ _ ha hb
  rw [← h1, ← h5]
  exact (kf.2 i j pi).2 e2

theorem repeated_nil {c : TrackCfg n} {p : List Obj} {f g : Frame n} : repeated ((linksOf c p f g).map (·.b)) = [] ↔ OneParent c p f g := by
  have hnd := nodup_enforce (thr := c.thr) (props := p) (pairwise_checkOverlapSlice c.w f g)
  have h0 : (linksOf c p f g).Nodup := List.Nodup.of_map _ hnd
  have key : repeated ((linksOf c p f g).map (·.b)) = [] ↔ ((linksOf c p f g).map (·.b)).Nodup := by
    rw [List.nodup_iff_count_le_one, List.eq_nil_iff_forall_not_mem]
    refine forall_congr' fun k => ?_
    rw [mem_repeated]
    omega
  rw [key, List.nodup_map_iff_inj_on h0]
  constructor
  · rintro h a b k ⟨o, ho, rfl, hk⟩ ⟨o', ho', rfl, hk'⟩
    rw [h o ho o' ho' (hk.trans hk'.symm)]
  · intro h o ho o' ho' hb
    refine (List.nodup_map_iff_inj_on h0).1 hnd o ho o' ho' ?_
    rw [Prod.mk.injEq]
    exact ⟨h o.a o'.a o.b ⟨o, ho, rfl, rfl⟩ ⟨o', ho', rfl, hb.symm⟩, hb⟩

theorem processStep_same {c : TrackCfg n} {t : Nat} {prev cur : Frame n} {s : SMState} (h : OneParent c s.props prev cur) :
    processStep c t prev cur s = (cur, s) := by
  have := repeated_nil.2 h
  unfold linksOf at this
  unfold processStep resolveMerges
  dsimp only
  rw [this]
  simp

theorem oneParent_of_step {c : TrackCfg n} {t : Nat} {prev cur : Frame n} {s : SMState}
    (h : (processStep c t prev cur s).2.merges.length ≤ s.merges.length) : OneParent c s.props prev cur := by
  refine repeated_nil.1 ?_
  by_contra hne
  unfold processStep resolveMerges at h
  dsimp only at h
  rw [if_neg (by rw [List.isEmpty_iff]; exact hne)] at h
  have h1 := resolveMerges_mono c t prev 9
    ((repeated ((enforceOverlap c.thr s.props (checkOverlapSlice c.w prev cur)).map (·.b))).foldl (processChild c t prev)
      (cur, s, enforceOverlap c.thr s.props (checkOverlapSlice c.w prev cur))).1
    ((repeated ((enforceOverlap c.thr s.props (checkOverlapSlice c.w prev cur)).map (·.b))).foldl (processChild c t prev)
      (cur, s, enforceOverlap c.thr s.props (checkOverlapSlice c.w prev cur))).2.1
  rw [processChild_fold_merges] at h1
  dsimp only at h1
  have : 0 < (repeated ((enforceOverlap c.thr s.props (checkOverlapSlice c.w prev cur)).map (·.b))).length := List.length_pos_iff.2 hne
  omega

/-! ### Consolidation -/

/-- What consolidation does when no object has two parents: children of one parent become one object. -/
theorem consolidate_groups_iff {c : TrackCfg n} {p : List Obj} {f2 f1 : Frame n} (h1 : AreasListed c.w f1 p)
    (hd : ∀ i j, 0 < f2 i → f2 i ≠ f1 j) (ho : OneParent c p f2 f1) (i j : Fin n) :
    (consolidate c f2 f1 p).1 i = (consolidate c f2 f1 p).1 j ↔
      f1 i = f1 j ∨ ∃ a, LinkedTo (linksOf c p f2 f1) a (f1 i) ∧ LinkedTo (linksOf c p f2 f1) a (f1 j) := by
  obtain ⟨-, -, ρ, hρ, hs⟩ := C14_consolidation_renames c f2 f1 p h1
  have split : ∀ a i j, Splits (linksOf c p f2 f1) a → LinkedTo (linksOf c p f2 f1) a (f1 i) →
      ((consolidate c f2 f1 p).1 j = (consolidate c f2 f1 p).1 i ↔ LinkedTo (linksOf c p f2 f1) a (f1 j)) := by
    intro a i j hsp hl
    have hex : ∃ k, LinkedTo (linksOf c p f2 f1) a k := ⟨_, hl⟩
    classical
    have k := C130_one_child_per_parent_partial c f2 f1 p h1 hd ho a (Nat.find hex) hsp (Nat.find_spec hex) (fun k hk => Nat.find_min' hex hk)
    rw [(k.1 i).2 hl, k.1 j]
    rfl
  constructor
  · intro h
    by_cases hi : InSplit (linksOf c p f2 f1) (f1 i)
    · obtain ⟨a, ha, hl⟩ := hi
      exact .inr ⟨a, hl, (split a i j ha hl).1 h.symm⟩
    · left
      have hi' := (hs (f1 i)).1 hi
      rw [hρ, hρ, hi'] at h
      by_cases hj : InSplit (linksOf c p f2 f1) (f1 j)
      · exact absurd (h ▸ (hs (f1 j)).2 hj) hi
      · rw [(hs (f1 j)).1 hj] at h
        exact h
  · rintro (h | ⟨a, ha, hb⟩)
    · rw [hρ, hρ, h]
    · by_cases h : f1 i = f1 j
      · rw [hρ, hρ, h]
      · exact ((split a i j ⟨_, _, h, ha, hb⟩ ha).2 hb).symm

theorem consolidate_groups {e : Equiv.Perm (Fin n)} {c c' : TrackCfg n} (hc : SameCfg e c c') {p p' : List Obj} {f2 f1 f2' f1' : Frame n}
    (h2 : AreasListed c.w f2 p) (h1 : AreasListed c.w f1 p) (h2' : AreasListed c'.w f2' p') (h1' : AreasListed c'.w f1' p')
    (hd : ∀ i j, 0 < f2 i → f2 i ≠ f1 j) (hd' : ∀ i j, 0 < f2' i → f2' i ≠ f1' j) (k2 : StepGroups e f2 f2') (k1 : StepGroups e f1 f1')
    (ho : OneParent c p f2 f1) : StepGroups e (consolidate c f2 f1 p).1 (consolidate c' f2' f1' p').1 := by
  have ho' := oneParent_groups hc h2 h1 h2' h1' k2 k1 ho
  have s := (C14_consolidation_renames c f2 f1 p h1).1
  have s' := (C14_consolidation_renames c' f2' f1' p' h1').1
  refine ⟨fun i => by rw [s', s, k1.1], fun i j hi => ?_⟩
  rw [consolidate_groups_iff h1 hd ho, consolidate_groups_iff h1' hd' ho']
  have hi1 := (s i).1 hi
  rw [k1.2 i j hi1]
  refine or_congr_right ?_
  constructor
  · rintro ⟨a, ha, hb⟩
    obtain ⟨q, rfl, -, q3, -⟩ := linked_cell ha
    obtain ⟨r, -, hr, -, r4⟩ := linked_cell hb
    obtain ⟨q, rfl⟩ := e.surjective q
    have q3 := (k2.1 q).1 q3
    have hj1 : 0 < f1 j := (k1.1 j).1 (by omega)
    exact ⟨f2 q, (links_groups hc h2 h1 h2' h1' k2 k1 q i q3 hi1).1 ha, (links_groups hc h2 h1 h2' h1' k2 k1 q j q3 hj1).1 hb⟩
  · rintro ⟨a, ha, hb⟩
    obtain ⟨q, rfl, -, q3, -⟩ := linked_cell ha
    obtain ⟨r, -, hr, -, r4⟩ := linked_cell hb
    have hj1 : 0 < f1 j := by omega
    exact ⟨f2' (e q), (links_groups hc h2 h1 h2' h1' k2 k1 q i q3 hi1).2 ha, (links_groups hc h2 h1 h2' h1' k2 k1 q j q3 hj1).2 hb⟩

/-! ### The loops -/

/-- `f` is an earlier frame than those of `B`, or there is none. -/
def Earlier (A : List (Frame n)) (f : Frame n) : Prop := f = zeroFrame ∨ f ∈ A

theorem Earlier.areas {w : Fin n → ℚ} {A B : List (Frame n)} {p : List Obj} {N : Nat} (g : GInv w (A ++ B) p N) {f : Frame n} (h : Earlier A f) :
    AreasListed w f p := by
  rcases h with rfl | h
  · intro i hi; exact absurd hi (by simp [zeroFrame])
  · exact g.area f (List.mem_append_left _ h)

theorem Earlier.disj {w : Fin n → ℚ} {A B : List (Frame n)} {p : List Obj} {N : Nat} {k : Frame n} (g : GInv w (A ++ k :: B) p N) {f : Frame n}
    (h : Earlier A f) : ∀ i j, 0 < f i → f i ≠ k j := by
  rcases h with rfl | h
  · intro i j hi; exact absurd hi (by simp [zeroFrame])
  · exact (List.pairwise_append.1 g.disj).2.2 f h k (List.mem_cons_self ..)

theorem chunkLoop_groups {e : Equiv.Perm (Fin n)} {c c' : TrackCfg n} (hc : SameCfg e c c') {rest rest' : List (Frame n)}
    (hr : List.Forall₂ (StepGroups e) rest rest') :
    ∀ (pre done post pre' done' post' : List (Frame n)) (last2 last1 last2' last1' : Frame n) (t t' : Nat) (s s' : SMState),
      List.Forall₂ (StepGroups e) done done' → StepGroups e last2 last2' → StepGroups e last1 last1' →
      Earlier (pre ++ done.reverse) last2 → Earlier (pre' ++ done'.reverse) last2' →
      GInv c.w ((pre ++ done.reverse) ++ last1 :: (rest ++ post)) s.props s.nextId →
      GInv c'.w ((pre' ++ done'.reverse) ++ last1' :: (rest' ++ post')) s'.props s'.nextId →
      OneParent c s.props last2 last1 →
      (chunkLoop c t last2 last1 done false rest s).2.merges.length ≤ s.merges.length →
      List.Forall₂ (StepGroups e) (chunkLoop c t last2 last1 done false rest s).1 (chunkLoop c' t' last2' last1' done' false rest' s').1 ∧
      (chunkLoop c' t' last2' last1' done' false rest' s').2.merges = s'.merges ∧
      GInv c.w (pre ++ (chunkLoop c t last2 last1 done false rest s).1 ++ post) (chunkLoop c t last2 last1 done false rest s).2.props
        (chunkLoop c t last2 last1 done false rest s).2.nextId ∧
      GInv c'.w (pre' ++ (chunkLoop c' t' last2' last1' done' false rest' s').1 ++ post') (chunkLoop c' t' last2' last1' done' false rest' s').2.props
        (chunkLoop c' t' last2' last1' done' false rest' s').2.nextId := by
  induction hr with
  | nil =>
    intro pre done post pre' done' post' last2 last1 last2' last1' t t' s s' hd k2 k1 e2 e2' g g' ho hm
    rw [chunkLoop, chunkLoop]
    simp only [Bool.false_eq_true, if_false]
    have hemp : done.isEmpty = done'.isEmpty := by cases hd <;> rfl
    rw [hemp]
    have kk := consolidate_groups hc (e2.areas g) (g.area _ (by simp)) (e2'.areas g') (g'.area _ (by simp)) (e2.disj g) (e2'.disj g') k2 k1 ho
    have u := g.upd (consolidate_upd c last2 last1 s.props s.nextId (g.good (by simp)))
    have u' := g'.upd (consolidate_upd c' last2' last1' s'.props s'.nextId (g'.good (by simp)))
    split
    · rename_i he
      rw [← hemp, List.isEmpty_iff] at he
      subst he
      cases hd
      exact ⟨.cons k1 .nil, rfl, by simpa using g, by simpa using g'⟩
    · refine ⟨?_, rfl, by simpa using u, by simpa using u'⟩
      rw [List.reverse_cons, List.reverse_cons]
      exact List.rel_append (List.rel_reverse hd) (.cons kk .nil)
  | @cons cur cur' rest rest' hk hr ih =>
    intro pre done post pre' done' post' last2 last1 last2' last1' t t' s s' hd k2 k1 e2 e2' g g' ho hm
    rw [chunkLoop, chunkLoop] at *
    simp only [Bool.false_eq_true, if_false] at *
    have kk := consolidate_groups hc (e2.areas g) (g.area _ (by simp)) (e2'.areas g') (g'.area _ (by simp)) (e2.disj g) (e2'.disj g') k2 k1 ho
    have u := g.upd (consolidate_upd c last2 last1 s.props s.nextId (g.good (by simp)))
    have u' := g'.upd (consolidate_upd c' last2' last1' s'.props s'.nextId (g'.good (by simp)))
    generalize consolidate c last2 last1 s.props = q at *
    generalize consolidate c' last2' last1' s'.props = q' at *
    have hmono := (chunkLoop_none c c.part rest (t + 1) q.1 (processStep c t q.1 cur { s with props := q.2 }).1 (q.1 :: done) false
      (processStep c t q.1 cur { s with props := q.2 }).2).1
    have one : OneParent c q.2 q.1 cur := oneParent_of_step (s := { s with props := q.2 }) (le_trans hmono hm)
    have one' : OneParent c' q'.2 q'.1 cur' :=
      oneParent_groups hc (u.area _ (by simp)) (u.area _ (by simp)) (u'.area _ (by simp)) (u'.area _ (by simp)) kk hk one
    rw [processStep_same (s := { s with props := q.2 }) one] at hm ⊢
    rw [processStep_same (s := { s' with props := q'.2 }) one']
    exact ih pre (q.1 :: done) post pre' (q'.1 :: done') post' q.1 cur q'.1 cur' (t + 1) (t' + 1) { s with props := q.2 } { s' with props := q'.2 }
      (.cons kk hd) kk hk (.inr (by simp)) (.inr (by simp)) (by simpa using u) (by simpa using u') one hm

theorem chunk_groups {e : Equiv.Perm (Fin n)} {c c' : TrackCfg n} (hc : SameCfg e c c') {ch ch' : List (Frame n)} (hr : List.Forall₂ (StepGroups e) ch ch')
    (pre post pre' post' : List (Frame n)) (last2 last1 last2' last1' : Frame n) (t t' : Nat) (s s' : SMState) (k1 : StepGroups e last1 last1')
    (e1 : Earlier pre last1) (e1' : Earlier pre' last1') (g : GInv c.w (pre ++ (ch ++ post)) s.props s.nextId)
    (g' : GInv c'.w (pre' ++ (ch' ++ post')) s'.props s'.nextId) (hm : (chunkLoop c t last2 last1 [] true ch s).2.merges.length ≤ s.merges.length) :
    List.Forall₂ (StepGroups e) (chunkLoop c t last2 last1 [] true ch s).1 (chunkLoop c' t' last2' last1' [] true ch' s').1 ∧
      (chunkLoop c' t' last2' last1' [] true ch' s').2.merges = s'.merges ∧
      GInv c.w (pre ++ (chunkLoop c t last2 last1 [] true ch s).1 ++ post) (chunkLoop c t last2 last1 [] true ch s).2.props
        (chunkLoop c t last2 last1 [] true ch s).2.nextId ∧
      GInv c'.w (pre' ++ (chunkLoop c' t' last2' last1' [] true ch' s').1 ++ post') (chunkLoop c' t' last2' last1' [] true ch' s').2.props
        (chunkLoop c' t' last2' last1' [] true ch' s').2.nextId := by
  cases hr with
  | nil => rw [chunkLoop, chunkLoop]; simpa using ⟨g, g'⟩
  | @cons cur cur' rest rest' hk hr =>
    rw [chunkLoop, chunkLoop] at *
    simp only [if_true] at *
    have hmono := (chunkLoop_none c c.part rest (t + 1) last1 (processStep c t last1 cur s).1 [] false (processStep c t last1 cur s).2).1
    have one : OneParent c s.props last1 cur := oneParent_of_step (le_trans hmono hm)
    have one' : OneParent c' s'.props last1' cur' :=
      oneParent_groups hc (e1.areas g) (g.area _ (by simp)) (e1'.areas g') (g'.area _ (by simp)) k1 hk one
    rw [processStep_same one] at hm ⊢
    rw [processStep_same one']
    exact chunkLoop_groups hc hr pre [] post pre' [] post' last1 cur last1' cur' (t + 1) (t' + 1) s s' .nil k1 hk (by simpa using e1) (by simpa using e1')
      (by simpa using g) (by simpa using g') one hm

theorem forall₂_getLast {R : Frame n → Frame n → Prop} {l l' : List (Frame n)} (h : List.Forall₂ R l l') (h0 : R zeroFrame zeroFrame) :
    R (l.getLast?.getD zeroFrame) (l'.getLast?.getD zeroFrame) := by
  rw [List.getLast?_eq_getElem?, List.getLast?_eq_getElem?, ← h.length_eq]
  cases hl : l[l.length - 1]? with
  | none => rw [List.getElem?_eq_none (by rw [← h.length_eq]; exact List.getElem?_eq_none_iff.1 hl)]; exact h0
  | some a =>
    obtain ⟨b, hb, hab⟩ := forall₂_get h hl
    rw [hb]
    exact hab

theorem earlier_getLast {A prev : List (Frame n)} (h : ∃ q, A = q ++ prev) : Earlier A (prev.getLast?.getD zeroFrame) := by
  obtain ⟨q, rfl⟩ := h
  cases hl : prev.getLast? with
  | none => exact .inl rfl
  | some a => exact .inr (List.mem_append_right _ (List.mem_of_getLast? hl))

theorem chunksLoop_groups {e : Equiv.Perm (Fin n)} {c c' : TrackCfg n} (hc : SameCfg e c c') {chs chs' : List (List (Frame n))}
    (hr : List.Forall₂ (List.Forall₂ (StepGroups e)) chs chs') :
    ∀ (pre prev pre' prev' : List (Frame n)) (t t' : Nat) (s s' : SMState), List.Forall₂ (StepGroups e) prev prev' → (∃ q, pre = q ++ prev) →
      (∃ q, pre' = q ++ prev') → GInv c.w (pre ++ chs.flatten) s.props s.nextId → GInv c'.w (pre' ++ chs'.flatten) s'.props s'.nextId →
      (chunksLoop c t prev chs s).2.merges.length ≤ s.merges.length →
      List.Forall₂ (StepGroups e) (chunksLoop c t prev chs s).1 (chunksLoop c' t' prev' chs' s').1 ∧
      (chunksLoop c' t' prev' chs' s').2.merges = s'.merges := by
  induction hr with
  | nil => intro pre prev pre' prev' t t' s s' _ _ _ _ _ _; exact ⟨.nil, rfl⟩
  | @cons ch ch' chs chs' hk hr ih =>
    intro pre prev pre' prev' t t' s s' hp hq hq' g g' hm
    rw [chunksLoop] at hm ⊢
    rw [chunksLoop]
    dsimp only at hm ⊢
    have a1 := (chunkLoop_none c c.part ch t (prev.dropLast.getLast?.getD zeroFrame) (prev.getLast?.getD zeroFrame) [] true s).1
    have b1 := (chunksLoop_none c c.part chs (t + ch.length) (chunkLoop c t (prev.dropLast.getLast?.getD zeroFrame) (prev.getLast?.getD zeroFrame) [] true ch s).1
      (chunkLoop c t (prev.dropLast.getLast?.getD zeroFrame) (prev.getLast?.getD zeroFrame) [] true ch s).2).1
    obtain ⟨r1, r2, r3, r4⟩ := chunk_groups hc hk pre chs.flatten pre' chs'.flatten (prev.dropLast.getLast?.getD zeroFrame) (prev.getLast?.getD zeroFrame)
      (prev'.dropLast.getLast?.getD zeroFrame) (prev'.getLast?.getD zeroFrame) t t' s s'
      (forall₂_getLast hp ⟨fun i => Iff.rfl, fun i j hi => absurd hi (by simp [zeroFrame])⟩) (earlier_getLast hq) (earlier_getLast hq')
      (by simpa using g) (by simpa using g') (le_trans b1 hm)
    generalize chunkLoop c t (prev.dropLast.getLast?.getD zeroFrame) (prev.getLast?.getD zeroFrame) [] true ch s = q at *
    generalize chunkLoop c' t' (prev'.dropLast.getLast?.getD zeroFrame) (prev'.getLast?.getD zeroFrame) [] true ch' s' = q' at *
    obtain ⟨m1, m2⟩ := ih (pre ++ q.1) q.1 (pre' ++ q'.1) q'.1 (t + ch.length) (t' + ch'.length) q.2 q'.2 r1 ⟨_, rfl⟩ ⟨_, rfl⟩ r3 r4 (le_trans hm a1)
    exact ⟨List.rel_append r1 m1, m2.trans r2⟩

theorem gInv_start {w : Fin n → ℚ} {fs : List (Frame n)} {props : List Obj} (hu : TimeUnique fs) (ht : TableExact w fs props) :
    GInv w fs props (firstNewId props) := by
  refine ⟨?_, ht.areas, fun k hk => lt_firstNewId hk, hu, fun k hk => (ht.ids k).mp hk⟩
  intro f hf i
  by_cases h0 : f i = 0
  · rw [h0]; unfold firstNewId; omega
  · exact lt_firstNewId ((ht.ids _).mpr ⟨by omega, f, hf, i, rfl⟩)

/-- A record that is tracked without a merge is tracked alike, and without a merge, with its cells in another order. -/
theorem splitAndMerge_groups {e : Equiv.Perm (Fin n)} {c c' : TrackCfg n} (hc : SameCfg e c c') {chs chs' : List (List (Frame n))}
    (hr : List.Forall₂ (List.Forall₂ (StepGroups e)) chs chs') (hu : TimeUnique chs.flatten) (hu' : TimeUnique chs'.flatten) {props props' : List Obj}
    (ht : TableExact c.w chs.flatten props) (ht' : TableExact c'.w chs'.flatten props') (hm : (splitAndMerge c chs props).merges = []) :
    List.Forall₂ (StepGroups e) (splitAndMerge c chs props).field (splitAndMerge c' chs' props').field ∧ (splitAndMerge c' chs' props').merges = [] :=
  chunksLoop_groups hc hr [] [] [] [] 0 0 ⟨props, firstNewId props, []⟩ ⟨props', firstNewId props', []⟩ .nil ⟨[], rfl⟩ ⟨[], rfl⟩ (gInv_start hu ht)
    (gInv_start hu' ht') (by
      unfold splitAndMerge at hm
      dsimp only at hm
      rw [hm])

/-! ### Tracking on structured grids -/

theorem chunksOf_groups {α : Type} {R : α → α → Prop} (ks : List Nat) : ∀ {l l' : List α}, List.Forall₂ R l l' →
    List.Forall₂ (List.Forall₂ R) (chunksOf ks l) (chunksOf ks l') := by
  induction ks with
  | nil =>
    intro l l' h
    cases h with
    | nil => exact .nil
    | cons a b => exact .cons (.cons a b) .nil
  | cons k ks ih =>
    intro l l' h
    exact .cons (List.forall₂_take k h) (ih (List.forall₂_drop k h))

theorem trackGrid_groups {ny nx : Nat} (cc cc' : Labeller) (hcc : CorrectLabeller cc) (hcc' : CorrectLabeller cc') {e : Equiv.Perm (Fin n)} (wrap nn wrap' nn' : Bool) (thr : ℚ)
    (cen cen' : Frame n → Nat → ℚ × ℚ) {chs chs' : List (List (Frame n))} (hr : List.Forall₂ (List.Forall₂ (StepGroups e)) chs chs')
    (hu : TimeUnique chs.flatten) (hu' : TimeUnique chs'.flatten) (hm : (trackGrid cc (gridCfg wrap nn ny nx thr cen) chs).objects.merges = []) :
    SameGroups e (trackGrid cc (gridCfg wrap nn ny nx thr cen) chs).idField (trackGrid cc' (gridCfg wrap' nn' ny nx thr cen') chs').idField ∧
      (trackGrid cc' (gridCfg wrap' nn' ny nx thr cen') chs').objects.merges = [] := by
  have ht := tableExact_calcProps (gridCfg wrap nn ny nx thr cen) chs.flatten hu
  have ht' := tableExact_calcProps (gridCfg wrap' nn' ny nx thr cen') chs'.flatten hu'
  obtain ⟨h1, h2⟩ := splitAndMerge_groups (c := gridCfg wrap nn ny nx thr cen) (c' := gridCfg wrap' nn' ny nx thr cen') ⟨rfl, rfl⟩ hr hu hu' ht ht' hm
  refine ⟨?_, h2⟩
  exact renameField_groups (w := fun _ => 1) cc cc' hcc hcc' (fun _ => one_pos) thr h1 (C20_new_ids_are_fresh wrap nn ny nx thr cen chs _ hu ht).2.2
    (C20_new_ids_are_fresh wrap' nn' ny nx thr cen' chs' _ hu' ht').2.2 (C57_table_exact_after_split_merge wrap nn ny nx thr cen chs _ hu ht)
    (C57_table_exact_after_split_merge wrap' nn' ny nx thr cen' chs' _ hu' ht')

theorem trackGrid_chunks (cc : Labeller) (c : TrackCfg n) {chunks chunks' : List Nat} {objs : List (Frame n)} (h : SameChunks chunks chunks' objs.length) :
    trackGrid cc c (chunksOf chunks' objs) = trackGrid cc c (chunksOf chunks objs) := by
  rcases h with rfl | ⟨h1, h2⟩
  · rfl
  · unfold trackGrid
    dsimp only
    rw [flatten_chunksOf, flatten_chunksOf,
      C19_chunking_irrelevant_partial c _ _ _ (chunksOf_two h2) (chunksOf_two h1) (by rw [flatten_chunksOf, flatten_chunksOf])]

/-- The cells of a grid in another order in which the same cells touch. -/
theorem tracked_groups {ny nx : Nat} (cc : Labeller) (hcc : CorrectLabeller cc) (hnx : 0 < nx) {regional : Bool} {e : Equiv.Perm (Fin (ny * nx))}
    (hT : ∀ i j, Touch regional nx (e i) (e j) ↔ Touch regional nx i j) (wrap nn wrap' nn' : Bool) (thr : ℚ)
    (cen cen' : Frame (ny * nx) → Nat → ℚ × ℚ) (chunks chunks' : List Nat) (pre : List (Fin (ny * nx) → Bool)) (hch : SameChunks chunks chunks' pre.length)
    (hm : (trackGrid cc (gridCfg wrap nn ny nx thr cen) (chunksOf chunks (identifyObjectsGrid cc false regional nx pre))).objects.merges = []) :
    SameGroups e (trackGrid cc (gridCfg wrap nn ny nx thr cen) (chunksOf chunks (identifyObjectsGrid cc false regional nx pre))).idField
      (trackGrid cc (gridCfg wrap' nn' ny nx thr cen') (chunksOf chunks' (identifyObjectsGrid cc false regional nx (pre.map (renumber e))))).idField ∧
    (trackGrid cc (gridCfg wrap' nn' ny nx thr cen') (chunksOf chunks' (identifyObjectsGrid cc false regional nx (pre.map (renumber e))))).objects.merges = [] := by
  have hu : ∀ (data : List (Fin (ny * nx) → Bool)) (ks : List Nat), TimeUnique (chunksOf ks (identifyObjectsGrid cc false regional nx data)).flatten := by
    intro data ks
    rw [flatten_chunksOf]
    exact (C63_grid_ids_unique cc hcc regional nx hnx data).1
  rw [trackGrid_chunks (chunks := chunks) (chunks' := chunks') cc _ (by rw [length_identify, List.length_map]; exact hch)]
  exact trackGrid_groups cc cc hcc hcc wrap nn wrap' nn' thr cen cen' (chunksOf_groups chunks (identify_groups hcc hnx hT pre)) (hu _ _) (hu _ _) hm

/-- **C207**, events with merging allowed: if the tracking of a preprocessed field reports no merge, then on a map whose rows or columns come in the opposite
order it reports none either and finds the same events, through all splits, for every overlap threshold, either partition method, and every chunking (the
same one, or any two with chunks of at least two steps). Missing: records with merges (`C207_merging_tie_fails`). -/
theorem C207_merging_partial {ny nx : Nat} (cc : Labeller) (hcc : CorrectLabeller cc) (hnx : 0 < nx) (rows cols : Bool) (regional wrap nn nn' : Bool) (thr : ℚ)
    (cen cen' : Frame (ny * nx) → Nat → ℚ × ℚ) (chunks chunks' : List Nat) (pre : List (Fin (ny * nx) → Bool)) (hch : SameChunks chunks chunks' pre.length)
    (hm : (trackGrid cc (gridCfg wrap nn ny nx thr cen) (chunksOf chunks (identifyObjectsGrid cc false regional nx pre))).objects.merges = []) :
    let e := mirror rows cols ny nx
    let run := trackGrid cc (gridCfg wrap nn ny nx thr cen) (chunksOf chunks (identifyObjectsGrid cc false regional nx pre))
    let run' := trackGrid cc (gridCfg wrap nn' ny nx thr cen') (chunksOf chunks' (identifyObjectsGrid cc false regional nx (pre.map (renumber e))))
    SameGroups e run.idField run'.idField ∧ run'.objects.merges = [] :=
  tracked_groups cc hcc hnx (touch_mirror_iff rows cols ny nx regional) wrap nn wrap nn' thr cen cen' chunks chunks' pre hch hm

/-- **C207**, whole runs with merging allowed: a run that reports no merge gives the same preprocessed field at every cell and the same events on a map whose
rows or columns come in the opposite order, for every `R_fill`, `T_fill` and area criterion. Missing: records with merges (`C207_merging_tie_fails`), and
records whose first extremes form several objects (`C207_area_filter_fails`). -/
theorem C207_run_merging_partial {ny nx : Nat} (cc : Labeller) (hcc : CorrectLabeller cc) (hnx : 0 < nx) (rows cols : Bool) (p : GridRun ny nx)
    (hm : p.allowMerging = true) (wrap nn nn' : Bool) (thr : ℚ) (cen cen' : Frame (ny * nx) → Nat → ℚ × ℚ) (ht : p.track = gridCfg wrap nn ny nx thr cen)
    (chunks : List Nat) (data : List (Fin (ny * nx) → Bool)) (hone : OneFirst p.regional nx (fillStagesGrid p data))
    (pre : List (Fin (ny * nx) → Bool)) (ids : List (Frame (ny * nx))) (hr : runGrid cc p chunks data = .ok (pre, ids))
    (hnone : (trackGrid cc p.track (chunksOf chunks (identifyObjectsGrid cc false p.regional nx pre))).objects.merges = [])
    (chunks' : List Nat) (hch : SameChunks chunks chunks' pre.length) :
    ∃ ids', runGrid cc { p with mask := renumber (mirror rows cols ny nx) p.mask, track := gridCfg wrap nn' ny nx thr cen' } chunks'
          (data.map (renumber (mirror rows cols ny nx))) = .ok (pre.map (renumber (mirror rows cols ny nx)), ids') ∧
      SameGroups (mirror rows cols ny nx) ids ids' := by
  obtain ⟨r, q1, rfl, rfl⟩ := runGrid_ok hr
  obtain ⟨r', q2, hf⟩ := preprocessGrid_mirror cc hcc hnx rows cols p data hone r q1 (gridCfg wrap nn' ny nx thr cen')
  rw [ht] at hnone
  have k := C207_merging_partial cc hcc hnx rows cols p.regional wrap nn nn' thr cen cen' chunks chunks' r.field hch hnone
  refine ⟨_, by unfold runGrid; rw [q2, ← hf], ?_⟩
  unfold trackingGrid
  dsimp only
  rw [if_pos hm, if_pos hm, ht, hf]
  exact k.1

/-- The cells of the globe on a map cut `s` columns further. -/
def turned {ny nx : Nat} (hnx : 0 < nx) (s : Nat) : Equiv.Perm (Fin (ny * nx)) where
  toFun := turn hnx s
  invFun := turn hnx (backBy nx s)
  left_inv := turn_turn hnx _ _ (backBy_spec hnx s).1
  right_inv := turn_turn hnx _ _ (backBy_spec hnx s).2

theorem touch_turned_iff {ny nx : Nat} (hnx : 0 < nx) (s : Nat) (i j : Fin (ny * nx)) :
    Touch false nx (turned hnx s i) (turned hnx s j) ↔ Touch false nx i j := by
  constructor
  · intro h
    have := touch_turn hnx (backBy nx s) h
    change Touch false nx ((turned hnx s).symm (turned hnx s i)) ((turned hnx s).symm (turned hnx s j)) at this
    simpa using this
  · exact touch_turn hnx s

theorem turned_eq {ny nx : Nat} (hnx : 0 < nx) {s : Nat} {data data' : List (Fin (ny * nx) → Bool)} (h : Turned hnx s data data') :
    data' = data.map (renumber (turned hnx s)) := by
  refine List.ext_getElem (by rw [List.length_map, h.1]) fun t h1 h2 => ?_
  rw [List.getElem_map]
  refine renumber_ext _ fun i => ?_
  have h3 : t < data.length := by rw [← h.1]; exact h1
  have k := h.2 t i
  unfold IsExtreme at k
  rw [List.getElem?_eq_getElem h1, List.getElem?_eq_getElem h3] at k
  simp only [Option.some.injEq, exists_eq_left'] at k
  exact Bool.eq_iff_iff.2 k

/-- **C164**, events with merging allowed: if the tracking of a preprocessed field of the globe reports no merge, then on a map that is cut elsewhere it
reports none either and finds the same events, through all splits. Missing: records with merges (`C164_merging_tie_fails`), and the preprocessing
(`C05_rotation_invariance_fails`, `C164_area_filter_fails`). -/
theorem C164_merging_partial {ny nx : Nat} (cc : Labeller) (hcc : CorrectLabeller cc) (hnx : 0 < nx) (wrap nn nn' : Bool) (thr : ℚ)
    (cen cen' : Frame (ny * nx) → Nat → ℚ × ℚ) (chunks chunks' : List Nat) (s : Nat) (pre pre' : List (Fin (ny * nx) → Bool)) (h : Turned hnx s pre pre')
    (hch : SameChunks chunks chunks' pre.length)
    (hm : (trackGrid cc (gridCfg wrap nn ny nx thr cen) (chunksOf chunks (identifyObjectsGrid cc false false nx pre))).objects.merges = []) :
    let run := trackGrid cc (gridCfg wrap nn ny nx thr cen) (chunksOf chunks (identifyObjectsGrid cc false false nx pre))
    let run' := trackGrid cc (gridCfg wrap nn' ny nx thr cen') (chunksOf chunks' (identifyObjectsGrid cc false false nx pre'))
    run'.objects.merges = [] ∧ ∀ (t u : Nat) (f g f' g' : Frame (ny * nx)), run.idField[t]? = some f → run.idField[u]? = some g →
      run'.idField[t]? = some f' → run'.idField[u]? = some g' →
      ∀ i j, (0 < f i ∧ f i = g j) ↔ (0 < f' (turn hnx s i) ∧ f' (turn hnx s i) = g' (turn hnx s j)) := by
  have k := tracked_groups cc hcc hnx (touch_turned_iff hnx s) wrap nn wrap nn' thr cen cen' chunks chunks' pre hch hm
  rw [← turned_eq hnx h] at k
  exact ⟨k.2, k.1.2⟩

/-- A cell for the area filter to drop; cells 0 to 4, then cells 0, 1 and 3, then cell 3: a split. -/
def splitRow : List (Fin (1 * 6) → Bool) := [cellsFrom 5 5, cellsFrom 0 4, fun i => decide (i.val ≤ 1 ∨ i.val = 3), cellsFrom 3 3]

-- non-vacuity: a run with a split and no merge; one event in both orders
example : OneFirst (rowRun 6 true (1 / 2)).regional 6 (fillStagesGrid (rowRun 6 true (1 / 2)) splitRow) ∧ SameChunks [4] [2, 2] splitRow.length ∧
    (match runGrid quickFind (rowRun 6 true (1 / 2)) [4] splitRow with
      | .ok (pre, [a, b, c, d]) => decide (a 5 = 0 ∧ 0 < b 0 ∧ b 0 = b 4 ∧ c 0 = b 0 ∧ c 3 = b 0 ∧ d 3 = b 0) &&
        decide ((trackGrid quickFind (rowRun 6 true (1 / 2)).track (chunksOf [4] (identifyObjectsGrid quickFind false true 6 pre))).objects.merges = [])
      | _ => false) = true ∧
    (match runGrid quickFind (rowRun 6 true (1 / 2)) [2, 2] (splitRow.map (renumber (mirror false true 1 6))) with
      | .ok (_, [a, b, c, d]) => decide (a 0 = 0 ∧ 0 < b 5 ∧ b 5 = b 1 ∧ c 5 = b 5 ∧ c 2 = b 5 ∧ d 2 = b 5) | _ => false) = true := by
  refine ⟨?_, .inr ⟨⟨rfl, by simp, by simp⟩, ⟨rfl, by simp, by simp⟩⟩, by decide +kernel, by decide +kernel⟩
  intro t i j hb hi hj
  match t with
  | 0 =>
    have one : ∀ {i}, IsExtreme (fillStagesGrid (rowRun 6 true (1 / 2)) splitRow) 0 i → i = 5 := by
      rintro i ⟨d, hd, hi⟩
      cases hd
      revert hi
      revert i
      decide +kernel
    rw [one hi, one hj]
    exact .refl _
  | t + 1 => exact absurd ⟨_, rfl, by decide +kernel⟩ (hb 0 (by omega) 5)

-- non-vacuity on the globe: the same split on a map cut two columns further, and the two runs
example : Turned (ny := 1) (nx := 6) (by decide) 2 splitRow (splitRow.map (renumber (turned (by decide) 2))) ∧
    (trackGrid quickFind (gridCfg true true 1 6 (1 / 2) (rowCen 6)) (chunksOf [4] (identifyObjectsGrid quickFind false false 6 splitRow))).objects.merges = [] ∧
    (trackGrid quickFind (gridCfg true true 1 6 (1 / 2) (rowCen 6)) (chunksOf [4] (identifyObjectsGrid quickFind false false 6
      (splitRow.map (renumber (turned (ny := 1) (nx := 6) (by decide) 2)))))).idField.map (fun g => (List.finRange 6).map g) =
      [[0, 1, 0, 0, 0, 0], [2, 0, 2, 2, 2, 2], [0, 0, 2, 2, 0, 2], [0, 0, 0, 0, 0, 2]] := by
  refine ⟨⟨by rw [List.length_map], fun t i => isExtreme_renumber (e := turned (by decide) 2) _ t i⟩, by decide +kernel, by decide +kernel⟩

end MarEx.Props
