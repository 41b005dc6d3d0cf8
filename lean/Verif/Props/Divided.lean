import Verif.Props.Choice
/-! C194: objects that merge on a grid stay separate events. -/
namespace MarEx.Spec

variable {n : Nat}

/-- Number of merges recorded at step `t`. -/
def mergesAt (merges : List MergeRec) (t : Nat) : Nat := (merges.filter fun r => r.time == t).length

/-- No object of `g` continues two objects of `prev`. -/
def OneParent (w : Fin n → ℚ) (thr : ℚ) (prev g : Fin n → Nat) : Prop :=
  ∀ a b k, 0 < k → OverlapEnough w thr prev a g k → OverlapEnough w thr prev b g k → a = b

/-- The labelled cells of `f` are divided into pieces `g`: every object of `f` is one piece, or consists of pieces that all continue the same object of
`prev`; no piece continues two objects of `prev`. -/
def Divided (w : Fin n → ℚ) (thr : ℚ) (prev f : Fin n → Nat) : Prop :=
  ∃ g : Fin n → Nat, (∀ i, 0 < g i ↔ 0 < f i) ∧ (∀ i j, g i = g j → f i = f j) ∧ OneParent w thr prev g ∧
    ∀ i j, 0 < f i → f i = f j → g i ≠ g j → ∃ p, OverlapEnough w thr prev p g (g i) ∧ OverlapEnough w thr prev p g (g j)

end MarEx.Spec

namespace MarEx.Props
open MarEx Spec

variable {n : Nat}

/-- A step that does not use up its ten rounds ends without an object that has two parents. -/
theorem resolveMerges_done (c : TrackCfg n) (t : Nat) (prev : Frame n) (fuel : Nat) : ∀ (cur : Frame n) (s : SMState),
    (resolveMerges c t prev fuel (cur, s)).2.merges.length < s.merges.length + fuel →
    repeated ((enforceOverlap c.thr (resolveMerges c t prev fuel (cur, s)).2.props
      (checkOverlapSlice c.w prev (resolveMerges c t prev fuel (cur, s)).1)).map (·.b)) = [] := by
  induction fuel with
  | zero => intro cur s h; simp only [resolveMerges, Nat.add_zero, lt_irrefl] at h
  | succ fuel ih =>
    intro cur s h
    unfold resolveMerges at h ⊢
    dsimp only at h ⊢
    split
    · rename_i he
      exact List.isEmpty_iff.1 he
    · rename_i he
      rw [if_neg he] at h
      refine ih _ _ ?_
      rw [processChild_fold_merges]
      dsimp only
      have : 0 < (repeated ((enforceOverlap c.thr s.props (checkOverlapSlice c.w prev cur)).map (·.b))).length := by
        rw [List.length_pos_iff]
        intro h0
        rw [h0] at he
        exact he rfl
      omega

theorem linked_iff_enough {w : Fin n → ℚ} (hw : ∀ i, 0 < w i) {thr : ℚ} {fs : List (Frame n)} {p : List Obj} {N : Nat} (h : GInv w fs p N)
    {prev g : Frame n} (hp : prev ∈ fs) (hg : g ∈ fs) {a b : Nat} :
    LinkedTo (enforceOverlap thr p (checkOverlapSlice w prev g)) a b ↔ 0 < b ∧ OverlapEnough w thr prev a g b := by
  have hpos : PositiveAreas p := by
    intro k x hk
    obtain ⟨h0, f, hf, i, rfl⟩ := h.noextra k (hasId_iff_area.mpr ⟨x, hk⟩)
    rw [h.area f hf i h0, Option.some.injEq] at hk
    rw [← hk]
    exact objectArea_pos_cell hw f i
  unfold LinkedTo OverlapEnough
  constructor
  · rintro ⟨⟨a', b', v⟩, ho, rfl, rfl⟩
    obtain ⟨h1, x, y, hx, hy, hv⟩ := (C13_link_iff_threshold thr p hpos _ _).mp ho
    obtain ⟨ha, hb, ⟨i, hi1, hi2⟩, hve⟩ := mem_checkOverlapSlice.mp h1
    dsimp only at ha hb hi1 hi2 hx hy hv hve ⊢
    have e1 := h.area prev hp i (by rw [hi1]; exact ha)
    have e2 := h.area g hg i (by rw [hi2]; exact hb)
    rw [hi1, hx, Option.some.injEq] at e1
    rw [hi2, hy, Option.some.injEq] at e2
    refine ⟨hb, ha, ⟨i, hi1, hi2⟩, ?_⟩
    rw [e1, e2, hve] at hv
    exact hv
  · rintro ⟨hb, ha, ⟨i, rfl, rfl⟩, hv⟩
    refine ⟨⟨prev i, g i, sharedWeight w prev g (prev i) (g i)⟩, (C13_link_iff_threshold thr p hpos _ _).mpr
      ⟨mem_checkOverlapSlice.mpr ⟨ha, hb, ⟨i, rfl, rfl⟩, rfl⟩, _, _, h.area prev hp i ha, h.area g hg i hb, hv⟩, rfl, rfl⟩

theorem oneParent_zero (w : Fin n → ℚ) (thr : ℚ) (g : Frame n) : OneParent w thr zeroFrame g := by
  rintro a b k - ⟨ha, ⟨i, hi, -⟩, -⟩
  simp only [zeroFrame] at hi
  omega

theorem oneParent_of_nil {w : Fin n → ℚ} (hw : ∀ i, 0 < w i) {thr : ℚ} {fs : List (Frame n)} {p : List Obj} {N : Nat} (h : GInv w fs p N)
    {prev g : Frame n} (hp : prev = zeroFrame ∨ prev ∈ fs) (hg : g ∈ fs)
    (hr : repeated ((enforceOverlap thr p (checkOverlapSlice w prev g)).map (·.b)) = []) : OneParent w thr prev g := by
  rcases hp with rfl | hp
  · exact oneParent_zero w thr g
  intro a b k hk ha hb
  obtain ⟨o, ho, rfl, rfl⟩ := (linked_iff_enough hw h hp hg).2 ⟨hk, ha⟩
  obtain ⟨o', ho', rfl, he⟩ := (linked_iff_enough hw h hp hg).2 ⟨hk, hb⟩
  have hn : ((enforceOverlap thr p (checkOverlapSlice w prev g)).map (·.b)).Nodup := by
    rw [List.nodup_iff_count_le_one]
    intro x
    by_contra hx
    have : x ∈ repeated ((enforceOverlap thr p (checkOverlapSlice w prev g)).map (·.b)) := mem_repeated.2 (by omega)
    rw [hr] at this
    cases this
  rw [List.inj_on_of_nodup_map hn ho ho' he.symm]

theorem divided_self {w : Fin n → ℚ} {thr : ℚ} {prev g : Frame n} (h : OneParent w thr prev g) : Divided w thr prev g :=
  ⟨g, fun _ => Iff.rfl, fun _ _ h => h, h, fun _ _ _ h h' => absurd h h'⟩

/-- Uniting siblings. -/
theorem divided_consolidate {c : TrackCfg n} (hw : ∀ i, 0 < c.w i) {fs : List (Frame n)} {p : List Obj} {N : Nat} (h : GInv c.w fs p N)
    {prev g : Frame n} (hp : prev = zeroFrame ∨ prev ∈ fs) (hg : g ∈ fs) (hdisj : ∀ i j, 0 < prev i → prev i ≠ g j)
    (ho : OneParent c.w c.thr prev g) : Divided c.w c.thr prev (consolidate c prev g p).1 := by
  rcases hp with rfl | hp
  · rw [consolidate_zero]; exact divided_self ho
  have hal : AreasListed c.w g p := h.area g hg
  obtain ⟨h1, -, ρ, h2, h3⟩ := C14_consolidation_renames c prev g p hal
  have hl := fun a b => linked_iff_enough hw (thr := c.thr) h hp hg (a := a) (b := b)
  refine ⟨g, fun i => (h1 i).symm, fun i j e => by rw [h2, h2, e], ho, ?_⟩
  have hs : ∀ p' q k, LinkedTo (enforceOverlap c.thr p (checkOverlapSlice c.w prev g)) p' k →
      LinkedTo (enforceOverlap c.thr p (checkOverlapSlice c.w prev g)) q k → p' = q := fun p' q k a b =>
    ho p' q k ((hl _ _).1 a).1 ((hl _ _).1 a).2 ((hl _ _).1 b).2
  have key : ∀ i j, (consolidate c prev g p).1 i = (consolidate c prev g p).1 j →
      InSplit (enforceOverlap c.thr p (checkOverlapSlice c.w prev g)) (g i) →
      ∃ p, OverlapEnough c.w c.thr prev p g (g i) ∧ OverlapEnough c.w c.thr prev p g (g j) := by
    rintro i j he ⟨q, hq, hqi⟩
    classical
    have hex : ∃ k, LinkedTo (enforceOverlap c.thr p (checkOverlapSlice c.w prev g)) q k := ⟨_, hqi⟩
    obtain ⟨hm, -⟩ := C130_one_child_per_parent_partial c prev g p hal hdisj hs q (Nat.find hex) hq (Nat.find_spec hex)
      (fun k hk => Nat.find_min' hex hk)
    have e1 := (hm i).2 hqi
    rw [he] at e1
    exact ⟨q, ((hl _ _).1 hqi).2, ((hl _ _).1 ((hm j).1 e1)).2⟩
  intro i j hi he hne
  by_cases a : InSplit (enforceOverlap c.thr p (checkOverlapSlice c.w prev g)) (g i)
  · exact key i j he a
  by_cases b : InSplit (enforceOverlap c.thr p (checkOverlapSlice c.w prev g)) (g j)
  · obtain ⟨q, q1, q2⟩ := key j i he.symm b
    exact ⟨q, q2, q1⟩
  · exfalso
    have e1 := h2 i
    have e2 := h2 j
    rw [(h3 _).1 a] at e1
    rw [(h3 _).1 b] at e2
    exact hne (by rw [← e1, ← e2, he])

/-! ### The loops -/

/-- Every frame of a list is divided with respect to the one before it, at the steps with fewer than ten merges. -/
def DividedFrom (w : Fin n → ℚ) (thr : ℚ) (m : List MergeRec) : Nat → Frame n → List (Frame n) → Prop
  | _, _, [] => True
  | t, prev, f :: fs => (mergesAt m t < 10 → Divided w thr prev f) ∧ DividedFrom w thr m (t + 1) f fs

theorem dividedFrom_append (w : Fin n → ℚ) (thr : ℚ) (m : List MergeRec) (l l' : List (Frame n)) : ∀ (t : Nat) (prev : Frame n),
    DividedFrom w thr m t prev l → DividedFrom w thr m (t + l.length) (l.getLast?.getD prev) l' → DividedFrom w thr m t prev (l ++ l') := by
  induction l with
  | nil => intro t prev _ h; simpa using h
  | cons f l ih =>
    intro t prev h h'
    refine ⟨h.1, ih (t + 1) f h.2 ?_⟩
    have e1 : t + (f :: l).length = t + 1 + l.length := by rw [List.length_cons]; omega
    have e2 : (f :: l).getLast?.getD prev = l.getLast?.getD f := by
      cases l with
      | nil => rfl
      | cons a l => rw [List.getLast?_cons_cons, List.getLast?_eq_getLast_of_ne_nil (by simp)]; rfl
    rw [e1, e2] at h'
    exact h'

theorem mergesAt_append (a b : List MergeRec) (t : Nat) : mergesAt (a ++ b) t = mergesAt a t + mergesAt b t := by
  unfold mergesAt; rw [List.filter_append, List.length_append]

theorem mergesAt_none {m : List MergeRec} {t : Nat} (h : ∀ r ∈ m, r.time ≠ t) : mergesAt m t = 0 := by
  unfold mergesAt
  rw [List.length_eq_zero_iff, List.filter_eq_nil_iff]
  intro r hr
  simpa using h r hr

theorem mergesAt_all {m : List MergeRec} {t : Nat} (h : ∀ r ∈ m, r.time = t) : mergesAt m t = m.length := by
  unfold mergesAt
  rw [List.filter_eq_self.2]
  intro r hr
  simpa using h r hr

/-- One step. -/
theorem step_divided {c : TrackCfg n} (hc : PartitionOK c) (hw : ∀ i, 0 < c.w i) {N0 : Nat} {A B : List (Frame n)} {cur prev : Frame n} {t : Nat}
    {s : SMState} (h : Inv c.w N0 (A ++ cur :: B) t s) (ht : t = A.length) (hprev : prev = zeroFrame ∨ A.getLast? = some prev) :
    (∀ T < t, mergesAt (processStep c t prev cur s).2.merges T = mergesAt s.merges T) ∧
    (mergesAt (processStep c t prev cur s).2.merges t < 10 → OneParent c.w c.thr prev (processStep c t prev cur s).1) := by
  obtain ⟨h3, -⟩ := h.step hc ht hprev
  have r := resolveMerges_res c hc t prev 10 cur s (h.g.good (by simp))
  obtain ⟨new, e, hr, -⟩ := r.recs
  have hd := resolveMerges_done c t prev 10 cur s
  unfold processStep at h3 ⊢
  refine ⟨fun T hT => ?_, fun hlt => ?_⟩
  · rw [e, mergesAt_append, mergesAt_none (m := new), Nat.add_zero]
    intro x hx
    have := (hr x hx).1
    omega
  · refine oneParent_of_nil hw h3.g (prev := prev) ?_ (by simp) (hd ?_)
    · rcases hprev with h | h
      · exact Or.inl h
      · exact Or.inr (List.mem_append_left _ (List.mem_of_getLast? h))
    · rw [e, mergesAt_append, mergesAt_none (m := s.merges), mergesAt_all (m := new), Nat.zero_add] at hlt
      · rw [e, List.length_append]; omega
      · exact fun x hx => (hr x hx).1
      · intro x hx
        have := (h.recs x hx).1
        omega

theorem chunkLoop_divided (c : TrackCfg n) (hc : PartitionOK c) (hw : ∀ i, 0 < c.w i) (N0 : Nat) (rest : List (Frame n)) :
    ∀ (pre done post : List (Frame n)) (last2 last1 : Frame n) (u : Nat) (s : SMState), u = pre.length + done.length →
      Inv c.w N0 (pre ++ (done.reverse ++ last1 :: rest) ++ post) (u + 1) s →
      (last2 = zeroFrame ∨ (pre ++ done.reverse).getLast? = some last2) →
      (mergesAt s.merges u < 10 → OneParent c.w c.thr last2 last1) →
      (∀ T < u + 1, mergesAt (chunkLoop c (u + 1) last2 last1 done false rest s).2.merges T = mergesAt s.merges T) ∧
      ∃ tl, (chunkLoop c (u + 1) last2 last1 done false rest s).1 = done.reverse ++ tl ∧
        ∀ m, (∀ T < u + 1 + rest.length, mergesAt m T = mergesAt (chunkLoop c (u + 1) last2 last1 done false rest s).2.merges T) →
          DividedFrom c.w c.thr m u last2 tl := by
  have hdisj : ∀ {A B : List (Frame n)} {f g : Frame n} {p : List Obj} {N : Nat}, GInv c.w (A ++ g :: B) p N →
      (f = zeroFrame ∨ A.getLast? = some f) → (∀ i j, 0 < f i → f i ≠ g j) ∧ (f = zeroFrame ∨ f ∈ A ++ g :: B) := by
    intro A B f g p N h hf
    rcases hf with rfl | hf
    · exact ⟨fun i j hi => by simp [zeroFrame] at hi, Or.inl rfl⟩
    · have hm := List.mem_of_getLast? hf
      have := h.disj
      rw [List.pairwise_append] at this
      exact ⟨this.2.2 f hm g (by simp), Or.inr (by simp [hm])⟩
  induction rest with
  | nil =>
    intro pre done post last2 last1 u s hu h hl2 ho
    rw [chunkLoop]
    simp only [Bool.false_eq_true, if_false]
    split
    · rename_i hd
      rw [List.isEmpty_iff] at hd
      subst hd
      exact ⟨fun _ _ => rfl, [last1], rfl, fun m hm => ⟨fun hlt => divided_self (ho (by rw [← hm u (by simp)]; exact hlt)), trivial⟩⟩
    · have h' : Inv c.w N0 ((pre ++ done.reverse) ++ last1 :: post) (u + 1) s := by simpa using h
      obtain ⟨d1, d2⟩ := hdisj h'.g hl2
      refine ⟨fun _ _ => rfl, [(consolidate c last2 last1 s.props).1], by simp, fun m hm => ⟨fun hlt => ?_, trivial⟩⟩
      exact divided_consolidate hw h'.g d2 (by simp) d1 (ho (by rw [← hm u (by simp)]; exact hlt))
  | cons cur rest ih =>
    intro pre done post last2 last1 u s hu h hl2 ho
    rw [chunkLoop_cons_false]
    have h' : Inv c.w N0 ((pre ++ done.reverse) ++ last1 :: (cur :: rest ++ post)) (u + 1) s := by simpa using h
    obtain ⟨d1, d2⟩ := hdisj h'.g hl2
    have hdiv : mergesAt s.merges u < 10 → Divided c.w c.thr last2 (consolidate c last2 last1 s.props).1 := fun hlt =>
      divided_consolidate hw h'.g d2 (by simp) d1 (ho hlt)
    obtain ⟨h1, -⟩ := h'.consolidate (by simp [hu]) last2
    generalize consolidate c last2 last1 s.props = k at h1 hdiv ⊢
    have h1' : Inv c.w N0 ((pre ++ done.reverse ++ [k.1]) ++ cur :: (rest ++ post)) (u + 1) { s with props := k.2 } := by simpa using h1
    obtain ⟨h3, -⟩ := h1'.step hc (prev := k.1) (by simp [hu]; omega) (Or.inr (by simp))
    obtain ⟨h4, h5⟩ := step_divided hc hw h1' (prev := k.1) (by simp [hu]; omega) (Or.inr (by simp))
    generalize processStep c (u + 1) k.1 cur { s with props := k.2 } = r at h3 h4 h5 ⊢
    obtain ⟨i1, tl, i2, i3⟩ := ih pre (k.1 :: done) post k.1 r.1 (u + 1) r.2 (by simp [hu]; omega) (by simpa using h3) (Or.inr (by simp)) h5
    dsimp only at h4
    refine ⟨fun T hT => by rw [i1 T (by omega), h4 T hT], k.1 :: tl, by rw [i2]; simp, fun m hm => ⟨fun hlt => hdiv ?_, ?_⟩⟩
    · rw [hm u (by omega), i1 u (by omega), h4 u (by omega)] at hlt
      exact hlt
    · refine i3 m fun T hT => hm T ?_
      rw [List.length_cons]
      omega

theorem chunk_divided (c : TrackCfg n) (hc : PartitionOK c) (hw : ∀ i, 0 < c.w i) (N0 : Nat) (ch pre post : List (Frame n)) (last2 last1 : Frame n)
    (t : Nat) (s : SMState) (ht : t = pre.length) (hprev : last1 = zeroFrame ∨ pre.getLast? = some last1)
    (h : Inv c.w N0 (pre ++ ch ++ post) t s) :
    (∀ T < t, mergesAt (chunkLoop c t last2 last1 [] true ch s).2.merges T = mergesAt s.merges T) ∧
    ∀ m, (∀ T < t + ch.length, mergesAt m T = mergesAt (chunkLoop c t last2 last1 [] true ch s).2.merges T) →
      DividedFrom c.w c.thr m t last1 (chunkLoop c t last2 last1 [] true ch s).1 := by
  cases ch with
  | nil => rw [chunkLoop]; exact ⟨fun _ _ => rfl, fun _ _ => trivial⟩
  | cons cur rest =>
    rw [chunkLoop_cons_true]
    have h' : Inv c.w N0 (pre ++ cur :: (rest ++ post)) t s := by simpa using h
    obtain ⟨h3, -⟩ := h'.step hc ht hprev
    obtain ⟨h4, h5⟩ := step_divided hc hw h' ht hprev
    generalize processStep c t last1 cur s = r at h3 h4 h5 ⊢
    obtain ⟨i1, tl, i2, i3⟩ := chunkLoop_divided c hc hw N0 rest pre [] post last1 r.1 t r.2 (by simp [ht]) (by simpa using h3) (by simpa using hprev) h5
    refine ⟨fun T hT => by rw [i1 T (by omega), h4 T hT], fun m hm => ?_⟩
    rw [i2]
    refine i3 m fun T hT => hm T ?_
    rw [List.length_cons]
    omega

theorem chunksLoop_divided (c : TrackCfg n) (hc : PartitionOK c) (hw : ∀ i, 0 < c.w i) (N0 : Nat) (chs : List (List (Frame n))) :
    ∀ (pre prev : List (Frame n)) (t : Nat) (s : SMState), t = pre.length → (∃ q, pre = q ++ prev) → (∀ ch ∈ chs, ch ≠ []) →
      Inv c.w N0 (pre ++ chs.flatten) t s →
      (∀ T < t, mergesAt (chunksLoop c t prev chs s).2.merges T = mergesAt s.merges T) ∧
      DividedFrom c.w c.thr (chunksLoop c t prev chs s).2.merges t (prev.getLast?.getD zeroFrame) (chunksLoop c t prev chs s).1 := by
  induction chs with
  | nil => intro pre prev t s _ _ _ h; exact ⟨fun _ _ => rfl, trivial⟩
  | cons ch chs ih =>
    intro pre prev t s ht hq hne h
    rw [chunksLoop]
    dsimp only
    obtain ⟨q, hq⟩ := hq
    have hprev : prev.getLast?.getD zeroFrame = zeroFrame ∨ pre.getLast? = some (prev.getLast?.getD zeroFrame) := by
      cases hl : prev.getLast? with
      | none => left; rfl
      | some x => right; rw [hq, List.getLast?_append, hl]; rfl
    obtain ⟨h1, h2⟩ := chunk_inv c hc N0 ch pre chs.flatten (prev.dropLast.getLast?.getD zeroFrame)
      (prev.getLast?.getD zeroFrame) t s ht hprev (by simpa using h)
    obtain ⟨d1, d2⟩ := chunk_divided c hc hw N0 ch pre chs.flatten (prev.dropLast.getLast?.getD zeroFrame)
      (prev.getLast?.getD zeroFrame) t s ht hprev (by simpa using h)
    generalize chunkLoop c t (prev.dropLast.getLast?.getD zeroFrame) (prev.getLast?.getD zeroFrame) [] true ch s = r at h1 h2 d1 d2 ⊢
    have hlen : r.1.length = ch.length := h2.length_eq.symm
    obtain ⟨i1, i2⟩ := ih (pre ++ r.1) r.1 (t + ch.length) r.2 (by simp [ht, hlen]) ⟨pre, rfl⟩ (fun x hx => hne x (by simp [hx])) h1
    refine ⟨fun T hT => by rw [i1 T (by omega), d1 T hT], dividedFrom_append _ _ _ _ _ _ _ (d2 _ fun T hT => i1 T hT) ?_⟩
    have hr : r.1 ≠ [] := by
      intro h0
      rw [h0, List.length_nil] at hlen
      exact hne ch (by simp) (List.eq_nil_of_length_eq_zero hlen.symm)
    rw [hlen]
    rw [List.getLast?_eq_getLast_of_ne_nil hr] at i2 ⊢
    exact i2

theorem dividedFrom_get (w : Fin n → ℚ) (thr : ℚ) (m : List MergeRec) (l : List (Frame n)) : ∀ (t : Nat) (prev : Frame n), DividedFrom w thr m t prev l →
    ∀ (u : Nat) (f g : Frame n), l[u]? = some f → l[u + 1]? = some g → mergesAt m (t + u + 1) < 10 → Divided w thr f g := by
  induction l with
  | nil => intro t prev _ u f g hf; simp at hf
  | cons a l ih =>
    intro t prev h u f g hf hg hlt
    cases u with
    | zero =>
      simp only [List.getElem?_cons_zero, Option.some.injEq] at hf
      subst hf
      cases l with
      | nil => simp at hg
      | cons b l =>
        simp only [Nat.zero_add, List.getElem?_cons_succ, List.getElem?_cons_zero, Option.some.injEq] at hg
        subst hg
        exact h.2.1 hlt
    | succ u =>
      rw [List.getElem?_cons_succ] at hf hg
      refine ih (t + 1) a h.2 u f g hf hg ?_
      have : t + 1 + u + 1 = t + (u + 1) + 1 := by omega
      rw [this]
      exact hlt

/-- **C194**, where fewer than ten merges are recorded at a step: the objects of the step are divided into pieces none of which continues two objects of the
step before; pieces are one object in the end only if they continue the same one. Missing: steps with ten merges (`C194_limit_fails`), and that united pieces
do not continue two objects together (`C194_united_fails`). -/
theorem C194_pieces_partial (cc : Labeller) (wrap nn : Bool) (ny nx : Nat) (thr : ℚ) (cen : Frame n → Nat → ℚ × ℚ) (chunks : List (List (Frame n)))
    (hu : TimeUnique chunks.flatten) (hne : ∀ ch ∈ chunks, ch ≠ []) (t : Nat) (f g : Frame n) :
    let r := (trackGrid cc (gridCfg wrap nn ny nx thr cen) chunks).objects
    r.field[t]? = some f → r.field[t + 1]? = some g → mergesAt r.merges (t + 1) < 10 → Divided (fun _ => 1) thr f g := by
  intro r hf hg hm
  have ht := tableExact_calcProps (gridCfg wrap nn ny nx thr cen) chunks.flatten hu
  have hI : Inv (gridCfg wrap nn ny nx thr cen).w (firstNewId (chunks.flatten.flatMap (calcProps (gridCfg wrap nn ny nx thr cen)))) ([] ++ chunks.flatten) 0
      ⟨chunks.flatten.flatMap (calcProps (gridCfg wrap nn ny nx thr cen)), firstNewId (chunks.flatten.flatMap (calcProps (gridCfg wrap nn ny nx thr cen))), []⟩ := by
    refine ⟨⟨?_, ht.areas, fun k hk => lt_firstNewId hk, hu, fun k hk => (ht.ids k).mp hk⟩, le_refl _, by simp, by simp⟩
    intro f hf i
    by_cases h0 : f i = 0
    · rw [h0]; change 0 < firstNewId _; unfold firstNewId; omega
    · exact lt_firstNewId ((ht.ids _).mpr ⟨by omega, f, hf, i, rfl⟩)
  have h := (chunksLoop_divided _ (partitionOK_gridCfg wrap nn ny nx thr cen) (fun _ => one_pos) _ chunks [] [] 0 _ rfl ⟨[], rfl⟩ hne hI).2
  refine dividedFrom_get _ _ _ _ 0 _ h t f g hf hg ?_
  rw [Nat.zero_add]
  exact hm

/-- Cells 0–5 and 7 of a row merge. -/
def meetFrames : List (List (Frame 8)) := [[fun i => if i.val < 6 then 1 else if i.val = 7 then 2 else 0], [fun _ => 3]]

-- hypotheses met, with a merge at step 1 whose pieces are separate objects
example : TimeUnique meetFrames.flatten ∧ (∀ ch ∈ meetFrames, ch ≠ []) ∧
    (match (trackGrid quickFind (gridCfg false true 1 8 (1/2) (rowCen 8)) meetFrames).objects with
      | ⟨[f, g], _, _, m⟩ => decide (mergesAt m 1 = 1 ∧ 0 < f 0 ∧ 0 < g 0 ∧ g 0 ≠ g 7)
      | _ => false) = true := by
  refine ⟨?_, by decide, by decide +kernel⟩
  unfold TimeUnique
  decide

/-- Objects on cells 0–7 and 9, then one on cells 0–9. -/
def limitData : List (Fin (1 * 10) → Bool) := [cellsFrom 1 1, fun i => i.val != 8, fun _ => true]

/-- **C194 fails** at a step with ten merges: at each of the ten rounds one piece covers enough of both objects, and both become one event. -/
theorem C194_limit_fails :
    (match runGrid quickFind (rowRun 10 false (1/3)) [3] limitData with
      | .ok (pre, [_, f, _]) => decide (0 < f 0 ∧ f 0 = f 9 ∧ f 8 = 0 ∧
          mergesAt (trackGrid quickFind (rowRun 10 false (1/3)).track (chunksOf [3] (identifyObjectsGrid quickFind false true 10 pre))).objects.merges 2 = 10)
      | _ => false) = true := by
  decide +kernel

/-- A global row of cells, no filling, no area threshold. -/
def ringRun (m : Nat) (nn : Bool) (thr : ℚ) : GridRun 1 m :=
  { regional := false, mask := fun _ => true, R := 0, T := 0, criterion := .absolute 1, allowMerging := true
    track := gridCfg true nn 1 m thr (rowCen m) }

/-- Objects on cells 3–8 and 10–1 (across the seam), then on cells 1–4 and 7–10. -/
def unitedData : List (Fin (1 * 12) → Bool) :=
  [cellsFrom 1 1, fun i => cellsFrom 3 8 i || cellsFrom 10 11 i || cellsFrom 0 1 i, fun i => cellsFrom 1 4 i || cellsFrom 7 10 i]

/-- **C194 fails** even without any recorded merge: both objects of the last step continue the first object, neither the second; united as siblings
they continue the second one too, and both objects become one event. -/
theorem C194_united_fails :
    (match runGrid quickFind (ringRun 12 true (1/2)) [3] unitedData with
      | .ok (pre, [_, f, g]) => decide (0 < f 3 ∧ f 3 = f 0 ∧ f 2 = 0 ∧ f 9 = 0 ∧ g 1 = f 3 ∧
          (trackGrid quickFind (ringRun 12 true (1/2)).track (chunksOf [3] (identifyObjectsGrid quickFind false false 12 pre))).objects.merges = [])
      | _ => false) = true := by
  decide +kernel

end MarEx.Props
