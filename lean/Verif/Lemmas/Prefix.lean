import Verif.Lemmas.CutTrack
/-! Frames of a chunk do not change once the next frames are processed. -/
namespace MarEx

variable {n : Nat}

theorem chunkLoop_keeps (c : TrackCfg n) (B : List (Frame n)) : ∀ (t : Nat) (l2 l1 : Frame n) (done : List (Frame n)) (s : SMState),
    ∃ R, (chunkLoop c t l2 l1 done false B s).1 = done.reverse ++ R := by
  induction B with
  | nil =>
    intro t l2 l1 done s
    rw [chunkLoop]
    cases done with
    | nil => exact ⟨_, rfl⟩
    | cons d done =>
      refine ⟨[(consolidate c l2 l1 s.props).1], ?_⟩
      simp
  | cons b B ih =>
    intro t l2 l1 done s
    rw [chunkLoop]
    simp only [Bool.false_eq_true, if_false]
    obtain ⟨R, hR⟩ := ih (t + 1) (consolidate c l2 l1 s.props).1 (processStep c t (consolidate c l2 l1 s.props).1 b { s with props := (consolidate c l2 l1 s.props).2 }).1
      ((consolidate c l2 l1 s.props).1 :: done) (processStep c t (consolidate c l2 l1 s.props).1 b { s with props := (consolidate c l2 l1 s.props).2 }).2
    refine ⟨(consolidate c l2 l1 s.props).1 :: R, ?_⟩
    rw [hR]
    simp

theorem chunkLoop_prefix_aux (c : TrackCfg n) (A B : List (Frame n)) : ∀ (t : Nat) (l2 l1 : Frame n) (done : List (Frame n)) (s : SMState),
    (l2 = zeroFrame ∨ done ≠ []) →
    ∃ R, (chunkLoop c t l2 l1 done false (A ++ B) s).1 = (chunkLoop c t l2 l1 done false A s).1 ++ R := by
  induction A with
  | nil =>
    intro t l2 l1 done s h
    rw [List.nil_append]
    cases B with
    | nil => exact ⟨[], by rw [List.append_nil]⟩
    | cons b B =>
      rw [chunkLoop, chunkLoop]
      simp only [Bool.false_eq_true, if_false]
      obtain ⟨R, hR⟩ := chunkLoop_keeps c B (t + 1) (consolidate c l2 l1 s.props).1
        (processStep c t (consolidate c l2 l1 s.props).1 b { s with props := (consolidate c l2 l1 s.props).2 }).1
        ((consolidate c l2 l1 s.props).1 :: done) (processStep c t (consolidate c l2 l1 s.props).1 b { s with props := (consolidate c l2 l1 s.props).2 }).2
      refine ⟨R, ?_⟩
      rw [hR]
      cases done with
      | nil =>
        have e : l2 = zeroFrame := h.resolve_right (fun h => h rfl)
        subst e
        simp [consolidate_zero]
      | cons d done => simp
  | cons a A ih =>
    intro t l2 l1 done s h
    rw [List.cons_append, chunkLoop, chunkLoop]
    simp only [Bool.false_eq_true, if_false]
    exact ih _ _ _ _ _ (Or.inr (by simp))

/-- What a chunk's frames become does not depend on the frames after them. -/
theorem chunkLoop_prefix (c : TrackCfg n) (A B : List (Frame n)) (hA : A ≠ []) (t : Nat) (l2 : Frame n) (s : SMState) :
    ∃ R, (chunkLoop c t l2 zeroFrame [] true (A ++ B) s).1 = (chunkLoop c t l2 zeroFrame [] true A s).1 ++ R := by
  cases A with
  | nil => exact absurd rfl hA
  | cons a A =>
    rw [List.cons_append, chunkLoop, chunkLoop]
    simp only [if_true]
    exact chunkLoop_prefix_aux c A B _ _ _ _ _ (Or.inl rfl)

/-! ### Merge records -/

theorem processChild_fold_records (c : TrackCfg n) (t : Nat) (prev : Frame n) (l : List Nat) : ∀ st : Frame n × SMState × List Ov,
    ∃ M, (l.foldl (processChild c t prev) st).2.1.merges = st.2.1.merges ++ M ∧ ∀ r ∈ M, r.time = t := by
  induction l with
  | nil => intro st; exact ⟨[], by simp, fun r hr => by cases hr⟩
  | cons k l ih =>
    intro st
    obtain ⟨M, e, h⟩ := ih (processChild c t prev st k)
    rw [List.foldl_cons, e]
    unfold processChild
    dsimp only
    rw [List.append_assoc]
    refine ⟨_, rfl, fun r hr => ?_⟩
    rcases List.mem_append.mp hr with hr | hr
    · rw [List.mem_singleton] at hr
      rw [hr]
    · exact h r hr

theorem resolveMerges_records (c : TrackCfg n) (t : Nat) (prev : Frame n) (fuel : Nat) : ∀ (cur : Frame n) (s : SMState),
    ∃ M, (resolveMerges c t prev fuel (cur, s)).2.merges = s.merges ++ M ∧ ∀ r ∈ M, r.time = t := by
  induction fuel with
  | zero => intro cur s; exact ⟨[], by simp [resolveMerges], fun r hr => by cases hr⟩
  | succ fuel ih =>
    intro cur s
    unfold resolveMerges
    dsimp only
    split
    · exact ⟨[], by simp, fun r hr => by cases hr⟩
    · obtain ⟨M, e, h⟩ := processChild_fold_records c t prev (repeated ((enforceOverlap c.thr s.props (checkOverlapSlice c.w prev cur)).map (·.b)))
        (cur, s, enforceOverlap c.thr s.props (checkOverlapSlice c.w prev cur))
      obtain ⟨M', e', h'⟩ := ih _ _
      rw [e', e, List.append_assoc]
      exact ⟨_, rfl, fun r hr => (List.mem_append.mp hr).elim (h r) (h' r)⟩

/-- The merges recorded by a loop are those of its own steps. -/
theorem chunkLoop_records (c : TrackCfg n) (B : List (Frame n)) : ∀ (t : Nat) (l2 l1 : Frame n) (done : List (Frame n)) (first : Bool) (s : SMState),
    ∃ M, (chunkLoop c t l2 l1 done first B s).2.merges = s.merges ++ M ∧ ∀ r ∈ M, t ≤ r.time ∧ r.time < t + B.length := by
  induction B with
  | nil =>
    intro t l2 l1 done first s
    refine ⟨[], ?_, fun r hr => by cases hr⟩
    rw [List.append_nil, chunkLoop]
    split
    · rfl
    · split <;> rfl
  | cons b B ih =>
    intro t l2 l1 done first s
    rw [chunkLoop]
    have one : ∀ (p l2' : Frame n) (done' : List (Frame n)) (s' : SMState), s'.merges = s.merges →
        ∃ M, (chunkLoop c (t + 1) l2' (processStep c t p b s').1 done' false B (processStep c t p b s').2).2.merges = s.merges ++ M ∧
          ∀ r ∈ M, t ≤ r.time ∧ r.time < t + (b :: B).length := by
      intro p l2' done' s' hs
      obtain ⟨M, e, h⟩ := resolveMerges_records c t p 10 b s'
      obtain ⟨M', e', h'⟩ := ih (t + 1) l2' (processStep c t p b s').1 done' false (processStep c t p b s').2
      refine ⟨M ++ M', ?_, fun r hr => ?_⟩
      · rw [e', ← List.append_assoc, ← hs, ← e]
        rfl
      · rw [List.length_cons]
        rcases List.mem_append.mp hr with hr | hr
        · have := h r hr; omega
        · have := h' r hr; omega
    split
    · exact one _ _ _ _ rfl
    · exact one _ _ _ _ rfl

theorem chunkLoop_records_aux (c : TrackCfg n) (A B : List (Frame n)) : ∀ (t : Nat) (l2 l1 : Frame n) (done : List (Frame n)) (first : Bool) (s : SMState),
    ∃ M, (chunkLoop c t l2 l1 done first (A ++ B) s).2.merges = (chunkLoop c t l2 l1 done first A s).2.merges ++ M ∧ ∀ r ∈ M, t + A.length ≤ r.time := by
  induction A with
  | nil =>
    intro t l2 l1 done first s
    obtain ⟨M, e, h⟩ := chunkLoop_records c B t l2 l1 done first s
    refine ⟨M, ?_, fun r hr => (h r hr).1⟩
    rw [List.nil_append, e, chunkLoop]
    split
    · rfl
    · split <;> rfl
  | cons a A ih =>
    intro t l2 l1 done first s
    rw [List.cons_append, chunkLoop, chunkLoop, List.length_cons]
    split
    · obtain ⟨M, e, h⟩ := ih (t + 1) l1 (processStep c t l1 a s).1 [] false (processStep c t l1 a s).2
      exact ⟨M, e, fun r hr => by have := h r hr; omega⟩
    · obtain ⟨M, e, h⟩ := ih (t + 1) (consolidate c l2 l1 s.props).1
        (processStep c t (consolidate c l2 l1 s.props).1 a { s with props := (consolidate c l2 l1 s.props).2 }).1
        ((consolidate c l2 l1 s.props).1 :: done) false
        (processStep c t (consolidate c l2 l1 s.props).1 a { s with props := (consolidate c l2 l1 s.props).2 }).2
      exact ⟨M, e, fun r hr => by have := h r hr; omega⟩

end MarEx
