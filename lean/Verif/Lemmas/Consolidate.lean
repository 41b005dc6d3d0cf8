import Verif.Lemmas.Driver
import Verif.Spec.Tracking
/-! Exact effect of consolidation when every child has one linked parent. -/
namespace MarEx
variable {n : Nat}

theorem consolidateParent_exact (c : TrackCfg n) (ovs : List Ov) (st : Frame n × List Obj) (p first : Nat) (rest : List Nat)
    (hch : childrenOf ovs p = first :: rest) (hr : rest ≠ []) (hnd : (first :: rest).Nodup) (hp : hasId st.2 p = true)
    (hc : ∀ k ∈ first :: rest, hasId st.2 k = true) :
    (∀ i, (consolidateParent c ovs st p).1 i = if st.1 i ∈ rest then first else st.1 i) ∧
    (∀ k, hasId (consolidateParent c ovs st p).2 k = true ↔ hasId st.2 k = true ∧ k ∉ rest) := by
  rw [List.nodup_cons] at hnd
  obtain ⟨F, T⟩ := foldl_consolidateChild first rest st
  have T := T hnd.1
  have e : consolidateParent c ovs st p =
        (let st1 := rest.foldl (consolidateChild first) st
         if (List.finRange n).any (fun i => st1.1 i == first) then (st1.1, setRow st1.2 (objOf c st1.1 first)) else st1) := by
    unfold consolidateParent
    have hcd : List.map (fun x : Ov => x.b) (List.filter (fun o => o.a == p) ovs) = first :: rest := hch
    rw [if_pos hp, hcd]
    dsimp only
    rw [if_neg]
    simp [hr, hc first (by simp)]
  rw [e]
  dsimp only
  generalize rest.foldl (consolidateChild first) st = st1 at F T
  have F' : ∀ i, st1.1 i = if st.1 i ∈ rest then first else st.1 i := by
    intro i
    rw [F i]
    by_cases h : st.1 i ∈ rest
    · rw [if_pos ⟨h, fun e => hnd.1 (e ▸ h), hc _ (by simp [h])⟩, if_pos h]
    · rw [if_neg (fun e => h e.1), if_neg h]
  have T' : ∀ k, hasId st1.2 k = true ↔ hasId st.2 k = true ∧ k ∉ rest := by
    intro k
    rw [hasId_iff_area, T k]
    by_cases h : k ∈ rest
    · simp [h]
    · rw [if_neg h, ← hasId_iff_area]; simp [h]
  split
  · exact ⟨F', fun k => by rw [hasId_setRow]; exact T' k⟩
  · exact ⟨F', T'⟩

theorem foldl_consolidateParent_exact (c : TrackCfg n) (ovs : List Ov) (hnd : (ovs.map fun o => (o.a, o.b)).Nodup)
    (hsingle : ∀ p q k, k ∈ childrenOf ovs p → k ∈ childrenOf ovs q → p = q)
    (hsep : ∀ o ∈ ovs, ∀ o' ∈ ovs, o.a ≠ o'.b) (ps : List Nat) (hps : ps.Nodup)
    (hlen : ∀ p ∈ ps, 1 < (childrenOf ovs p).length) (st : Frame n × List Obj)
    (hid : ∀ p ∈ ps, hasId st.2 p = true ∧ ∀ k ∈ childrenOf ovs p, hasId st.2 k = true) :
    ∀ i, (∀ p ∈ ps, ∀ first rest, childrenOf ovs p = first :: rest → st.1 i ∈ first :: rest →
        (ps.foldl (consolidateParent c ovs) st).1 i = first) ∧
      ((∀ p ∈ ps, st.1 i ∉ childrenOf ovs p) → (ps.foldl (consolidateParent c ovs) st).1 i = st.1 i) := by
  induction ps generalizing st with
  | nil => intro i; simp
  | cons q ps ih =>
    intro i
    rw [List.nodup_cons] at hps
    rw [List.foldl_cons]
    have hq := hlen q (by simp)
    obtain ⟨first, rest, hch, hr⟩ : ∃ first rest, childrenOf ovs q = first :: rest ∧ rest ≠ [] := by
      cases h : childrenOf ovs q with
      | nil => rw [h] at hq; simp at hq
      | cons a l =>
        refine ⟨a, l, rfl, ?_⟩
        rintro rfl
        rw [h] at hq; simp at hq
    have hndc := nodup_childrenOf hnd q
    rw [hch] at hndc
    obtain ⟨E1, E2⟩ := consolidateParent_exact c ovs st q first rest hch hr hndc (hid q (by simp)).1
      (by rw [← hch]; exact (hid q (by simp)).2)
    -- children of other parents are untouched
    have hother : ∀ p ∈ ps, ∀ k ∈ childrenOf ovs p, k ∉ first :: rest := by
      intro p hp k hk hk2
      rw [← hch] at hk2
      exact hps.1 (hsingle p q k hk hk2 ▸ hp)
    have ih' := ih hps.2 (fun p hp => hlen p (by simp [hp])) (consolidateParent c ovs st q) (by
      intro p hp
      constructor
      · rw [E2]
        refine ⟨(hid p (by simp [hp])).1, ?_⟩
        intro hpr
        have h1 : p ∈ childrenOf ovs q := by rw [hch]; simp [hpr]
        obtain ⟨o', ho', _, hb⟩ := mem_childrenOf.mp h1
        obtain ⟨k, hk⟩ := List.exists_mem_of_length_pos (by have := hlen p (by simp [hp]); omega : 0 < (childrenOf ovs p).length)
        obtain ⟨o, ho, ha, _⟩ := mem_childrenOf.mp hk
        exact hsep o ho o' ho' (by rw [ha, hb])
      · intro k hk
        rw [E2]
        exact ⟨(hid p (by simp [hp])).2 k hk, fun h => hother p hp k hk (by simp [h])⟩) i
    obtain ⟨J1, J2⟩ := ih'
    by_cases hi : st.1 i ∈ first :: rest
    · have e1 : (consolidateParent c ovs st q).1 i = first := by
        rw [E1 i]
        rcases List.mem_cons.mp hi with h | h
        · rw [h]; simp
        · rw [if_pos h]
      have hfree : ∀ p ∈ ps, (consolidateParent c ovs st q).1 i ∉ childrenOf ovs p := by
        intro p hp h
        rw [e1] at h
        exact hother p hp first h (by simp)
      have e2 := J2 hfree
      constructor
      · intro p hp first' rest' hch' hi'
        have : p = q := hsingle p q (st.1 i) (by rw [hch']; exact hi') (by rw [hch]; exact hi)
        subst this
        rw [hch] at hch'
        rw [e2, e1]
        exact (List.cons.inj hch').1
      · intro h
        exact absurd (by rw [hch]; exact hi) (h q (by simp))
    · have e1 : (consolidateParent c ovs st q).1 i = st.1 i := by
        rw [E1 i, if_neg (fun h => hi (by simp [h]))]
      rw [e1] at J1 J2
      constructor
      · intro p hp first' rest' hch' hi'
        rcases List.mem_cons.mp hp with rfl | hp
        · rw [hch] at hch'; rw [← hch'] at hi'; exact absurd hi' hi
        · exact J1 p hp first' rest' hch' hi'
      · intro h
        exact J2 (fun p hp => h p (by simp [hp]))

/-- The rows of one parent are in increasing order of the child. -/
theorem sorted_childrenOf_slice (w : Fin n → ℚ) (f g : Frame n) (p : Nat) :
    (childrenOf (checkOverlapSlice w f g) p).Pairwise (· < ·) := by
  unfold childrenOf checkOverlapSlice
  dsimp only
  split
  · simp
  · generalize max (fieldMax f) (fieldMax g + 1) = M
    rw [List.filter_map, List.map_map, List.pairwise_map]
    apply List.Pairwise.imp_of_mem _ ((sorted_npUnique _).filter _)
    intro a b ha hb hab
    simp only [List.mem_filter, Function.comp_apply, beq_iff_eq] at ha hb
    simp only [Function.comp_apply]
    have h1 := Nat.div_add_mod a M
    have h2 := Nat.div_add_mod b M
    rw [ha.2] at h1
    rw [hb.2] at h2
    omega

theorem sorted_childrenOf (thr : ℚ) (props : List Obj) (w : Fin n → ℚ) (f g : Frame n) (p : Nat) :
    (childrenOf (enforceOverlap thr props (checkOverlapSlice w f g)) p).Pairwise (· < ·) := by
  refine (sorted_childrenOf_slice w f g p).sublist ?_
  unfold childrenOf enforceOverlap
  exact (List.filter_sublist.filter _).map _

theorem count_map_a (ovs : List Ov) (k : Nat) : (ovs.map (·.a)).count k = (childrenOf ovs k).length := by
  unfold childrenOf
  rw [List.count, List.countP_map, List.countP_eq_length_filter, List.length_map]; rfl

theorem sum_weightOf (w : Fin n → ℚ) (f : Frame n) (l : List Nat) (h : l.Nodup) :
    (l.map (weightOf w f)).sum = ((List.finRange n).map fun i => if f i ∈ l then w i else 0).sum := by
  induction l with
  | nil => simp
  | cons a l ih =>
    rw [List.nodup_cons] at h
    rw [List.map_cons, List.sum_cons, ih h.2, weightOf, ← List.sum_map_add]
    congr 1
    apply List.map_congr_left
    intro i _
    by_cases h1 : f i = a
    · rw [if_pos h1, if_neg (by rw [h1]; exact h.1), if_pos (by simp [h1])]; simp
    · rw [if_neg h1]; simp [h1]

/-! ### Chunking -/

theorem consolidate_zero (c : TrackCfg n) (f : Frame n) (p : List Obj) : consolidate c zeroFrame f p = (f, p) := by
  have : checkOverlapSlice c.w zeroFrame f = [] := by
    rw [List.eq_nil_iff_forall_not_mem]
    intro o ho
    obtain ⟨h, _, ⟨i, hi, _⟩, _⟩ := mem_checkOverlapSlice.mp ho
    simp only [zeroFrame] at hi; omega
  unfold consolidate
  rw [this]
  rfl

theorem chunkLoop_cons_true (c : TrackCfg n) (t : Nat) (l2 l1 cur : Frame n) (done rest : List (Frame n)) (s : SMState) :
    chunkLoop c t l2 l1 done true (cur :: rest) s
      = chunkLoop c (t + 1) l1 (processStep c t l1 cur s).1 [] false rest (processStep c t l1 cur s).2 := by
  rw [chunkLoop]; rfl

theorem chunkLoop_cons_false (c : TrackCfg n) (t : Nat) (l2 l1 cur : Frame n) (done rest : List (Frame n)) (s : SMState) :
    chunkLoop c t l2 l1 done false (cur :: rest) s
      = chunkLoop c (t + 1) (consolidate c l2 l1 s.props).1
        (processStep c t (consolidate c l2 l1 s.props).1 cur { s with props := (consolidate c l2 l1 s.props).2 }).1
        ((consolidate c l2 l1 s.props).1 :: done) false rest
        (processStep c t (consolidate c l2 l1 s.props).1 cur { s with props := (consolidate c l2 l1 s.props).2 }).2 := by
  rw [chunkLoop]; rfl

theorem chunkLoop_done (c : TrackCfg n) (rest : List (Frame n)) : ∀ (t : Nat) (l2 l1 : Frame n) (d1 d2 : List (Frame n)) (s : SMState),
    (rest ≠ [] ∨ d1 ≠ []) →
    chunkLoop c t l2 l1 (d1 ++ d2) false rest s
      = (d2.reverse ++ (chunkLoop c t l2 l1 d1 false rest s).1, (chunkLoop c t l2 l1 d1 false rest s).2) := by
  induction rest with
  | nil =>
    intro t l2 l1 d1 d2 s h
    have hd : d1 ≠ [] := by simpa using h
    simp [chunkLoop, hd]
  | cons cur rest ih =>
    intro t l2 l1 d1 d2 s _
    rw [chunkLoop, chunkLoop]
    simp only [Bool.false_eq_true, if_false]
    have := ih (t + 1) (consolidate c l2 l1 s.props).1
      (processStep c t (consolidate c l2 l1 s.props).1 cur { s with props := (consolidate c l2 l1 s.props).2 }).1
      ((consolidate c l2 l1 s.props).1 :: d1) d2
      (processStep c t (consolidate c l2 l1 s.props).1 cur { s with props := (consolidate c l2 l1 s.props).2 }).2 (by simp)
    rw [List.cons_append] at this
    exact this

/-- Cutting a chunk in two. -/
theorem chunkLoop_split (c : TrackCfg n) (ch rest : List (Frame n)) (hrest : 2 ≤ rest.length) :
    ∀ (t : Nat) (l2 l1 x : Frame n) (done : List (Frame n)) (s : SMState), (done ≠ [] ∨ ch ≠ [] ∨ l2 = zeroFrame) →
    let r := chunkLoop c t l2 l1 done false ch s
    let r2 := chunkLoop c (t + ch.length) x (r.1.getLast?.getD zeroFrame) [] true rest r.2
    chunkLoop c t l2 l1 done false (ch ++ rest) s = (r.1 ++ r2.1, r2.2) := by
  induction ch with
  | nil =>
    intro t l2 l1 x done s h
    obtain ⟨cur, rest', hr, hr'⟩ : ∃ cur rest', rest = cur :: rest' ∧ rest' ≠ [] := by
      match rest, hrest with
      | a :: b :: l, _ => exact ⟨a, b :: l, rfl, by simp⟩
    subst hr
    have hd := chunkLoop_done c rest' (t + 1) (consolidate c l2 l1 s.props).1
        (processStep c t (consolidate c l2 l1 s.props).1 cur { s with props := (consolidate c l2 l1 s.props).2 }).1
        [] ((consolidate c l2 l1 s.props).1 :: done)
        (processStep c t (consolidate c l2 l1 s.props).1 cur { s with props := (consolidate c l2 l1 s.props).2 }).2 (Or.inl hr')
    rw [List.nil_append] at hd
    have hr : chunkLoop c t l2 l1 done false [] s
        = (((consolidate c l2 l1 s.props).1 :: done).reverse, { s with props := (consolidate c l2 l1 s.props).2 }) := by
      rw [chunkLoop]
      by_cases hdn : done = []
      · have : l2 = zeroFrame := by simpa [hdn] using h
        subst this
        rw [consolidate_zero]
        simp [hdn]
      · simp [hdn]
    have hl : ((consolidate c l2 l1 s.props).1 :: done).reverse.getLast?.getD zeroFrame = (consolidate c l2 l1 s.props).1 := by simp
    dsimp only
    rw [hr]
    dsimp only
    rw [hl, List.nil_append, List.length_nil, Nat.add_zero, chunkLoop_cons_false, chunkLoop_cons_true, hd]
  | cons cur ch ih =>
    intro t l2 l1 x done s _
    rw [List.cons_append, chunkLoop, chunkLoop]
    simp only [Bool.false_eq_true, if_false]
    have hi := ih (t + 1) (consolidate c l2 l1 s.props).1
      (processStep c t (consolidate c l2 l1 s.props).1 cur { s with props := (consolidate c l2 l1 s.props).2 }).1 x
      ((consolidate c l2 l1 s.props).1 :: done)
      (processStep c t (consolidate c l2 l1 s.props).1 cur { s with props := (consolidate c l2 l1 s.props).2 }).2 (Or.inl (by simp))
    dsimp only at hi
    rw [hi]
    have : t + (cur :: ch).length = t + 1 + ch.length := by simp; omega
    rw [this]

theorem chunkLoop_first_split (c : TrackCfg n) (ch rest : List (Frame n)) (hrest : 2 ≤ rest.length) (hch : ch ≠ [])
    (t : Nat) (y l1 x : Frame n) (s : SMState) (h : 2 ≤ ch.length ∨ l1 = zeroFrame) :
    let r := chunkLoop c t y l1 [] true ch s
    let r2 := chunkLoop c (t + ch.length) x (r.1.getLast?.getD zeroFrame) [] true rest r.2
    chunkLoop c t y l1 [] true (ch ++ rest) s = (r.1 ++ r2.1, r2.2) := by
  cases ch with
  | nil => exact absurd rfl hch
  | cons cur ch =>
    rw [List.cons_append, chunkLoop, chunkLoop]
    simp only [if_true]
    have hi := chunkLoop_split c ch rest hrest (t + 1) l1 (processStep c t l1 cur s).1 x [] (processStep c t l1 cur s).2 (by
      rcases h with h | h
      · right; left; rintro rfl; simp at h
      · exact Or.inr (Or.inr h))
    dsimp only at hi
    rw [hi]
    have : t + (cur :: ch).length = t + 1 + ch.length := by simp; omega
    rw [this]

/-- All chunks have at least two frames (or the one before is the zero frame at the start): the chunked run equals the run in
one chunk. -/
theorem chunksLoop_eq_aux (c : TrackCfg n) (chs : List (List (Frame n))) :
    ∀ (t : Nat) (prev : List (Frame n)) (s : SMState), (∀ x ∈ chs, 2 ≤ x.length) →
      ∀ ch : List (Frame n), ch ≠ [] → (2 ≤ ch.length ∨ prev.getLast?.getD zeroFrame = zeroFrame) →
      chunksLoop c t prev (ch :: chs) s
        = chunkLoop c t zeroFrame (prev.getLast?.getD zeroFrame) [] true (ch :: chs).flatten s := by
  induction chs with
  | nil =>
    intro t prev s _ ch hch h
    rw [chunksLoop]
    simp only [chunksLoop, List.append_nil, List.flatten_cons, List.flatten_nil]
    cases ch with
    | nil => exact absurd rfl hch
    | cons cur ch => rw [chunkLoop_cons_true, chunkLoop_cons_true]
  | cons ch2 chs ih =>
    intro t prev s hlen ch hch h
    have hfl : 2 ≤ (ch2 :: chs).flatten.length := by
      rw [List.flatten_cons, List.length_append]; have := hlen ch2 (by simp); omega
    have h2 := hlen ch2 (by simp)
    rw [List.flatten_cons]
    have hs := chunkLoop_first_split c ch (ch2 :: chs).flatten hfl hch t zeroFrame (prev.getLast?.getD zeroFrame) zeroFrame s h
    dsimp only at hs
    rw [hs, chunksLoop]
    have hy : chunkLoop c t (prev.dropLast.getLast?.getD zeroFrame) (prev.getLast?.getD zeroFrame) [] true ch s
        = chunkLoop c t zeroFrame (prev.getLast?.getD zeroFrame) [] true ch s := by
      cases ch with
      | nil => exact absurd rfl hch
      | cons cur ch => rw [chunkLoop_cons_true, chunkLoop_cons_true]
    rw [hy]
    rw [ih _ _ _ (fun x hx => hlen x (by simp [hx])) ch2 (by rintro rfl; simp at h2) (Or.inl h2)]

end MarEx
