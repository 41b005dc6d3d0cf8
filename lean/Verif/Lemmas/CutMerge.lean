import Verif.Lemmas.Cut
/-! Splitting and merging after leaving objects out (`Cut`). -/
namespace MarEx

variable {n : Nat}

/-! ### New IDs -/

/-- `m` new IDs from `N` on become the IDs from `N'` on. -/
def extend (ρ : Nat → Nat) (N N' m : Nat) (k : Nat) : Nat := if N ≤ k ∧ k < N + m then N' + (k - N) else ρ k

theorem Cut.pos {ρ : Nat → Nat} {N N' : Nat} (h : Cut ρ N N') : 0 < N' := lt_of_le_of_lt (Nat.zero_le _) (h.below 0)

theorem Cut.extend {ρ : Nat → Nat} {N N' : Nat} (h : Cut ρ N N') (hN : 0 < N) (m : Nat) : Cut (extend ρ N N' m) (N + m) (N' + m) where
  zero := by
    unfold MarEx.extend
    rw [if_neg (by omega)]
    exact h.zero
  mono := by
    intro a b ha hb hab
    unfold MarEx.extend at ha hb ⊢
    by_cases h1 : N ≤ a ∧ a < N + m
    · by_cases h2 : N ≤ b ∧ b < N + m
      · rw [if_pos h1, if_pos h2]; omega
      · rw [if_neg h2] at hb
        exact absurd (h.fresh b (by omega)) hb
    · rw [if_neg h1] at ha ⊢
      by_cases h2 : N ≤ b ∧ b < N + m
      · rw [if_pos h2]
        have := h.below a
        omega
      · rw [if_neg h2] at hb ⊢
        exact h.mono a b ha hb hab
  fresh := by
    intro k hk
    unfold MarEx.extend
    rw [if_neg (by omega)]
    exact h.fresh k (by omega)
  below := by
    intro k
    unfold MarEx.extend
    split
    · omega
    · have := h.below k
      omega

theorem extend_old {ρ : Nat → Nat} {N N' m k : Nat} (h : k < N) : extend ρ N N' m k = ρ k := by
  unfold extend
  rw [if_neg (by omega)]

theorem extend_new {ρ : Nat → Nat} {N N' m j : Nat} (h : j < m) : extend ρ N N' m (N + j) = N' + j := by
  unfold extend
  rw [if_pos (by omega)]
  omega

theorem cutFrame_congr {ρ ρ₁ : Nat → Nat} {N : Nat} (h : ∀ k, k < N → ρ₁ k = ρ k) {f : Frame n} (hf : ∀ i, f i < N) : cutFrame ρ₁ f = cutFrame ρ f := by
  funext i
  exact h _ (hf i)

theorem side_congr {ρ ρ₁ : Nat → Nat} {N : Nat} (h : ∀ k, k < N → ρ₁ k = ρ k) {f : Frame n} (hf : ∀ i, f i < N) : side ρ₁ f = side ρ f := by
  funext i
  unfold side
  rw [h _ (hf i)]

theorem cutOvs_congr {ρ ρ₁ : Nat → Nat} {N : Nat} (h : ∀ k, k < N → ρ₁ k = ρ k) {l : List Ov} (hl : ∀ o ∈ l, o.a < N ∧ o.b < N) :
    cutOvs ρ₁ l = cutOvs ρ l := by
  unfold cutOvs
  refine List.filterMap_congr fun o ho => ?_
  unfold cutOv
  rw [h _ (hl o ho).1, h _ (hl o ho).2]

/-- The merge records of the remaining objects. -/
def cutRec (ρ : Nat → Nat) (r : MergeRec) : Option MergeRec :=
  if ρ (r.children.headD 0) = 0 then none else some { r with children := r.children.map ρ, parents := r.parents.map ρ }

def cutRecs (ρ : Nat → Nat) (l : List MergeRec) : List MergeRec := l.filterMap (cutRec ρ)

theorem cutRecs_congr {ρ ρ₁ : Nat → Nat} {N : Nat} (hN : 0 < N) (h : ∀ k, k < N → ρ₁ k = ρ k) {l : List MergeRec}
    (hl : ∀ r ∈ l, (∀ k ∈ r.children, k < N) ∧ ∀ k ∈ r.parents, k < N) : cutRecs ρ₁ l = cutRecs ρ l := by
  unfold cutRecs
  refine List.filterMap_congr fun r hr => ?_
  obtain ⟨h1, h2⟩ := hl r hr
  unfold cutRec
  have e0 : ρ₁ (r.children.headD 0) = ρ (r.children.headD 0) := by
    apply h
    cases hc : r.children with
    | nil => exact hN
    | cons a l => exact h1 a (by rw [hc]; simp)
  rw [e0, List.map_congr_left fun k hk => h k (h1 k hk), List.map_congr_left fun k hk => h k (h2 k hk)]

/-! ### Replacing IDs in the overlap table -/

theorem replaceLater_cons (child : Nat) (seen : Bool) (ids : List Nat) (o : Ov) (os : List Ov) :
    replaceLater child seen ids (o :: os) =
      if o.b = child then
        if seen then
          match ids with
          | [] => o :: replaceLater child true [] os
          | k :: ids => { o with b := k } :: replaceLater child true ids os
        else o :: replaceLater child true ids os
      else o :: replaceLater child seen ids os := by
  cases ids <;> rfl

theorem replaceLater_cut {ρ : Nat → Nat} {N N' : Nat} (hρ : Cut ρ N N') {child : Nat} (hk : ρ child ≠ 0) (ovs : List Ov) :
    ∀ (seen : Bool) (ids : List Nat), RowsApart ρ ovs → (∀ k ∈ ids, ρ k ≠ 0) →
      replaceLater (ρ child) seen (ids.map ρ) (cutOvs ρ ovs) = cutOvs ρ (replaceLater child seen ids ovs) := by
  induction ovs with
  | nil => intro seen ids _ _; cases ids <;> rfl
  | cons o os ih =>
    intro seen ids ha hids
    have ha' : RowsApart ρ os := fun p hp => ha p (by simp [hp])
    by_cases hout : ρ o.a = 0 ∨ ρ o.b = 0
    · have h0 : ρ o.a = 0 ∧ ρ o.b = 0 := by
        have := ha o (by simp)
        tauto
      have hne : o.b ≠ child := fun e => hk (e ▸ h0.2)
      have e1 : cutOvs ρ (o :: os) = cutOvs ρ os := List.filterMap_cons_none (by simp [cutOv, h0])
      have e2 : replaceLater child seen ids (o :: os) = o :: replaceLater child seen ids os := by
        rw [replaceLater_cons, if_neg hne]
      have e3 : cutOvs ρ (o :: replaceLater child seen ids os) = cutOvs ρ (replaceLater child seen ids os) :=
        List.filterMap_cons_none (by simp [cutOv, h0])
      rw [e1, e2, e3, ih seen ids ha' hids]
    · have hout' := hout
      push Not at hout'
      have hc : ∀ l, cutOvs ρ (o :: l) = ⟨ρ o.a, ρ o.b, o.v⟩ :: cutOvs ρ l := fun l =>
        List.filterMap_cons_some (by unfold cutOv; rw [if_neg hout])
      rw [hc]
      by_cases e : o.b = child
      · have e' : ρ o.b = ρ child := by rw [e]
        cases seen with
        | false =>
          rw [replaceLater_cons, if_pos e', if_neg (by simp), replaceLater_cons, if_pos e, if_neg (by simp), hc, ih true ids ha' hids]
        | true =>
          cases ids with
          | nil =>
            rw [List.map_nil, replaceLater_cons, if_pos e', if_pos rfl, replaceLater_cons, if_pos e, if_pos rfl]
            dsimp only
            rw [hc, ← ih true [] ha' hids]
            rfl
          | cons k ids =>
            rw [List.map_cons, replaceLater_cons, if_pos e', if_pos rfl, replaceLater_cons, if_pos e, if_pos rfl]
            dsimp only
            have hkk : ρ k ≠ 0 := hids k (by simp)
            have hck : cutOvs ρ (({ o with b := k } : Ov) :: replaceLater child true ids os) = ⟨ρ o.a, ρ k, o.v⟩ :: cutOvs ρ (replaceLater child true ids os) :=
              List.filterMap_cons_some (by unfold cutOv; rw [if_neg (by push Not; exact ⟨hout'.1, hkk⟩)])
            rw [hck, ih true ids ha' fun x hx => hids x (by simp [hx])]
      · have e' : ρ o.b ≠ ρ child := fun h => e (hρ.inj hk h)
        rw [replaceLater_cons, if_neg e', replaceLater_cons, if_neg e, hc, ih seen ids ha' hids]

theorem replaceLater_out {ρ : Nat → Nat} {child : Nat} (hk : ρ child = 0) (ovs : List Ov) :
    ∀ (seen : Bool) (ids : List Nat), (∀ k ∈ ids, ρ k = 0) → cutOvs ρ (replaceLater child seen ids ovs) = cutOvs ρ ovs := by
  induction ovs with
  | nil => intro seen ids _; cases ids <;> rfl
  | cons o os ih =>
    intro seen ids hids
    have same : ∀ l, cutOvs ρ l = cutOvs ρ os → cutOvs ρ (o :: l) = cutOvs ρ (o :: os) := by
      intro l e
      unfold cutOvs at e ⊢
      rw [List.filterMap_cons, List.filterMap_cons, e]
    rw [replaceLater_cons]
    split
    · rename_i e
      split
      · cases ids with
        | nil => exact same _ (ih true [] hids)
        | cons k ids =>
          dsimp only
          have h1 : cutOvs ρ (({ o with b := k } : Ov) :: replaceLater child true ids os) = cutOvs ρ (replaceLater child true ids os) :=
            List.filterMap_cons_none (by unfold cutOv; rw [if_pos (Or.inr (hids k (by simp)))])
          have h2 : cutOvs ρ (o :: os) = cutOvs ρ os := List.filterMap_cons_none (by unfold cutOv; rw [if_pos (Or.inr (by rw [e]; exact hk))])
          rw [h1, h2, ih true ids fun x hx => hids x (by simp [hx])]
      · exact same _ (ih true ids hids)
    · exact same _ (ih seen ids hids)

/-- Rows keep their first object; the second stays or becomes a new ID, if it was `child`. -/
theorem mem_replaceLater_cases {child : Nat} {ovs : List Ov} : ∀ {seen : Bool} {ids : List Nat} {o : Ov}, o ∈ replaceLater child seen ids ovs →
    o ∈ ovs ∨ ∃ p ∈ ovs, p.a = o.a ∧ p.b = child ∧ o.b ∈ ids := by
  induction ovs with
  | nil => intro seen ids o h; cases ids <;> simp [replaceLater] at h
  | cons q os ih =>
    intro seen ids o h
    have lift : ∀ {seen ids'}, (∀ x ∈ ids', x ∈ ids) → o ∈ replaceLater child seen ids' os → o ∈ q :: os ∨ ∃ p ∈ q :: os, p.a = o.a ∧ p.b = child ∧ o.b ∈ ids := by
      intro seen ids' hs h
      rcases ih h with h | ⟨p, hp, h1, h2, h3⟩
      · exact Or.inl (by simp [h])
      · exact Or.inr ⟨p, by simp [hp], h1, h2, hs _ h3⟩
    rw [replaceLater_cons] at h
    split at h
    · rename_i e
      split at h
      · cases ids with
        | nil =>
          rcases List.mem_cons.mp h with rfl | h
          · exact Or.inl (by simp)
          · exact lift (fun x hx => hx) h
        | cons k ids =>
          rcases List.mem_cons.mp h with rfl | h
          · exact Or.inr ⟨q, by simp, rfl, e, by simp⟩
          · exact lift (fun x hx => by simp [hx]) h
      · rcases List.mem_cons.mp h with rfl | h
        · exact Or.inl (by simp)
        · exact lift (fun x hx => hx) h
    · rcases List.mem_cons.mp h with rfl | h
      · exact Or.inl (by simp)
      · exact lift (fun x hx => hx) h

theorem mem_replaceLater_other {child : Nat} {ovs : List Ov} {o : Ov} (hne : o.b ≠ child) : ∀ {seen : Bool} {ids : List Nat}, o ∈ ovs →
    o ∈ replaceLater child seen ids ovs := by
  induction ovs with
  | nil => intro seen ids h; cases h
  | cons q os ih =>
    intro seen ids h
    rw [replaceLater_cons]
    rcases List.mem_cons.mp h with rfl | h
    · rw [if_neg hne]; simp
    · split
      · split
        · cases ids with
          | nil => exact List.mem_cons_of_mem _ (ih h)
          | cons k ids => exact List.mem_cons_of_mem _ (ih h)
        · exact List.mem_cons_of_mem _ (ih h)
      · exact List.mem_cons_of_mem _ (ih h)

/-! ### One merging child -/

/-- The state after leaving objects out. -/
def cutSt (ρ : Nat → Nat) (N' : Nat) (st : Frame n × SMState × List Ov) : Frame n × SMState × List Ov :=
  (cutFrame ρ st.1, ⟨cutProps ρ st.2.1.props, N', cutRecs ρ st.2.1.merges⟩, cutOvs ρ st.2.2)

/-- Number of new IDs made for a merging child. -/
def newCount (ovs : List Ov) (child : Nat) : Nat := ((ovs.filter fun o => o.b == child).map (·.a)).length - 1

theorem processChild_cut {ρ : Nat → Nat} {N N' : Nat} (hρ : Cut ρ N N') {c : TrackCfg n} (hc : Faithful c) (t : Nat) (prev : Frame n)
    (st : Frame n × SMState × List Ov) (M' : Nat) {child : Nat} (hk : ρ child ≠ 0) (ha : RowsApart ρ st.2.2)
    (hnew : ∀ j, j < newCount st.2.2 child → ρ (st.2.1.nextId + j) = M' + j) (hM : 0 < M') :
    processChild c t (cutFrame ρ prev) (cutSt ρ M' st) (ρ child) = cutSt ρ (M' + newCount st.2.2 child) (processChild c t prev st child) := by
  obtain ⟨cur, s, ovs⟩ := st
  dsimp only at ha hnew
  unfold processChild cutSt
  dsimp only
  have hgr : ∀ o ∈ ovs.filter (fun o => o.b == child), ρ o.a ≠ 0 ∧ ρ o.b ≠ 0 := by
    intro o ho
    rw [List.mem_filter, beq_iff_eq] at ho
    have h1 : ρ o.b ≠ 0 := by rw [ho.2]; exact hk
    exact ⟨fun e => h1 ((ha o ho.1).mp e), h1⟩
  rw [filter_b_cut hρ ovs hk, cutOvs_all hgr]
  unfold newCount at hnew ⊢
  generalize ovs.filter (fun o => o.b == child) = group at hgr hnew
  have e1 : (group.map fun o => (⟨ρ o.a, ρ o.b, o.v⟩ : Ov)).map (·.a) = (group.map (·.a)).map ρ := by simp [Function.comp_def]
  have e2 : (group.map fun o => (⟨ρ o.a, ρ o.b, o.v⟩ : Ov)).map (·.v) = group.map (·.v) := by simp [Function.comp_def]
  rw [e1, e2, List.length_map]
  have hpar : ∀ p ∈ group.map (·.a), ρ p ≠ 0 := by
    intro p hp
    obtain ⟨o, ho, rfl⟩ := List.mem_map.mp hp
    exact (hgr o ho).1
  generalize group.map (·.v) = areas
  generalize group.map (·.a) = parents at hpar hnew
  have e3 : List.range' M' (parents.length - 1) = (List.range' s.nextId (parents.length - 1)).map ρ := by
    apply List.ext_getElem
    · simp
    · intro j h1 h2
      rw [List.length_range'] at h1
      simp [hnew j h1]
  have hne : ∀ k ∈ List.range' s.nextId (parents.length - 1), ρ k ≠ 0 := by
    intro k hk
    rw [List.mem_range'_1] at hk
    have := hnew (k - s.nextId) (by omega)
    rw [Nat.add_sub_cancel' hk.1] at this
    omega
  rw [e3]
  generalize List.range' s.nextId (parents.length - 1) = newIds at hne
  have e4 : ρ child :: newIds.map ρ = (child :: newIds).map ρ := rfl
  rw [e4]
  have e5 : (fun i => if cutFrame ρ cur i = ρ child then
        c.part (cutFrame ρ prev) (cutFrame ρ cur) (ρ child) (parents.map ρ) ((child :: newIds).map ρ) (cutProps ρ s.props) i else cutFrame ρ cur i) =
      cutFrame ρ (fun i => if cur i = child then c.part prev cur child parents (child :: newIds) s.props i else cur i) := by
    funext i
    unfold cutFrame
    dsimp only
    by_cases e : cur i = child
    · rw [if_pos (by rw [e]), if_pos e]
      exact hc.part ρ N N' hρ prev cur _ child _ parents (child :: newIds) s.props i hpar
    · rw [if_neg fun h => e (hρ.inj hk h), if_neg e]
  rw [e5]
  generalize (fun i => if cur i = child then c.part prev cur child parents (child :: newIds) s.props i else cur i) = cur'
  rw [calcProps_cut hρ hc, hasId_cut hρ _ hk, objOf_cut hρ hc cur' hk]
  have e6 : (cutProps ρ (calcProps c cur')).filter (fun o => (newIds.map ρ).contains o.id) = cutProps ρ ((calcProps c cur').filter fun o => newIds.contains o.id) := by
    unfold cutProps
    rw [List.filter_filterMap, List.filterMap_filter]
    refine List.filterMap_congr fun o _ => ?_
    unfold cutObj
    by_cases h : ρ o.id = 0
    · simp [h]
    · rw [if_neg h, Option.filter_some]
      have : (newIds.map ρ).contains (ρ o.id) = newIds.contains o.id := by
        rw [Bool.eq_iff_iff, List.contains_iff_mem, List.contains_iff_mem, List.mem_map]
        exact ⟨fun ⟨x, hx, e⟩ => hρ.inj h e ▸ hx, fun hx => ⟨_, hx, rfl⟩⟩
      dsimp only
      rw [this]
  rw [e6, replaceLater_cut hρ hk ovs false newIds ha hne, cutProps_append]
  have e7 : cutRecs ρ (s.merges ++ [⟨t, child :: newIds, parents, areas⟩]) = cutRecs ρ s.merges ++ [⟨t, (child :: newIds).map ρ, parents.map ρ, areas⟩] := by
    unfold cutRecs
    rw [List.filterMap_append, List.filterMap_cons_some (b := ⟨t, (child :: newIds).map ρ, parents.map ρ, areas⟩)]
    · rfl
    · unfold cutRec
      rw [if_neg (by simpa using hk)]
  rw [e7]
  have e8 : (if hasId (calcProps c cur') child then setRow (cutProps ρ s.props) { objOf c cur' child with id := ρ child } else dropId (cutProps ρ s.props) (ρ child)) =
      cutProps ρ (if hasId (calcProps c cur') child then setRow s.props (objOf c cur' child) else dropId s.props child) := by
    split
    · rw [setRow_cut hρ s.props (objOf c cur' child) hk]
      rfl
    · rw [dropId_cut hρ s.props hk]
  rw [e8]

theorem processChild_out {ρ : Nat → Nat} {c : TrackCfg n} (hc : Faithful c) (t : Nat) (prev : Frame n)
    (st : Frame n × SMState × List Ov) (M' : Nat) {child : Nat} (hk : ρ child = 0) (hgr : ∃ o ∈ st.2.2, o.b = child)
    (hnew : ∀ k, st.2.1.nextId ≤ k → ρ k = 0) :
    cutSt ρ M' (processChild c t prev st child) = cutSt ρ M' st := by
  obtain ⟨cur, s, ovs⟩ := st
  dsimp only at hgr hnew
  have hlen : 0 < (((ovs.filter fun o => o.b == child)).map (·.a)).length := by
    obtain ⟨o, ho, e⟩ := hgr
    rw [List.length_map]
    exact List.length_pos_of_mem (List.mem_filter.mpr ⟨ho, by simpa using e⟩)
  unfold processChild cutSt
  dsimp only
  generalize (ovs.filter fun o => o.b == child).map (·.v) = areas
  generalize ((ovs.filter fun o => o.b == child)).map (·.a) = parents at hlen
  have hne : ∀ k ∈ List.range' s.nextId (parents.length - 1), ρ k = 0 := by
    intro k hk
    rw [List.mem_range'_1] at hk
    exact hnew k hk.1
  have hl : (child :: List.range' s.nextId (parents.length - 1)).length = parents.length := by simp; omega
  generalize List.range' s.nextId (parents.length - 1) = newIds at hne hl
  have e5 : cutFrame ρ (fun i => if cur i = child then c.part prev cur child parents (child :: newIds) s.props i else cur i) = cutFrame ρ cur := by
    funext i
    unfold cutFrame
    dsimp only
    by_cases e : cur i = child
    · rw [if_pos e]
      have := hc.ok prev cur child parents (child :: newIds) s.props i (by simp) hl e
      rw [e, hk]
      rcases List.mem_cons.mp this with h | h
      · rw [h]; exact hk
      · exact hne _ h
    · rw [if_neg e]
  rw [e5, cutProps_append, replaceLater_out hk ovs false newIds hne]
  generalize (fun i => if cur i = child then c.part prev cur child parents (child :: newIds) s.props i else cur i) = cur'
  have e6 : cutProps ρ ((calcProps c cur').filter fun o => newIds.contains o.id) = [] := by
    unfold cutProps
    rw [List.filterMap_eq_nil_iff]
    intro o ho
    rw [List.mem_filter, List.contains_iff_mem] at ho
    unfold cutObj
    rw [if_pos (hne _ ho.2)]
  have e7 : cutRecs ρ (s.merges ++ [⟨t, child :: newIds, parents, areas⟩]) = cutRecs ρ s.merges := by
    unfold cutRecs
    rw [List.filterMap_append, List.filterMap_cons_none (by unfold cutRec; rw [if_pos (by simpa using hk)])]
    simp
  have e8 : cutProps ρ (if hasId (calcProps c cur') child then setRow s.props (objOf c cur' child) else dropId s.props child) = cutProps ρ s.props := by
    split
    · exact setRow_out s.props _ (by exact hk)
    · exact dropId_out s.props hk
  rw [e6, e7, e8, List.append_nil]

/-- What stays true of the state, for the side map `x` of the frame before it was changed. -/
structure Sound (ρ : Nat → Nat) (x : Fin n → Option Bool) (st : Frame n × SMState × List Ov) : Prop where
  pos : 0 < st.2.1.nextId
  side : side ρ st.1 = x
  lt : ∀ i, st.1 i < st.2.1.nextId
  tlt : ∀ o ∈ st.2.1.props, o.id < st.2.1.nextId
  mlt : ∀ r ∈ st.2.1.merges, (∀ k ∈ r.children, k < st.2.1.nextId) ∧ ∀ k ∈ r.parents, k < st.2.1.nextId
  msd : ∀ r ∈ st.2.1.merges, ∀ k ∈ r.children ++ r.parents, ρ k = 0 ↔ ρ (r.children.headD 0) = 0
  rows : RowsApart ρ st.2.2
  rlt : ∀ o ∈ st.2.2, o.a < st.2.1.nextId ∧ o.b < st.2.1.nextId

theorem mem_calcProps_lt {c : TrackCfg n} {f : Frame n} {N : Nat} (h : ∀ i, f i < N) : ∀ o ∈ calcProps c f, o.id < N := by
  intro o ho
  unfold calcProps at ho
  obtain ⟨k, hk, rfl⟩ := List.mem_map.mp ho
  obtain ⟨_, i, rfl⟩ := mem_idsOf'.mp hk
  exact h i

theorem side_ext {ρ : Nat → Nat} {f g : Frame n} (h : ∀ i, (f i = 0 ↔ g i = 0) ∧ (ρ (f i) = 0 ↔ ρ (g i) = 0)) : side ρ f = side ρ g := by
  funext i
  unfold side
  simp [(h i).1, (h i).2]

theorem processChild_sound {ρ : Nat → Nat} {x : Fin n → Option Bool} {c : TrackCfg n} (hc : Faithful c) (t : Nat) (prev : Frame n)
    (st : Frame n × SMState × List Ov) {child : Nat} (h0 : child ≠ 0) (hgr : ∃ o ∈ st.2.2, o.b = child) (h : Sound ρ x st)
    (hnew : ∀ j, j < newCount st.2.2 child → (ρ (st.2.1.nextId + j) = 0 ↔ ρ child = 0)) :
    Sound ρ x (processChild c t prev st child) ∧ (processChild c t prev st child).2.1.nextId = st.2.1.nextId + newCount st.2.2 child := by
  obtain ⟨cur, s, ovs⟩ := st
  obtain ⟨hpos, hside, hlt, htlt, hmlt, hmsd, hrows, hrlt⟩ := h
  dsimp only at hpos hside hlt htlt hmlt hmsd hrows hrlt hgr hnew
  have hlen : 0 < (((ovs.filter fun o => o.b == child)).map (·.a)).length := by
    obtain ⟨o, ho, e⟩ := hgr
    rw [List.length_map]
    exact List.length_pos_of_mem (List.mem_filter.mpr ⟨ho, by simpa using e⟩)
  have hclt : child < s.nextId := by
    obtain ⟨o, ho, e⟩ := hgr
    exact e ▸ (hrlt o ho).2
  have hplt : ∀ k ∈ (ovs.filter fun o => o.b == child).map (·.a), k < s.nextId := by
    intro k hk
    obtain ⟨o, ho, rfl⟩ := List.mem_map.mp hk
    exact (hrlt o (List.mem_of_mem_filter ho)).1
  have hpsd : ∀ k ∈ (ovs.filter fun o => o.b == child).map (·.a), ρ k = 0 ↔ ρ child = 0 := by
    intro k hk
    obtain ⟨o, ho, rfl⟩ := List.mem_map.mp hk
    rw [List.mem_filter, beq_iff_eq] at ho
    rw [hrows o ho.1, ho.2]
  unfold newCount at hnew ⊢
  unfold processChild
  dsimp only
  generalize (ovs.filter fun o => o.b == child).map (·.v) = areas
  generalize ((ovs.filter fun o => o.b == child)).map (·.a) = parents at hlen hplt hpsd hnew
  have hne : ∀ k ∈ List.range' s.nextId (parents.length - 1), k ≠ 0 ∧ k < s.nextId + (parents.length - 1) ∧ (ρ k = 0 ↔ ρ child = 0) := by
    intro k hk
    rw [List.mem_range'_1] at hk
    have := hnew (k - s.nextId) (by omega)
    rw [Nat.add_sub_cancel' hk.1] at this
    exact ⟨by omega, by omega, this⟩
  have hl : (child :: List.range' s.nextId (parents.length - 1)).length = parents.length := by simp; omega
  generalize List.range' s.nextId (parents.length - 1) = newIds at hne hl
  have hlab : ∀ i, cur i = child → c.part prev cur child parents (child :: newIds) s.props i ∈ child :: newIds := fun i e =>
    hc.ok prev cur child parents (child :: newIds) s.props i (by simp) hl e
  generalize c.part prev cur child parents (child :: newIds) s.props = labels at hlab
  have hall : ∀ k ∈ child :: newIds, k ≠ 0 ∧ k < s.nextId + (parents.length - 1) ∧ (ρ k = 0 ↔ ρ child = 0) := by
    intro k hk
    rcases List.mem_cons.mp hk with rfl | h
    · exact ⟨h0, by omega, Iff.rfl⟩
    · exact hne k h
  have hcur : ∀ i, (if cur i = child then labels i else cur i) < s.nextId + (parents.length - 1) := by
    intro i
    split
    · rename_i e; exact (hall _ (hlab i e)).2.1
    · have := hlt i; omega
  refine ⟨⟨?_, ?_, hcur, ?_, ?_, ?_, ?_, ?_⟩, rfl⟩
  · dsimp only; omega
  · rw [← hside]
    refine side_ext fun i => ?_
    by_cases e : cur i = child
    · obtain ⟨h1, _, h3⟩ := hall _ (hlab i e)
      simp only [if_pos e]
      rw [e]
      exact ⟨iff_of_false h1 h0, h3⟩
    · simp only [if_neg e, and_self]
  · intro o ho
    dsimp only at ho ⊢
    rcases List.mem_append.mp ho with h | h
    · split at h
      · have := tlt_setRow htlt (r := objOf c _ child) hclt o h
        omega
      · have := htlt o (List.mem_of_mem_filter h)
        omega
    · exact mem_calcProps_lt hcur o (List.mem_of_mem_filter h)
  · intro r hr
    dsimp only at hr ⊢
    rcases List.mem_append.mp hr with h | h
    · obtain ⟨h1, h2⟩ := hmlt r h
      exact ⟨fun k hk => by have := h1 k hk; omega, fun k hk => by have := h2 k hk; omega⟩
    · rw [List.mem_singleton] at h
      subst h
      exact ⟨fun k hk => (hall k hk).2.1, fun k hk => by have := hplt k hk; omega⟩
  · intro r hr
    dsimp only at hr
    rcases List.mem_append.mp hr with h | h
    · exact hmsd r h
    · rw [List.mem_singleton] at h
      subst h
      intro k hk
      rw [List.headD_cons]
      rcases List.mem_append.mp hk with h | h
      · exact (hall k h).2.2
      · exact hpsd k h
  · intro o ho
    dsimp only at ho
    rcases mem_replaceLater_cases ho with h | ⟨p, hp, ea, eb, h⟩
    · exact hrows o h
    · rw [← ea, hrows p hp, eb]
      exact (hne _ h).2.2.symm
  · intro o ho
    dsimp only at ho ⊢
    rcases mem_replaceLater_cases ho with h | ⟨p, hp, ea, eb, h⟩
    · have := hrlt o h
      omega
    · have := hrlt p hp
      have := (hne _ h).2.1
      omega

/-! ### One step -/

/-- `st'` is `st` without the objects left out. -/
structure Sim (ρ : Nat → Nat) (x : Fin n → Option Bool) (st st' : Frame n × SMState × List Ov) : Prop where
  cut : Cut ρ st.2.1.nextId st'.2.1.nextId
  sound : Sound ρ x st
  eq : st' = cutSt ρ st'.2.1.nextId st

theorem Sound.congr {ρ ρ₁ : Nat → Nat} {x : Fin n → Option Bool} {st : Frame n × SMState × List Ov} (h : Sound ρ x st)
    (he : ∀ k, k < st.2.1.nextId → ρ₁ k = ρ k) : Sound ρ₁ x st where
  pos := h.pos
  side := by rw [← h.side]; exact side_congr he h.lt
  lt := h.lt
  tlt := h.tlt
  mlt := h.mlt
  msd := by
    intro r hr k hk
    have e0 : ρ₁ (r.children.headD 0) = ρ (r.children.headD 0) := by
      apply he
      cases hc : r.children with
      | nil => exact h.pos
      | cons a l => exact (h.mlt r hr).1 a (by rw [hc]; simp)
    rw [e0, he k (by rcases List.mem_append.mp hk with h' | h'; exacts [(h.mlt r hr).1 k h', (h.mlt r hr).2 k h'])]
    exact h.msd r hr k hk
  rows := fun o ho => by rw [he _ (h.rlt o ho).1, he _ (h.rlt o ho).2]; exact h.rows o ho
  rlt := h.rlt

theorem cutSt_congr {ρ ρ₁ : Nat → Nat} {x : Fin n → Option Bool} {st : Frame n × SMState × List Ov} (h : Sound ρ x st)
    (he : ∀ k, k < st.2.1.nextId → ρ₁ k = ρ k) (N' : Nat) : cutSt ρ₁ N' st = cutSt ρ N' st := by
  unfold cutSt
  rw [cutFrame_congr he h.lt, cutProps_congr fun o ho => he _ (h.tlt o ho), cutRecs_congr h.pos he h.mlt, cutOvs_congr he h.rlt]

theorem foldChildren_cut {c : TrackCfg n} (hc : Faithful c) (t : Nat) (prev : Frame n) (x : Fin n → Option Bool) (l : List Nat) :
    ∀ (ρ : Nat → Nat) (st st' : Frame n × SMState × List Ov), l.Nodup → (∀ k ∈ l, k ≠ 0 ∧ ∃ o ∈ st.2.2, o.b = k) →
      (∀ i, prev i < st.2.1.nextId) → Sim ρ x st st' →
      ∃ ρ₁, (∀ k, k < st.2.1.nextId → ρ₁ k = ρ k) ∧ st.2.1.nextId ≤ (l.foldl (processChild c t prev) st).2.1.nextId ∧
        Sim ρ₁ x (l.foldl (processChild c t prev) st) ((l.filterMap (cutId ρ)).foldl (processChild c t (cutFrame ρ prev)) st') := by
  induction l with
  | nil => intro ρ st st' _ _ _ h; exact ⟨ρ, fun _ _ => rfl, le_refl _, h⟩
  | cons k l ih =>
    intro ρ st st' hnd hl hprev h
    rw [List.nodup_cons] at hnd
    obtain ⟨hk0, hgr⟩ := hl k (by simp)
    have hkeep : ∀ j ∈ l, j ≠ 0 ∧ ∃ o ∈ (processChild c t prev st k).2.2, o.b = j := by
      intro j hj
      obtain ⟨h1, o, ho, e⟩ := hl j (by simp [hj])
      exact ⟨h1, o, mem_replaceLater_other (fun e' => hnd.1 (by rw [← e', e]; exact hj)) ho, e⟩
    have hlt : ∀ j ∈ k :: l, j < st.2.1.nextId := by
      intro j hj
      obtain ⟨_, o, ho, e⟩ := hl j hj
      exact e ▸ (h.sound.rlt o ho).2
    rw [List.foldl_cons]
    by_cases hk : ρ k = 0
    · rw [List.filterMap_cons_none (by simp [cutId, hk])]
      obtain ⟨hs, hN⟩ := processChild_sound hc t prev st hk0 hgr h.sound (fun j _ => iff_of_true (h.cut.fresh _ (by omega)) hk)
      have hsim : Sim ρ x (processChild c t prev st k) st' := by
        refine ⟨⟨h.cut.zero, h.cut.mono, fun j hj => h.cut.fresh j (by omega), h.cut.below⟩, hs, ?_⟩
        rw [processChild_out hc t prev st st'.2.1.nextId hk hgr h.cut.fresh]
        exact h.eq
      obtain ⟨ρ₁, h1, h2, h3⟩ := ih ρ _ st' hnd.2 hkeep (fun i => by have := hprev i; omega) hsim
      exact ⟨ρ₁, fun j hj => h1 j (by omega), by omega, h3⟩
    · rw [List.filterMap_cons_some (b := ρ k) (by simp [cutId, hk]), List.foldl_cons]
      obtain ⟨m, hm⟩ : ∃ m, m = newCount st.2.2 k := ⟨_, rfl⟩
      obtain ⟨ρ₁, hρ₁⟩ : ∃ ρ₁, ρ₁ = extend ρ st.2.1.nextId st'.2.1.nextId m := ⟨_, rfl⟩
      have hold : ∀ j, j < st.2.1.nextId → ρ₁ j = ρ j := fun j hj => by rw [hρ₁]; exact extend_old hj
      have hnew : ∀ j, j < m → ρ₁ (st.2.1.nextId + j) = st'.2.1.nextId + j := fun j hj => by rw [hρ₁]; exact extend_new hj
      have hcut : Cut ρ₁ (st.2.1.nextId + m) (st'.2.1.nextId + m) := by rw [hρ₁]; exact h.cut.extend h.sound.pos m
      have hk₁ : ρ₁ k ≠ 0 := by rw [hold k (hlt k (by simp))]; exact hk
      have hs₁ := h.sound.congr hold
      obtain ⟨hs, hN⟩ := processChild_sound hc t prev st hk0 hgr hs₁ (fun j hj => by
        rw [hnew j (by omega)]
        have := h.cut.pos
        exact iff_of_false (by omega) hk₁)
      have hst' : processChild c t (cutFrame ρ prev) st' (ρ k) = cutSt ρ₁ (st'.2.1.nextId + m) (processChild c t prev st k) := by
        rw [← cutFrame_congr hold hprev, ← hold k (hlt k (by simp))]
        conv_lhs => rw [h.eq, ← cutSt_congr h.sound hold]
        rw [hm] at hnew ⊢
        exact processChild_cut hcut hc t prev st st'.2.1.nextId hk₁ hs₁.rows hnew h.cut.pos
      have hsim : Sim ρ₁ x (processChild c t prev st k) (processChild c t (cutFrame ρ prev) st' (ρ k)) := by
        rw [hst']
        refine ⟨?_, hs, rfl⟩
        rw [hN, ← hm]
        exact hcut
      obtain ⟨ρ₂, h1, h2, h3⟩ := ih ρ₁ _ _ hnd.2 hkeep (fun i => by have := hprev i; omega) hsim
      rw [cutFrame_congr hold hprev, List.filterMap_congr (g := cutId ρ) fun j hj => by unfold cutId; rw [hold j (hlt j (by simp [hj]))]] at h3
      exact ⟨ρ₂, fun j hj => by rw [h1 j (by omega), hold j hj], by omega, h3⟩

theorem resolveMerges_done {c : TrackCfg n} {t : Nat} {prev cur : Frame n} {s : SMState}
    (h : repeated ((enforceOverlap c.thr s.props (checkOverlapSlice c.w prev cur)).map (·.b)) = []) (fuel : Nat) :
    resolveMerges c t prev fuel (cur, s) = (cur, s) := by
  cases fuel with
  | zero => rfl
  | succ fuel =>
    rw [resolveMerges]
    dsimp only
    rw [if_pos (by rw [h]; rfl)]

theorem resolveMerges_cut {c : TrackCfg n} (hc : Faithful c) (t : Nat) (prev : Frame n) (x : Fin n → Option Bool) (fuel : Nat) :
    ∀ (ρ : Nat → Nat) (cur cur' : Frame n) (s s' : SMState), (∀ i, prev i < s.nextId) → Apart (side ρ prev) x → Sim ρ x (cur, s, []) (cur', s', []) →
      ∃ ρ₁, (∀ k, k < s.nextId → ρ₁ k = ρ k) ∧ s.nextId ≤ (resolveMerges c t prev fuel (cur, s)).2.nextId ∧
        Sim ρ₁ x ((resolveMerges c t prev fuel (cur, s)).1, (resolveMerges c t prev fuel (cur, s)).2, [])
          ((resolveMerges c t (cutFrame ρ prev) fuel (cur', s')).1, (resolveMerges c t (cutFrame ρ prev) fuel (cur', s')).2, []) := by
  induction fuel with
  | zero => intro ρ cur cur' s s' _ _ h; exact ⟨ρ, fun _ _ => rfl, le_refl _, h⟩
  | succ fuel ih =>
    intro ρ cur cur' s s' hprev hap h
    have hcur : cur' = cutFrame ρ cur := congrArg Prod.fst h.eq
    have hs' : s' = ⟨cutProps ρ s.props, s'.nextId, cutRecs ρ s.merges⟩ := congrArg (fun st => st.2.1) h.eq
    have hp' : s'.props = cutProps ρ s.props := by rw [hs']
    have hcut : Cut ρ s.nextId s'.nextId := h.cut
    have hov : enforceOverlap c.thr s'.props (checkOverlapSlice c.w (cutFrame ρ prev) cur') =
        cutOvs ρ (enforceOverlap c.thr s.props (checkOverlapSlice c.w prev cur)) := by
      rw [hcur, hp', checkOverlapSlice_cut hcut, enforceOverlap_cut hcut]
    have hra : RowsApart ρ (enforceOverlap c.thr s.props (checkOverlapSlice c.w prev cur)) :=
      rowsApart_slice c.w (by rw [show side ρ cur = x from h.sound.side]; exact hap) c.thr s.props
    have hrow : ∀ o ∈ enforceOverlap c.thr s.props (checkOverlapSlice c.w prev cur), o.b ≠ 0 ∧ o.a < s.nextId ∧ o.b < s.nextId := by
      intro o ho
      obtain ⟨_, h2, ⟨i, hf, hg⟩, _⟩ := mem_checkOverlapSlice.mp (List.mem_of_mem_filter ho)
      exact ⟨by omega, hf ▸ hprev i, hg ▸ h.sound.lt i⟩
    by_cases hm : repeated ((enforceOverlap c.thr s.props (checkOverlapSlice c.w prev cur)).map (·.b)) = []
    · have hm' : repeated ((enforceOverlap c.thr s'.props (checkOverlapSlice c.w (cutFrame ρ prev) cur')).map (·.b)) = [] := by
        rw [hov, map_b_cut hra, repeated_cut hcut, hm]
        rfl
      rw [resolveMerges_done hm, resolveMerges_done hm']
      exact ⟨ρ, fun _ _ => rfl, le_refl _, h⟩
    · have hfull : resolveMerges c t prev (fuel + 1) (cur, s) = resolveMerges c t prev fuel
          ((((repeated ((enforceOverlap c.thr s.props (checkOverlapSlice c.w prev cur)).map (·.b))).foldl (processChild c t prev)
            (cur, s, enforceOverlap c.thr s.props (checkOverlapSlice c.w prev cur)))).1,
          (((repeated ((enforceOverlap c.thr s.props (checkOverlapSlice c.w prev cur)).map (·.b))).foldl (processChild c t prev)
            (cur, s, enforceOverlap c.thr s.props (checkOverlapSlice c.w prev cur)))).2.1) := by
        rw [resolveMerges]
        dsimp only
        rw [if_neg (by rw [List.isEmpty_iff]; exact hm)]
      have hcutrun : resolveMerges c t (cutFrame ρ prev) (fuel + 1) (cur', s') = resolveMerges c t (cutFrame ρ prev) fuel
          (((((repeated ((enforceOverlap c.thr s.props (checkOverlapSlice c.w prev cur)).map (·.b))).filterMap (cutId ρ)).foldl (processChild c t (cutFrame ρ prev))
            (cur', s', cutOvs ρ (enforceOverlap c.thr s.props (checkOverlapSlice c.w prev cur))))).1,
          ((((repeated ((enforceOverlap c.thr s.props (checkOverlapSlice c.w prev cur)).map (·.b))).filterMap (cutId ρ)).foldl (processChild c t (cutFrame ρ prev))
            (cur', s', cutOvs ρ (enforceOverlap c.thr s.props (checkOverlapSlice c.w prev cur))))).2.1) := by
        rw [← repeated_cut hcut, ← map_b_cut hra, ← hov]
        by_cases hm' : repeated ((enforceOverlap c.thr s'.props (checkOverlapSlice c.w (cutFrame ρ prev) cur')).map (·.b)) = []
        · rw [resolveMerges_done hm', hm', List.foldl_nil]
          exact (resolveMerges_done hm' fuel).symm
        · rw [resolveMerges]
          dsimp only
          rw [if_neg (by rw [List.isEmpty_iff]; exact hm')]
      have hsim : Sim ρ x (cur, s, enforceOverlap c.thr s.props (checkOverlapSlice c.w prev cur))
          (cur', s', cutOvs ρ (enforceOverlap c.thr s.props (checkOverlapSlice c.w prev cur))) := by
        refine ⟨h.cut, ⟨h.sound.pos, h.sound.side, h.sound.lt, h.sound.tlt, h.sound.mlt, h.sound.msd, hra, fun o ho => (hrow o ho).2⟩, ?_⟩
        unfold cutSt
        dsimp only
        rw [← hcur, ← hs']
      obtain ⟨ρ₁, h1, h2, h3⟩ := foldChildren_cut hc t prev x _ ρ _ _ (nodup_repeated _) (fun k hk => by
        obtain ⟨o, ho, rfl⟩ := List.mem_map.mp (List.count_pos_iff.mp (lt_trans Nat.zero_lt_one (mem_repeated.mp hk)))
        exact ⟨(hrow o ho).1, o, ho, rfl⟩) hprev hsim
      rw [hfull, hcutrun]
      generalize (repeated ((enforceOverlap c.thr s.props (checkOverlapSlice c.w prev cur)).map (·.b))).foldl (processChild c t prev)
            (cur, s, enforceOverlap c.thr s.props (checkOverlapSlice c.w prev cur)) = r at h2 h3
      generalize ((repeated ((enforceOverlap c.thr s.props (checkOverlapSlice c.w prev cur)).map (·.b))).filterMap (cutId ρ)).foldl
        (processChild c t (cutFrame ρ prev)) (cur', s', cutOvs ρ (enforceOverlap c.thr s.props (checkOverlapSlice c.w prev cur))) = r' at h3
      dsimp only at h1 h2
      have h3' : Sim ρ₁ x (r.1, r.2.1, []) (r'.1, r'.2.1, []) := by
        refine ⟨h3.cut, ⟨h3.sound.pos, h3.sound.side, h3.sound.lt, h3.sound.tlt, h3.sound.mlt, h3.sound.msd, fun o ho => (by cases ho), fun o ho => (by cases ho)⟩, ?_⟩
        have e1 : r'.1 = cutFrame ρ₁ r.1 := congrArg Prod.fst h3.eq
        have e2 : r'.2.1 = ⟨cutProps ρ₁ r.2.1.props, r'.2.1.nextId, cutRecs ρ₁ r.2.1.merges⟩ := congrArg (fun st => st.2.1) h3.eq
        unfold cutSt
        dsimp only
        rw [← e1, ← e2]
        rfl
      obtain ⟨ρ₂, k1, k2, k3⟩ := ih ρ₁ r.1 r'.1 r.2.1 r'.2.1 (fun i => by have := hprev i; omega) (by rw [side_congr h1 hprev]; exact hap) h3'
      rw [cutFrame_congr h1 hprev] at k3
      exact ⟨ρ₂, fun k hk => by rw [k1 k (by omega), h1 k hk], by omega, k3⟩

/-- `s'` is the table `s` without the objects left out. -/
structure Tab (ρ : Nat → Nat) (s s' : SMState) : Prop where
  cut : Cut ρ s.nextId s'.nextId
  pos : 0 < s.nextId
  props : s'.props = cutProps ρ s.props
  merges : s'.merges = cutRecs ρ s.merges
  tlt : ∀ o ∈ s.props, o.id < s.nextId
  mlt : ∀ r ∈ s.merges, (∀ k ∈ r.children, k < s.nextId) ∧ ∀ k ∈ r.parents, k < s.nextId
  msd : ∀ r ∈ s.merges, ∀ k ∈ r.children ++ r.parents, ρ k = 0 ↔ ρ (r.children.headD 0) = 0

theorem processStep_cut {c : TrackCfg n} (hc : Faithful c) (t : Nat) {ρ : Nat → Nat} {s s' : SMState} (h : Tab ρ s s') (prev cur : Frame n)
    (hprev : ∀ i, prev i < s.nextId) (hcur : ∀ i, cur i < s.nextId) (hap : Apart (side ρ prev) (side ρ cur)) :
    ∃ ρ₁, (∀ k, k < s.nextId → ρ₁ k = ρ k) ∧ s.nextId ≤ (processStep c t prev cur s).2.nextId ∧
      Tab ρ₁ (processStep c t prev cur s).2 (processStep c t (cutFrame ρ prev) (cutFrame ρ cur) s').2 ∧
      (processStep c t (cutFrame ρ prev) (cutFrame ρ cur) s').1 = cutFrame ρ₁ (processStep c t prev cur s).1 ∧
      side ρ₁ (processStep c t prev cur s).1 = side ρ cur ∧ ∀ i, (processStep c t prev cur s).1 i < (processStep c t prev cur s).2.nextId := by
  unfold processStep
  have hsim : Sim ρ (side ρ cur) (cur, s, []) (cutFrame ρ cur, s', []) := by
    refine ⟨h.cut, ⟨h.pos, rfl, hcur, h.tlt, h.mlt, h.msd, fun o ho => (by cases ho), fun o ho => (by cases ho)⟩, ?_⟩
    unfold cutSt
    dsimp only
    rw [← h.props, ← h.merges]
    rfl
  obtain ⟨ρ₁, h1, h2, h3⟩ := resolveMerges_cut hc t prev (side ρ cur) 10 ρ cur (cutFrame ρ cur) s s' hprev hap hsim
  refine ⟨ρ₁, h1, h2, ⟨h3.cut, h3.sound.pos, ?_, ?_, h3.sound.tlt, h3.sound.mlt, h3.sound.msd⟩, congrArg Prod.fst h3.eq, h3.sound.side, h3.sound.lt⟩
  · exact congrArg (fun st => st.2.1.props) h3.eq
  · exact congrArg (fun st => st.2.1.merges) h3.eq

end MarEx
