import Verif.Model.SplitMerge
import Verif.Lemmas.Overlap
import Mathlib.Tactic.Linarith
/-! Lemmas about object tables, relabelling, consolidation and partitioning. -/
namespace MarEx
variable {n : Nat}

theorem areaOf_dropId (p : List Obj) (c k : Nat) : areaOf (dropId p c) k = if k = c then none else areaOf p k := by
  unfold areaOf dropId
  induction p with
  | nil => simp
  | cons o p ih =>
    by_cases h : o.id = c
    · rw [List.filter_cons_of_neg (by simp [h])]
      rw [ih]
      by_cases hk : k = c
      · simp [hk]
      · rw [if_neg hk, if_neg hk, List.find?_cons_of_neg (by simp [h]; omega)]
    · rw [List.filter_cons_of_pos (by simp [h])]
      by_cases hk : o.id = k
      · rw [List.find?_cons_of_pos (by simp [hk]), List.find?_cons_of_pos (by simp [hk]), if_neg (by omega)]
      · rw [List.find?_cons_of_neg (by simp [hk]), ih, List.find?_cons_of_neg (by simp [hk])]

theorem hasId_iff_area {p : List Obj} {k : Nat} : hasId p k = true ↔ ∃ x, areaOf p k = some x := by
  rw [← areaOf_isSome, Option.isSome_iff_exists]

theorem hasId_dropId (p : List Obj) (c k : Nat) : hasId (dropId p c) k = true ↔ k ≠ c ∧ hasId p k = true := by
  rw [hasId_iff_area, hasId_iff_area, areaOf_dropId]
  by_cases h : k = c <;> simp [h]

theorem areaOf_setRow (p : List Obj) (r : Obj) (k : Nat) :
    areaOf (setRow p r) k = if k = r.id then (if hasId p k then some r.area else none) else areaOf p k := by
  unfold areaOf setRow hasId
  induction p with
  | nil => simp
  | cons o p ih =>
    simp only [List.map_cons, List.any_cons]
    by_cases h : o.id = r.id
    · rw [if_pos h]
      by_cases hk : k = r.id
      · rw [List.find?_cons_of_pos (by simp [hk]), if_pos hk]; simp [h, hk]
      · rw [List.find?_cons_of_neg (by simp; omega), if_neg hk, ih, if_neg hk,
          List.find?_cons_of_neg (by simp; omega)]
    · rw [if_neg h]
      by_cases hk : o.id = k
      · rw [List.find?_cons_of_pos (by simp [hk]), if_neg (by omega), List.find?_cons_of_pos (by simp [hk])]
      · rw [List.find?_cons_of_neg (by simp [hk]), ih, List.find?_cons_of_neg (by simp [hk])]
        simp [hk]

theorem areaOf_setRow_objOf (c : TrackCfg n) (f : Frame n) (p : List Obj) (a k : Nat) :
    areaOf (setRow p (objOf c f a)) k
      = if k = a then (if hasId p k then some (weightOf c.w f a) else none) else areaOf p k :=
  areaOf_setRow p (objOf c f a) k

theorem hasId_setRow (p : List Obj) (r : Obj) (k : Nat) : hasId (setRow p r) k = true ↔ hasId p k = true := by
  rw [hasId_iff_area, areaOf_setRow]
  by_cases h : k = r.id
  · rw [if_pos h]
    by_cases h2 : hasId p k = true <;> simp [h2]
  · rw [if_neg h, ← hasId_iff_area]

theorem areaOf_append (p q : List Obj) (k : Nat) : areaOf (p ++ q) k = (areaOf p k).or (areaOf q k) := by
  unfold areaOf
  rw [List.find?_append]
  cases h : List.find? (fun o => o.id == k) p <;> simp

theorem mem_idsOf' {f : Frame n} {k : Nat} : k ∈ idsOf f ↔ 0 < k ∧ ∃ i, f i = k := by
  unfold idsOf
  simp only [mem_npUnique, List.mem_filter, List.mem_map, List.mem_finRange, true_and, decide_eq_true_eq]
  constructor
  · rintro ⟨⟨i, rfl⟩, h⟩; exact ⟨h, i, rfl⟩
  · rintro ⟨h, i, rfl⟩; exact ⟨⟨i, rfl⟩, h⟩

theorem areaOf_map_objOf (c : TrackCfg n) (f : Frame n) (l : List Nat) (k : Nat) :
    areaOf (l.map (objOf c f)) k = if k ∈ l then some (weightOf c.w f k) else none := by
  unfold areaOf
  induction l with
  | nil => simp
  | cons a l ih =>
    rw [List.map_cons]
    by_cases h : a = k
    · rw [List.find?_cons_of_pos (by simp [objOf, h])]; simp [objOf, h]
    · rw [List.find?_cons_of_neg (by simp [objOf, h]), ih]
      simp [Ne.symm h]

theorem filter_calcProps (c : TrackCfg n) (f : Frame n) (q : Nat → Bool) :
    (calcProps c f).filter (fun o => q o.id) = ((idsOf f).filter q).map (objOf c f) := by
  unfold calcProps
  rw [List.filter_map]
  rfl

theorem hasId_calcProps (c : TrackCfg n) (f : Frame n) (k : Nat) :
    hasId (calcProps c f) k = true ↔ 0 < k ∧ ∃ i, f i = k := by
  rw [hasId_iff_area, calcProps, areaOf_map_objOf, ← mem_idsOf']
  by_cases h : k ∈ idsOf f <;> simp [h]

theorem weightOf_congr {w : Fin n → ℚ} {f g : Frame n} {k : Nat} (h : ∀ i, f i = k ↔ g i = k) :
    weightOf w f k = weightOf w g k := by
  unfold weightOf
  congr 1
  apply List.map_congr_left
  intro i _
  by_cases hi : f i = k
  · rw [if_pos hi, if_pos ((h i).mp hi)]
  · rw [if_neg hi, if_neg (fun e => hi ((h i).mpr e))]

/-- The table describes the frame: every labelled object has a row with its total weight, all IDs are below `N`. -/
structure Good (w : Fin n → ℚ) (f : Frame n) (p : List Obj) (N : Nat) : Prop where
  lt : ∀ i, f i < N
  area : ∀ i, 0 < f i → areaOf p (f i) = some (weightOf w f (f i))
  tlt : ∀ k, hasId p k = true → k < N

/-- A step that relabels one frame and updates the table. -/
structure Upd (w : Fin n → ℚ) (f : Frame n) (p : List Obj) (N : Nat) (f' : Frame n) (p' : List Obj) (N' : Nat) : Prop where
  good : Good w f' p' N'
  supp : ∀ i, 0 < f' i ↔ 0 < f i
  ids : ∀ i, 0 < f' i → (∃ j, f j = f' i) ∨ N ≤ f' i
  le : N ≤ N'
  others : ∀ k, 0 < k → (∀ i, f i ≠ k) → k < N → areaOf p' k = areaOf p k
  noextra : ∀ k, hasId p' k = true → (0 < k ∧ ∃ i, f' i = k) ∨ (hasId p k = true ∧ ∀ i, f i ≠ k ∨ k = 0)

theorem Upd.refl {w : Fin n → ℚ} {f : Frame n} {p : List Obj} {N : Nat} (h : Good w f p N) : Upd w f p N f p N where
  good := h
  supp := fun _ => Iff.rfl
  ids := fun i _ => Or.inl ⟨i, rfl⟩
  le := le_refl _
  others := fun _ _ _ _ => rfl
  noextra := fun k hk => by
    by_cases h0 : 0 < k ∧ ∃ i, f i = k
    · exact Or.inl h0
    · refine Or.inr ⟨hk, fun i => ?_⟩
      by_cases hi : f i = k
      · right; by_contra hne; exact h0 ⟨by omega, i, hi⟩
      · exact Or.inl hi

theorem Upd.trans {w : Fin n → ℚ} {f f' f'' : Frame n} {p p' p'' : List Obj} {N N' N'' : Nat}
    (a : Upd w f p N f' p' N') (b : Upd w f' p' N' f'' p'' N'') : Upd w f p N f'' p'' N'' where
  good := b.good
  supp := fun i => (b.supp i).trans (a.supp i)
  ids := fun i hi => by
    rcases b.ids i hi with ⟨j, hj⟩ | h
    · rw [← hj]; rw [← hj] at hi; exact a.ids j hi
    · right; exact le_trans a.le h
  le := le_trans a.le b.le
  others := fun k h0 hk hN => by
    have hk' : ∀ i, f' i ≠ k := by
      intro i hi
      rcases a.ids i (by omega) with ⟨j, hj⟩ | h
      · exact hk j (by omega)
      · omega
    rw [b.others k h0 hk' (lt_of_lt_of_le hN a.le), a.others k h0 hk hN]
  noextra := fun k hk => by
    rcases b.noextra k hk with h | ⟨h1, h2⟩
    · exact Or.inl h
    · rcases a.noextra k h1 with ⟨h0, i, hi⟩ | h
      · rcases h2 i with h | h
        · exact absurd hi h
        · omega
      · exact Or.inr h

/-! ### Consolidation -/

theorem relabel_eq_iff {f : Frame n} {old new k : Nat} (h1 : k ≠ new) (h2 : k ≠ old) (i : Fin n) :
    relabel f old new i = k ↔ f i = k := by
  unfold relabel
  by_cases h : f i = old
  · rw [if_pos h]; constructor <;> intro e <;> omega
  · rw [if_neg h]

/-- Effect of the inner consolidation loop. `cs` : children to be renamed to `first`. -/
theorem foldl_consolidateChild (first : Nat) (cs : List Nat) (st : Frame n × List Obj) :
    (∀ i, (cs.foldl (consolidateChild first) st).1 i
      = if st.1 i ∈ cs ∧ st.1 i ≠ first ∧ hasId st.2 (st.1 i) = true then first else st.1 i) ∧
    (first ∉ cs → ∀ k, areaOf (cs.foldl (consolidateChild first) st).2 k = if k ∈ cs then none else areaOf st.2 k) := by
  induction cs generalizing st with
  | nil => simp
  | cons c cs ih =>
    obtain ⟨ih1, ih2⟩ := ih (consolidateChild first st c)
    rw [List.foldl_cons]
    by_cases hc : hasId st.2 c = true
    · have e : consolidateChild first st c = (relabel st.1 c first, dropId st.2 c) := by
        unfold consolidateChild; rw [if_pos hc]
      rw [e] at ih1 ih2 ⊢
      constructor
      · intro i
        rw [ih1]
        by_cases h1 : st.1 i = c
        · have hr : relabel st.1 c first i = first := by simp [relabel, h1]
          by_cases h2 : c = first
          · subst h2; simp [hr, h1]
          · simp [hr, h1, h2, hc]
        · have hr : relabel st.1 c first i = st.1 i := by simp [relabel, h1]
          simp only [hr, hasId_dropId, List.mem_cons, h1, false_or, ne_eq, not_false_eq_true, true_and]
      · intro hf k
        rw [List.mem_cons, not_or] at hf
        rw [ih2 hf.2]
        dsimp only
        rw [areaOf_dropId]
        by_cases h1 : k ∈ cs <;> by_cases h2 : k = c <;> simp [h1, h2]
    · have e : consolidateChild first st c = st := by
        unfold consolidateChild; rw [if_neg hc]
      rw [e] at ih1 ih2 ⊢
      constructor
      · intro i
        rw [ih1]
        by_cases h1 : st.1 i = c
        · simp [h1, hc]
        · simp [h1]
      · intro hf k
        rw [List.mem_cons, not_or] at hf
        rw [ih2 hf.2]
        have hn : areaOf st.2 c = none := by
          rw [hasId_iff_area] at hc
          cases h : areaOf st.2 c with
          | none => rfl
          | some x => exact absurd ⟨x, h⟩ hc
        by_cases h1 : k ∈ cs <;> by_cases h2 : k = c <;> simp [h1, h2, hn]

/-- Children of a parent in an overlap table. -/
def childrenOf (ovs : List Ov) (p : Nat) : List Nat := (ovs.filter fun o => o.a == p).map (·.b)

theorem mem_childrenOf {ovs : List Ov} {p k : Nat} : k ∈ childrenOf ovs p ↔ ∃ o ∈ ovs, o.a = p ∧ o.b = k := by
  unfold childrenOf
  simp only [List.mem_map, List.mem_filter, beq_iff_eq]
  constructor
  · rintro ⟨o, ⟨h1, h2⟩, h3⟩; exact ⟨o, h1, h2, h3⟩
  · rintro ⟨o, h1, h2, h3⟩; exact ⟨o, ⟨h1, h2⟩, h3⟩

theorem nodup_childrenOf {ovs : List Ov} (h : (ovs.map fun o => (o.a, o.b)).Nodup) (p : Nat) :
    (childrenOf ovs p).Nodup := by
  unfold childrenOf
  have h2 : ((ovs.filter fun o => o.a == p).map fun o => (o.a, o.b)).Nodup :=
    h.sublist (List.filter_sublist.map _)
  apply List.Nodup.map_on _ (List.Nodup.of_map _ h2)
  intro x hx y hy hxy
  have := List.inj_on_of_nodup_map h2 hx hy
  simp only [List.mem_filter, beq_iff_eq] at hx hy
  exact this (by rw [hx.2, hy.2, hxy])

/-- The consolidation step for one parent, with its effect made explicit. -/
theorem consolidateParent_cases (c : TrackCfg n) (ovs : List Ov) (st : Frame n × List Obj) (p : Nat) :
    consolidateParent c ovs st p = st ∨
    ∃ first rest, childrenOf ovs p = first :: rest ∧ rest ≠ [] ∧ hasId st.2 p = true ∧ hasId st.2 first = true ∧
      consolidateParent c ovs st p =
        (let st1 := rest.foldl (consolidateChild first) st
         if (List.finRange n).any (fun i => st1.1 i == first) then (st1.1, setRow st1.2 (objOf c st1.1 first)) else st1) := by
  unfold consolidateParent
  by_cases hp : hasId st.2 p = true
  · rw [if_pos hp]
    have hcd : List.map (fun x : Ov => x.b) (List.filter (fun o => o.a == p) ovs) = childrenOf ovs p := rfl
    rw [hcd]
    cases hch : childrenOf ovs p with
    | nil => left; rfl
    | cons first rest =>
      dsimp only
      by_cases h : (rest.isEmpty || !hasId st.2 first) = true
      · rw [if_pos h]; left; rfl
      · right
        rw [if_neg h]
        simp only [Bool.or_eq_true, List.isEmpty_iff, Bool.not_eq_eq_eq_not, Bool.not_true, not_or, Bool.not_eq_false] at h
        exact ⟨first, rest, rfl, h.1, hp, h.2, rfl⟩
  · rw [if_neg hp]; left; rfl

theorem consolidateParent_upd (c : TrackCfg n) (ovs : List Ov) (hnd : (ovs.map fun o => (o.a, o.b)).Nodup)
    (hpos : ∀ o ∈ ovs, 0 < o.b) {f0 : Frame n} {p0 : List Obj} {N : Nat} (hb : ∀ o ∈ ovs, ∃ i, f0 i = o.b)
    (st : Frame n × List Obj) (p : Nat) (hu : Upd c.w f0 p0 N st.1 st.2 N) (hg0 : Good c.w f0 p0 N) :
    Upd c.w f0 p0 N (consolidateParent c ovs st p).1 (consolidateParent c ovs st p).2 N := by
  rcases consolidateParent_cases c ovs st p with h | ⟨first, rest, hch, hne, hp, hfirst, heq⟩
  · rw [h]; exact hu
  have hnd' := nodup_childrenOf hnd p
  rw [hch, List.nodup_cons] at hnd'
  have hmem : ∀ k ∈ childrenOf ovs p, 0 < k := by
    intro k hk
    obtain ⟨o, ho, _, rfl⟩ := mem_childrenOf.mp hk
    exact hpos o ho
  have hfpos : 0 < first := hmem first (by rw [hch]; simp)
  -- a child still in the table is still in the frame
  have hin : ∀ k ∈ childrenOf ovs p, hasId st.2 k = true → ∃ i, st.1 i = k := by
    intro k hk hid
    obtain ⟨o, ho, _, rfl⟩ := mem_childrenOf.mp hk
    rcases hu.noextra _ hid with ⟨_, h⟩ | ⟨_, h⟩
    · exact h
    · obtain ⟨i, hi⟩ := hb o ho
      rcases h i with h | h
      · exact absurd hi h
      · have := hpos o ho; omega
  refine Upd.trans hu ?_
  obtain ⟨F, T⟩ := foldl_consolidateChild first rest st
  have T := T hnd'.1
  generalize hst1 : rest.foldl (consolidateChild first) st = st1 at F T heq
  have hrest0 : ∀ k ∈ rest, 0 < k := fun k hk => hmem k (by rw [hch]; simp [hk])
  have F' : ∀ i, st1.1 i = if st.1 i ∈ rest then first else st.1 i := by
    intro i
    rw [F i]
    by_cases h : st.1 i ∈ rest
    · have h0 := hrest0 _ h
      have hid : hasId st.2 (st.1 i) = true := hasId_iff_area.mpr ⟨_, hu.good.area i h0⟩
      have hne : st.1 i ≠ first := fun e => hnd'.1 (e ▸ h)
      rw [if_pos ⟨h, hne, hid⟩, if_pos h]
    · rw [if_neg (fun e => h e.1), if_neg h]
  obtain ⟨i0, hi0⟩ := hin first (by rw [hch]; simp) hfirst
  have hany : (List.finRange n).any (fun i => st1.1 i == first) = true := by
    rw [List.any_eq_true]
    refine ⟨i0, List.mem_finRange _, ?_⟩
    rw [beq_iff_eq, F' i0, hi0]
    simp
  rw [heq]
  dsimp only
  rw [if_pos hany]
  have hlt : ∀ k ∈ childrenOf ovs p, k < N := by
    intro k hk
    obtain ⟨o, ho, _, rfl⟩ := mem_childrenOf.mp hk
    obtain ⟨i, hi⟩ := hb o ho
    rw [← hi]; exact hg0.lt i
  have hfirst1 : hasId st1.2 first = true := by
    rw [hasId_iff_area, T first, if_neg hnd'.1, ← hasId_iff_area]; exact hfirst
  have hsame : ∀ k, k ≠ first → k ∉ rest → ∀ i, st1.1 i = k ↔ st.1 i = k := by
    intro k h1 h2 i
    rw [F' i]
    by_cases h : st.1 i ∈ rest
    · rw [if_pos h]
      constructor
      · intro e; exact absurd e.symm h1
      · intro e; exact absurd (e ▸ h) h2
    · rw [if_neg h]
  have hgone : ∀ k ∈ rest, ∀ i, st1.1 i ≠ k := by
    intro k hk i
    rw [F' i]
    by_cases h : st.1 i ∈ rest
    · rw [if_pos h]; rintro rfl; exact hnd'.1 hk
    · rw [if_neg h]; rintro rfl; exact h hk
  have A : ∀ k, areaOf (setRow st1.2 (objOf c st1.1 first)) k
      = if k = first then some (weightOf c.w st1.1 first) else if k ∈ rest then none else areaOf st.2 k := by
    intro k
    rw [areaOf_setRow_objOf]
    by_cases h : k = first
    · rw [if_pos h, if_pos h, h, if_pos hfirst1]
    · rw [if_neg h, if_neg h, T k]
  constructor
  · constructor
    · intro i
      dsimp only
      rw [F' i]
      split
      · exact hlt first (by rw [hch]; simp)
      · exact hu.good.lt i
    · intro i hi
      dsimp only at hi ⊢
      rw [A]
      by_cases h : st1.1 i = first
      · rw [if_pos h, h]
      · have hr : st1.1 i ∉ rest := fun e => hgone _ e i rfl
        rw [if_neg h, if_neg hr]
        have e : st.1 i = st1.1 i := (hsame _ h hr i).mp rfl
        rw [← e, hu.good.area i (by omega)]
        congr 1
        apply weightOf_congr
        intro j
        exact ((hsame (st.1 i) (by omega) (by rw [e]; exact hr) j)).symm
    · intro k hk
      rw [hasId_setRow, hasId_iff_area, T k] at hk
      by_cases h : k ∈ rest
      · simp [h] at hk
      · rw [if_neg h, ← hasId_iff_area] at hk; exact hu.good.tlt k hk
  · intro i
    dsimp only
    rw [F' i]
    by_cases h : st.1 i ∈ rest
    · rw [if_pos h]; exact ⟨fun _ => hrest0 _ h, fun _ => hfpos⟩
    · rw [if_neg h]
  · intro i hi
    left
    dsimp only at hi ⊢
    rw [F' i]
    by_cases h : st.1 i ∈ rest
    · rw [if_pos h]; exact ⟨i0, hi0⟩
    · rw [if_neg h]; exact ⟨i, rfl⟩
  · exact le_refl _
  · intro k h0 hk _
    dsimp only
    rw [A]
    have h1 : k ≠ first := by rintro rfl; exact hk i0 hi0
    rw [if_neg h1]
    by_cases h2 : k ∈ rest
    · rw [if_pos h2]
      cases h : areaOf st.2 k with
      | none => rfl
      | some x =>
        obtain ⟨i, hi⟩ := hin k (by rw [hch]; simp [h2]) (hasId_iff_area.mpr ⟨x, h⟩)
        exact absurd hi (hk i)
    · rw [if_neg h2]
  · intro k hk
    dsimp only at hk ⊢
    by_cases h1 : k = first
    · left; rw [h1]; exact ⟨hfpos, i0, by rw [F' i0, hi0]; simp⟩
    rw [hasId_setRow, hasId_iff_area, T k] at hk
    by_cases h2 : k ∈ rest
    · simp [h2] at hk
    · rw [if_neg h2, ← hasId_iff_area] at hk
      by_cases h3 : 0 < k ∧ ∃ i, st.1 i = k
      · obtain ⟨h0, i, hi⟩ := h3
        exact Or.inl ⟨h0, i, (hsame k h1 h2 i).mpr hi⟩
      · refine Or.inr ⟨hk, fun i => ?_⟩
        by_cases hi : st.1 i = k
        · right; by_contra h0; exact h3 ⟨by omega, i, hi⟩
        · exact Or.inl hi

theorem mem_enforce {thr : ℚ} {props : List Obj} {ovs : List Ov} {o : Ov} (h : o ∈ enforceOverlap thr props ovs) :
    o ∈ ovs ∧ hasId props o.a = true ∧ hasId props o.b = true := by
  unfold enforceOverlap at h
  rw [List.mem_filter] at h
  refine ⟨h.1, ?_⟩
  have h2 := h.2
  split at h2
  · rename_i x y hx hy
    exact ⟨hasId_iff_area.mpr ⟨x, hx⟩, hasId_iff_area.mpr ⟨y, hy⟩⟩
  · cases h2

theorem nodup_enforce {thr : ℚ} {props : List Obj} {ovs : List Ov} (h : (ovs.map fun o => (o.a, o.b)).Nodup) :
    ((enforceOverlap thr props ovs).map fun o => (o.a, o.b)).Nodup :=
  h.sublist (List.filter_sublist.map _)

theorem consolidate_upd (c : TrackCfg n) (f2 f1 : Frame n) (p : List Obj) (N : Nat) (hg : Good c.w f1 p N) :
    Upd c.w f1 p N (consolidate c f2 f1 p).1 (consolidate c f2 f1 p).2 N := by
  unfold consolidate
  dsimp only
  generalize hov : enforceOverlap c.thr p (checkOverlapSlice c.w f2 f1) = ovs
  have hnd : (ovs.map fun o => (o.a, o.b)).Nodup := by
    rw [← hov]; exact nodup_enforce (pairwise_checkOverlapSlice _ _ _)
  have hm : ∀ o ∈ ovs, 0 < o.b ∧ ∃ i, f1 i = o.b := by
    intro o ho
    rw [← hov] at ho
    obtain ⟨_, h1, ⟨i, _, hi⟩, _⟩ := mem_checkOverlapSlice.mp (mem_enforce ho).1
    exact ⟨h1, i, hi⟩
  generalize repeated (ovs.map (·.a)) = ps
  have gen : ∀ (ps : List Nat) (st : Frame n × List Obj), Upd c.w f1 p N st.1 st.2 N →
      Upd c.w f1 p N (ps.foldl (consolidateParent c ovs) st).1 (ps.foldl (consolidateParent c ovs) st).2 N := by
    intro ps
    induction ps with
    | nil => intro st h; exact h
    | cons q ps ih =>
      intro st h
      exact ih _ (consolidateParent_upd c ovs hnd (fun o ho => (hm o ho).1) (fun o ho => (hm o ho).2) st q h hg)
  exact gen ps (f1, p) (Upd.refl hg)

/-! ### Partitioning -/

/-- Contract of the partition function: given one ID per parent, every cell of the child gets one of the IDs offered. -/
def PartitionOK (c : TrackCfg n) : Prop :=
  ∀ prev cur child parents childIds props i, childIds ≠ [] → childIds.length = parents.length → cur i = child →
    c.part prev cur child parents childIds props i ∈ childIds

theorem processChild_upd (c : TrackCfg n) (hc : PartitionOK c) (t : Nat) (prev cur : Frame n) (s : SMState) (ovs : List Ov)
    (child : Nat) (h0 : 0 < child) (hchild : ∃ i, cur i = child) (hpar : (ovs.filter fun o => o.b == child) ≠ []) (hg : Good c.w cur s.props s.nextId) :
    Upd c.w cur s.props s.nextId (processChild c t prev (cur, s, ovs) child).1
      (processChild c t prev (cur, s, ovs) child).2.1.props (processChild c t prev (cur, s, ovs) child).2.1.nextId := by
  unfold processChild
  dsimp only
  have hplen : 0 < ((ovs.filter fun o => o.b == child).map (·.a)).length := by
    rw [List.length_map]; exact List.length_pos_of_ne_nil hpar
  generalize ((ovs.filter fun o => o.b == child).map (·.a)) = parents at hplen
  generalize hnew : List.range' s.nextId (parents.length - 1) = newIds
  have hmem : ∀ k, k ∈ newIds ↔ s.nextId ≤ k ∧ k < s.nextId + (parents.length - 1) := by
    intro k; rw [← hnew]; simp [List.mem_range'_1]
  generalize hlab : c.part prev cur child parents (child :: newIds) s.props = labels
  have hl : ∀ i, cur i = child → labels i ∈ child :: newIds := by
    intro i hi; rw [← hlab]; exact hc _ _ _ _ _ _ _ (by simp) (by rw [← hnew]; simp; omega) hi
  obtain ⟨ic, hic⟩ := hchild
  have hclt : child < s.nextId := by rw [← hic]; exact hg.lt ic
  have hchildin : hasId s.props child = true := by
    rw [hasId_iff_area, ← hic]; exact ⟨_, hg.area ic (by omega)⟩
  generalize hcur' : (fun i => if cur i = child then labels i else cur i) = cur'
  have F : ∀ i, cur' i = if cur i = child then labels i else cur i := by intro i; rw [← hcur']
  -- shape of the new IDs
  have hids : ∀ i, (cur i = child → cur' i = child ∨ cur' i ∈ newIds) ∧ (cur i ≠ child → cur' i = cur i) := by
    intro i
    constructor
    · intro h; rw [F i, if_pos h]; exact List.mem_cons.mp (hl i h)
    · intro h; rw [F i, if_neg h]
  have hnotnew : ∀ i, cur i ∉ newIds := by
    intro i h; have := (hmem _).mp h; have := hg.lt i; omega
  -- the table
  have hp1 : ∀ k, areaOf (if hasId (calcProps c cur') child = true then setRow s.props (objOf c cur' child)
      else dropId s.props child) k
      = if k = child then (if ∃ i, cur' i = child then some (weightOf c.w cur' child) else none) else areaOf s.props k := by
    intro k
    have hiff := hasId_calcProps c cur' child
    by_cases hh : hasId (calcProps c cur') child = true
    · rw [if_pos hh, areaOf_setRow_objOf]
      by_cases hk : k = child
      · rw [if_pos hk, if_pos hk, if_pos (hiff.mp hh).2, hk, if_pos hchildin]
      · rw [if_neg hk, if_neg hk]
    · rw [if_neg hh, areaOf_dropId]
      by_cases hk : k = child
      · rw [if_pos hk, if_pos hk, if_neg (fun e => hh (hiff.mpr ⟨h0, e⟩))]
      · rw [if_neg hk, if_neg hk]
  have hp2 : ∀ k, areaOf ((calcProps c cur').filter fun o => newIds.contains o.id) k
      = if k ∈ newIds ∧ ∃ i, cur' i = k then some (weightOf c.w cur' k) else none := by
    intro k
    rw [filter_calcProps, areaOf_map_objOf]
    congr 1
    rw [List.mem_filter, mem_idsOf', List.contains_iff_mem, eq_iff_iff]
    constructor
    · rintro ⟨⟨_, h⟩, h2⟩; exact ⟨h2, h⟩
    · rintro ⟨h, h2⟩; exact ⟨⟨by have := (hmem _).mp h; omega, h2⟩, h⟩
  have hpnew : ∀ k ∈ newIds, areaOf s.props k = none := by
    intro k hk
    cases h : areaOf s.props k with
    | none => rfl
    | some x => have := hg.tlt k (hasId_iff_area.mpr ⟨x, h⟩); have := (hmem _).mp hk; omega
  have A : ∀ k, areaOf ((if hasId (calcProps c cur') child = true then setRow s.props (objOf c cur' child)
      else dropId s.props child) ++ (calcProps c cur').filter fun o => newIds.contains o.id) k
      = if k = child then (if ∃ i, cur' i = child then some (weightOf c.w cur' child) else none)
        else if k ∈ newIds then (if ∃ i, cur' i = k then some (weightOf c.w cur' k) else none) else areaOf s.props k := by
    intro k
    rw [areaOf_append, hp1, hp2]
    by_cases hk : k = child
    · have : k ∉ newIds := by rw [hk, hmem]; omega
      have e2 : (if k ∈ newIds ∧ ∃ i, cur' i = k then some (weightOf c.w cur' k) else none) = none :=
        if_neg (fun e => this e.1)
      rw [if_pos hk, if_pos hk, e2, Option.or_none]
    · rw [if_neg hk, if_neg hk]
      by_cases hk2 : k ∈ newIds
      · rw [hpnew k hk2, if_pos hk2, Option.none_or]
        simp [hk2]
      · rw [if_neg hk2, if_neg (fun e => hk2 e.1), Option.or_none]
  have B : ∀ i, 0 < cur' i ∧ cur' i < s.nextId + (parents.length - 1) ↔ 0 < cur i := by
    intro i
    by_cases h : cur i = child
    · rcases (hids i).1 h with e | e
      · rw [e, h]; omega
      · have := (hmem _).mp e; omega
    · rw [(hids i).2 h]; have := hg.lt i; omega
  constructor
  · constructor
    · intro i
      by_cases h : cur i = child
      · rcases (hids i).1 h with e | e
        · rw [e]; omega
        · exact ((hmem _).mp e).2
      · rw [(hids i).2 h]; have := hg.lt i; omega
    · intro i hi
      rw [A]
      by_cases h1 : cur' i = child
      · rw [if_pos h1, h1, if_pos ⟨i, h1⟩]
      · rw [if_neg h1]
        by_cases h2 : cur' i ∈ newIds
        · rw [if_pos h2, if_pos ⟨i, rfl⟩]
        · rw [if_neg h2]
          have hne : cur i ≠ child := by
            intro e; rcases (hids i).1 e with e' | e'
            · exact h1 e'
            · exact h2 e'
          rw [(hids i).2 hne]
          rw [(hids i).2 hne] at hi
          rw [hg.area i hi]
          congr 1
          apply weightOf_congr
          intro j
          by_cases hj : cur j = child
          · rcases (hids j).1 hj with e | e
            · rw [hj, e]
            · constructor
              · intro e2; rw [hj] at e2; exact absurd e2.symm hne
              · intro e2; rw [e2] at e; exact absurd e (hnotnew i)
          · rw [(hids j).2 hj]
    · intro k hk
      rw [hasId_iff_area, A] at hk
      by_cases h1 : k = child
      · omega
      · rw [if_neg h1] at hk
        by_cases h2 : k ∈ newIds
        · exact ((hmem _).mp h2).2
        · rw [if_neg h2, ← hasId_iff_area] at hk
          have := hg.tlt k hk; omega
  · intro i
    by_cases h : cur i = child
    · rcases (hids i).1 h with e | e
      · rw [e, h]
      · have := (hmem _).mp e; omega
    · rw [(hids i).2 h]
  · intro i hi
    by_cases h : cur i = child
    · rcases (hids i).1 h with e | e
      · left; exact ⟨i, by rw [e, h]⟩
      · right; exact ((hmem _).mp e).1
    · left; exact ⟨i, ((hids i).2 h).symm⟩
  · omega
  · intro k hk0 hk hkN
    rw [A, if_neg (by rintro rfl; exact hk ic hic), if_neg (by rw [hmem]; omega)]
  · intro k hk
    rw [hasId_iff_area, A] at hk
    by_cases h1 : k = child
    · rw [if_pos h1] at hk
      by_cases h2 : ∃ i, cur' i = child
      · left; rw [h1]; exact ⟨h0, h2⟩
      · simp [h2] at hk
    · rw [if_neg h1] at hk
      by_cases h2 : k ∈ newIds
      · rw [if_pos h2] at hk
        by_cases h3 : ∃ i, cur' i = k
        · left; exact ⟨by have := (hmem _).mp h2; omega, h3⟩
        · simp [h3] at hk
      · rw [if_neg h2, ← hasId_iff_area] at hk
        by_cases h3 : 0 < k ∧ ∃ i, cur i = k
        · obtain ⟨hk0, i, hi⟩ := h3
          exact Or.inl ⟨hk0, i, by rw [(hids i).2 (by omega), hi]⟩
        · refine Or.inr ⟨hk, fun i => ?_⟩
          by_cases hi : cur i = k
          · right; by_contra hne; exact h3 ⟨by omega, i, hi⟩
          · exact Or.inl hi

end MarEx
