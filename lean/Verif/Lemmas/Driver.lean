import Verif.Lemmas.SplitMerge
/-! Invariants of the split-and-merge loop over all time steps. -/
namespace MarEx
variable {n : Nat}

theorem mem_repeated {col : List Nat} {k : Nat} : k ∈ repeated col ↔ 1 < col.count k := by
  unfold repeated
  rw [List.mem_filter, mem_npUnique, decide_eq_true_eq]
  constructor
  · exact fun h => h.2
  · exact fun h => ⟨List.count_pos_iff.mp (by omega), h⟩

theorem nodup_repeated (col : List Nat) : (repeated col).Nodup := (nodup_npUnique _).filter _

theorem count_map_b (ovs : List Ov) (k : Nat) : (ovs.map (·.b)).count k = (ovs.filter fun o => o.b == k).length := by
  rw [List.count, List.countP_map, List.countP_eq_length_filter]; rfl

theorem filter_replaceLater {child m : Nat} (hm : m ≠ child) (seen : Bool) (ids : List Nat) (hids : m ∉ ids) (ovs : List Ov) :
    (replaceLater child seen ids ovs).filter (fun o => o.b == m) = ovs.filter fun o => o.b == m := by
  induction ovs generalizing seen ids with
  | nil => simp [replaceLater]
  | cons o os ih =>
    unfold replaceLater
    by_cases hb : o.b = child
    · rw [if_pos hb]
      have hne : (o.b == m) = false := by rw [beq_eq_false_iff_ne]; omega
      split
      · split
        · simp only [List.filter_cons, hne]; simpa using ih _ _ (by simp)
        · rename_i k ids'
          rw [List.mem_cons, not_or] at hids
          have hk : (k == m) = false := by rw [beq_eq_false_iff_ne]; omega
          simp only [List.filter_cons, hne, hk]
          simpa using ih _ _ hids.2
      · simp only [List.filter_cons, hne]; simpa using ih _ _ hids
    · rw [if_neg hb]
      simp only [List.filter_cons, ih _ _ hids]

/-- A merge record describes a real merge between the frames `f` (time t-1) and `g` (time t, before the partition). -/
structure RecShape (w : Fin n → ℚ) (f g : Frame n) (r : MergeRec) : Prop where
  two : 2 ≤ r.parents.length
  len : r.children.length = r.parents.length
  cnodup : r.children.Nodup
  pnodup : r.parents.Nodup
  head : ∃ child, r.children.head? = some child ∧ 0 < child ∧
    r.areas = r.parents.map (fun p => sharedWeight w f g p child) ∧
    ∀ p ∈ r.parents, 0 < p ∧ ∃ i, f i = p ∧ g i = child

/-- IDs created by a record. -/
def newIdsOf (r : MergeRec) : List Nat := r.children.tail

/-- What a piece of the loop that works on time step `t` with previous frame `prev` does. -/
structure StepRes (c : TrackCfg n) (t : Nat) (prev cur : Frame n) (s : SMState) (cur' : Frame n) (s' : SMState) : Prop where
  upd : Upd c.w cur s.props s.nextId cur' s'.props s'.nextId
  recs : ∃ new, s'.merges = s.merges ++ new ∧
    (∀ r ∈ new, r.time = t ∧ ∃ g : Frame n, (∀ i, 0 < g i ↔ 0 < cur i) ∧ RecShape c.w prev g r) ∧
    new.flatMap newIdsOf = List.range' s.nextId (s'.nextId - s.nextId)

theorem StepRes.refl {c : TrackCfg n} {t : Nat} {prev cur : Frame n} {s : SMState} (h : Good c.w cur s.props s.nextId) :
    StepRes c t prev cur s cur s where
  upd := Upd.refl h
  recs := ⟨[], by simp⟩

theorem StepRes.trans {c : TrackCfg n} {t : Nat} {prev cur cur' cur'' : Frame n} {s s' s'' : SMState}
    (a : StepRes c t prev cur s cur' s') (b : StepRes c t prev cur' s' cur'' s'') : StepRes c t prev cur s cur'' s'' where
  upd := a.upd.trans b.upd
  recs := by
    obtain ⟨n1, e1, r1, f1⟩ := a.recs
    obtain ⟨n2, e2, r2, f2⟩ := b.recs
    refine ⟨n1 ++ n2, by rw [e2, e1, List.append_assoc], ?_, ?_⟩
    · intro r hr
      rcases List.mem_append.mp hr with h | h
      · exact r1 r h
      · obtain ⟨ht, g, hg, hs⟩ := r2 r h
        exact ⟨ht, g, fun i => (hg i).trans (a.upd.supp i), hs⟩
    · have h1 := a.upd.le
      have h2 := b.upd.le
      have e3 : s'.nextId = s.nextId + (s'.nextId - s.nextId) := by omega
      have e4 : s''.nextId - s.nextId = (s'.nextId - s.nextId) + (s''.nextId - s'.nextId) := by omega
      rw [List.flatMap_append, f1, f2, e4, ← List.range'_append_1, ← e3]

theorem foldl_processChild (c : TrackCfg n) (hc : PartitionOK c) (t : Nat) (prev g0 : Frame n) (ovs0 : List Ov)
    (hnd : (ovs0.map fun o => (o.a, o.b)).Nodup)
    (hov : ∀ o ∈ ovs0, 0 < o.a ∧ 0 < o.b ∧ (∃ i, prev i = o.a ∧ g0 i = o.b) ∧ o.v = sharedWeight c.w prev g0 o.a o.b)
    (ms : List Nat) (hms : ms.Nodup) (hcount : ∀ m ∈ ms, 1 < (ovs0.map (·.b)).count m)
    (cur : Frame n) (s : SMState) (ovs : List Ov)
    (hsupp : ∀ i, 0 < g0 i ↔ 0 < cur i) (hlt0 : ∀ i, g0 i < s.nextId)
    (hsame : ∀ m ∈ ms, ovs.filter (fun o => o.b == m) = ovs0.filter (fun o => o.b == m))
    (hcell : ∀ m ∈ ms, ∀ i, cur i = m ↔ g0 i = m) (hg : Good c.w cur s.props s.nextId) :
    StepRes c t prev cur s (ms.foldl (processChild c t prev) (cur, s, ovs)).1
      (ms.foldl (processChild c t prev) (cur, s, ovs)).2.1 := by
  induction ms generalizing cur s ovs with
  | nil => exact StepRes.refl hg
  | cons m ms ih =>
    rw [List.foldl_cons]
    rw [List.nodup_cons] at hms
    have hm2 : 1 < (ovs0.filter fun o => o.b == m).length := by
      rw [← count_map_b]; exact hcount m (by simp)
    have hrow : ∀ o ∈ ovs0.filter (fun o => o.b == m), o ∈ ovs0 ∧ o.b = m := by
      intro o ho; rw [List.mem_filter, beq_iff_eq] at ho; exact ho
    obtain ⟨o0, ho0⟩ := List.exists_mem_of_length_pos (by omega : 0 < (ovs0.filter fun o => o.b == m).length)
    have hm0 : 0 < m := by rw [← (hrow o0 ho0).2]; exact (hov o0 (hrow o0 ho0).1).2.1
    have hpres : ∃ i, cur i = m := by
      obtain ⟨i, _, hi⟩ := (hov o0 (hrow o0 ho0).1).2.2.1
      exact ⟨i, (hcell m (by simp) i).mpr (by rw [hi, (hrow o0 ho0).2])⟩
    have hu := processChild_upd c hc t prev cur s ovs m hm0 hpres
      (by rw [hsame m (by simp)]; exact List.ne_nil_of_length_pos (by omega)) hg
    have hmlt : m < s.nextId := by obtain ⟨i, hi⟩ := hpres; rw [← hi]; exact hg.lt i
    have hgroup := hsame m (by simp)
    have hlen : ((ovs.filter fun o => o.b == m).map (·.a)).length = (ovs0.filter fun o => o.b == m).length := by
      rw [List.length_map, hgroup]
    -- components of the new state
    have hnext : (processChild c t prev (cur, s, ovs) m).2.1.nextId
        = s.nextId + ((ovs0.filter fun o => o.b == m).length - 1) := by
      rw [← hlen]; rfl
    have hmerge : (processChild c t prev (cur, s, ovs) m).2.1.merges = s.merges ++
        [⟨t, m :: List.range' s.nextId ((ovs0.filter fun o => o.b == m).length - 1),
          (ovs0.filter fun o => o.b == m).map (·.a), (ovs0.filter fun o => o.b == m).map (·.v)⟩] := by
      rw [← hlen, ← hgroup]; rfl
    have hovs : (processChild c t prev (cur, s, ovs) m).2.2
        = replaceLater m false (List.range' s.nextId ((ovs0.filter fun o => o.b == m).length - 1)) ovs := by
      rw [← hlen]; rfl
    have hcur : ∀ i, cur i ≠ m → (processChild c t prev (cur, s, ovs) m).1 i = cur i := by
      intro i hi; unfold processChild; dsimp only; rw [if_neg hi]
    have hcur2 : ∀ i, cur i = m → (processChild c t prev (cur, s, ovs) m).1 i = m ∨
        s.nextId ≤ (processChild c t prev (cur, s, ovs) m).1 i := by
      intro i hi
      unfold processChild
      dsimp only
      rw [if_pos hi]
      rcases List.mem_cons.mp (hc prev cur m _ (m :: List.range' s.nextId
        (((ovs.filter fun o => o.b == m).map (·.a)).length - 1)) s.props i (by simp)
        (by rw [hlen, List.length_cons, List.length_range']; omega) hi) with h | h
      · exact Or.inl h
      · right; rw [List.mem_range'_1] at h; exact h.1
    have step : StepRes c t prev cur s (processChild c t prev (cur, s, ovs) m).1 (processChild c t prev (cur, s, ovs) m).2.1 := by
      refine ⟨hu, ⟨_, hmerge, ?_, ?_⟩⟩
      · intro r hr
        rw [List.mem_singleton] at hr
        subst hr
        refine ⟨rfl, g0, hsupp, ?_⟩
        constructor
        · dsimp only; rw [List.length_map]; omega
        · dsimp only; rw [List.length_cons, List.length_range', List.length_map]; omega
        · dsimp only
          rw [List.nodup_cons]
          refine ⟨?_, List.nodup_range'⟩
          rw [List.mem_range'_1]; omega
        · dsimp only
          have h2 : ((ovs0.filter fun o => o.b == m).map fun o => (o.a, o.b)).Nodup := hnd.sublist (List.filter_sublist.map _)
          apply List.Nodup.map_on _ (List.Nodup.of_map _ h2)
          intro x hx y hy hxy
          exact List.inj_on_of_nodup_map h2 hx hy (by rw [(hrow x hx).2, (hrow y hy).2, hxy])
        · refine ⟨m, rfl, hm0, ?_, ?_⟩
          · dsimp only
            rw [List.map_map]
            apply List.map_congr_left
            intro o ho
            obtain ⟨h1, h2⟩ := hrow o ho
            rw [(hov o h1).2.2.2, h2]; rfl
          · intro p hp
            dsimp only at hp
            obtain ⟨o, ho, rfl⟩ := List.mem_map.mp hp
            obtain ⟨h1, h2⟩ := hrow o ho
            obtain ⟨h3, _, ⟨i, h4, h5⟩, _⟩ := hov o h1
            exact ⟨h3, i, h4, by rw [h5, h2]⟩
      · rw [hnext]
        simp only [List.flatMap_cons, List.flatMap_nil, List.append_nil, newIdsOf, List.tail_cons]
        congr 1; omega
    refine StepRes.trans step ?_
    generalize hst : processChild c t prev (cur, s, ovs) m = st at *
    obtain ⟨cur', s', ovs'⟩ := st
    dsimp only at *
    apply ih hms.2 (fun k hk => hcount k (by simp [hk]))
    · exact fun i => (hsupp i).trans (hu.supp i).symm
    · intro i; have := hlt0 i; have := hu.le; omega
    · intro k hk
      have hkm : k ≠ m := by rintro rfl; exact hms.1 hk
      rw [hovs, filter_replaceLater hkm, hsame k (by simp [hk])]
      have : 1 < (ovs0.filter fun o => o.b == k).length := by rw [← count_map_b]; exact hcount k (by simp [hk])
      obtain ⟨o1, ho1⟩ := List.exists_mem_of_length_pos (by omega : 0 < (ovs0.filter fun o => o.b == k).length)
      rw [List.mem_filter, beq_iff_eq] at ho1
      obtain ⟨_, _, ⟨i, _, hi⟩, _⟩ := hov o1 ho1.1
      have := hlt0 i
      rw [List.mem_range'_1]; omega
    · intro k hk i
      have hkm : k ≠ m := by rintro rfl; exact hms.1 hk
      rw [← hcell k (by simp [hk]) i]
      by_cases hi : cur i = m
      · have hklt : k < s.nextId := by
          have : 1 < (ovs0.filter fun o => o.b == k).length := by rw [← count_map_b]; exact hcount k (by simp [hk])
          obtain ⟨o1, ho1⟩ := List.exists_mem_of_length_pos (by omega : 0 < (ovs0.filter fun o => o.b == k).length)
          rw [List.mem_filter, beq_iff_eq] at ho1
          obtain ⟨_, _, ⟨j, _, hj⟩, _⟩ := hov o1 ho1.1
          have := hlt0 j
          omega
        rcases hcur2 i hi with h | h <;> constructor <;> intro e <;> omega
      · rw [hcur i hi]
    · exact hu.good

theorem resolveMerges_res (c : TrackCfg n) (hc : PartitionOK c) (t : Nat) (prev : Frame n) (fuel : Nat) (cur : Frame n)
    (s : SMState) (hg : Good c.w cur s.props s.nextId) :
    StepRes c t prev cur s (resolveMerges c t prev fuel (cur, s)).1 (resolveMerges c t prev fuel (cur, s)).2 := by
  induction fuel generalizing cur s with
  | zero => exact StepRes.refl hg
  | succ fuel ih =>
    rw [resolveMerges]
    generalize hov : enforceOverlap c.thr s.props (checkOverlapSlice c.w prev cur) = ovs
    dsimp only
    split
    · exact StepRes.refl hg
    · have hmem : ∀ o ∈ ovs, 0 < o.a ∧ 0 < o.b ∧ (∃ i, prev i = o.a ∧ cur i = o.b) ∧
          o.v = sharedWeight c.w prev cur o.a o.b := by
        intro o ho
        rw [← hov] at ho
        exact mem_checkOverlapSlice.mp (mem_enforce ho).1
      have h1 := foldl_processChild c hc t prev cur ovs
        (by rw [← hov]; exact nodup_enforce (pairwise_checkOverlapSlice _ _ _)) hmem
        (repeated (ovs.map (·.b))) (nodup_repeated _) (fun m hm => mem_repeated.mp hm) cur s ovs
        (fun _ => Iff.rfl) hg.lt (fun _ _ => rfl) (fun _ _ _ => Iff.rfl) hg
      exact StepRes.trans h1 (ih _ _ h1.upd.good)

/-! ### All time steps -/

/-- The table describes the whole record. -/
structure GInv (w : Fin n → ℚ) (fs : List (Frame n)) (p : List Obj) (N : Nat) : Prop where
  lt : ∀ f ∈ fs, ∀ i, f i < N
  area : ∀ f ∈ fs, ∀ i, 0 < f i → areaOf p (f i) = some (weightOf w f (f i))
  tlt : ∀ k, hasId p k = true → k < N
  disj : fs.Pairwise fun f g => ∀ i j, 0 < f i → f i ≠ g j
  noextra : ∀ k, hasId p k = true → 0 < k ∧ ∃ f ∈ fs, ∃ i, f i = k

theorem GInv.good {w : Fin n → ℚ} {fs : List (Frame n)} {p : List Obj} {N : Nat} (h : GInv w fs p N) {f : Frame n}
    (hf : f ∈ fs) : Good w f p N := ⟨h.lt f hf, h.area f hf, h.tlt⟩

theorem GInv.upd {w : Fin n → ℚ} {A B : List (Frame n)} {f f' : Frame n} {p p' : List Obj} {N N' : Nat}
    (h : GInv w (A ++ f :: B) p N) (u : Upd w f p N f' p' N') : GInv w (A ++ f' :: B) p' N' := by
  have hd := h.disj
  rw [List.pairwise_append, List.pairwise_cons] at hd
  obtain ⟨hA, ⟨hfB, hB⟩, hAB⟩ := hd
  -- an ID of another frame is not in `f`
  have hoth : ∀ g, g ∈ A ∨ g ∈ B → ∀ i, 0 < g i → ∀ j, f j ≠ g i := by
    intro g hg i hi j e
    rcases hg with hg | hg
    · exact hAB g hg f (by simp) i j hi e.symm
    · exact hfB g hg j i (by omega) e
  have hmem : ∀ g, g ∈ A ∨ g ∈ B → g ∈ A ++ f :: B := by
    intro g hg; rcases hg with hg | hg <;> simp [hg]
  have hoth' : ∀ g, g ∈ A ∨ g ∈ B → ∀ i, 0 < g i → ∀ j, f' j ≠ g i := by
    intro g hg i hi j e
    rcases u.ids j (by omega) with ⟨k, hk⟩ | hN
    · exact hoth g hg i hi k (by rw [hk, e])
    · have := h.lt g (hmem g hg) i; omega
  constructor
  · intro g hg i
    rw [List.mem_append, List.mem_cons] at hg
    rcases hg with hg | rfl | hg
    · exact lt_of_lt_of_le (h.lt g (hmem g (Or.inl hg)) i) u.le
    · exact u.good.lt i
    · exact lt_of_lt_of_le (h.lt g (hmem g (Or.inr hg)) i) u.le
  · intro g hg i hi
    rw [List.mem_append, List.mem_cons] at hg
    by_cases hgf : g = f'
    · subst hgf; exact u.good.area i hi
    · have hg' : g ∈ A ∨ g ∈ B := by
        rcases hg with hg | hg | hg
        · exact Or.inl hg
        · exact absurd hg hgf
        · exact Or.inr hg
      rw [u.others (g i) hi (hoth g hg' i hi) (h.lt g (hmem g hg') i)]
      exact h.area g (hmem g hg') i hi
  · exact u.good.tlt
  · rw [List.pairwise_append, List.pairwise_cons]
    refine ⟨hA, ⟨?_, hB⟩, ?_⟩
    · intro g hg i j hi e
      exact hoth' g (Or.inr hg) j (by omega) i e
    · intro a ha b hb
      rw [List.mem_cons] at hb
      rcases hb with rfl | hb
      · intro i j hi e; exact hoth' a (Or.inl ha) i hi j e.symm
      · exact hAB a ha b (by simp [hb])
  · intro k hk
    rcases u.noextra k hk with ⟨h0, h1⟩ | ⟨h1, h2⟩
    · exact ⟨h0, f', by simp, h1⟩
    · obtain ⟨h0, g, hg, i, hi⟩ := h.noextra k h1
      refine ⟨h0, g, ?_, i, hi⟩
      rw [List.mem_append, List.mem_cons] at hg ⊢
      rcases hg with hg | rfl | hg
      · exact Or.inl hg
      · rcases h2 i with h | h
        · exact absurd hi h
        · omega
      · exact Or.inr (Or.inr hg)

/-- A merge record is backed by the frames of its time step and the one before. -/
def RecOK (w : Fin n → ℚ) (fs : List (Frame n)) (r : MergeRec) : Prop :=
  ∃ t f h g, r.time = t + 1 ∧ fs[t]? = some f ∧ fs[t + 1]? = some h ∧ (∀ i, 0 < g i ↔ 0 < h i) ∧ RecShape w f g r

/-- Loop invariant after the steps before `t`; `N0` is the first ID that did not exist at the start. -/
structure Inv (w : Fin n → ℚ) (N0 : Nat) (fs : List (Frame n)) (t : Nat) (s : SMState) : Prop where
  g : GInv w fs s.props s.nextId
  le : N0 ≤ s.nextId
  recs : ∀ r ∈ s.merges, r.time < t ∧ RecOK w fs r
  fresh : s.merges.flatMap newIdsOf = List.range' N0 (s.nextId - N0)

theorem Inv.mono {w : Fin n → ℚ} {N0 : Nat} {fs : List (Frame n)} {t t' : Nat} {s : SMState} (h : Inv w N0 fs t s)
    (ht : t ≤ t') : Inv w N0 fs t' s :=
  ⟨h.g, h.le, fun r hr => ⟨lt_of_lt_of_le (h.recs r hr).1 ht, (h.recs r hr).2⟩, h.fresh⟩

/-- Replacing the frame at position `t` keeps records of time at most `t`. -/
theorem RecOK.replace {w : Fin n → ℚ} {A B : List (Frame n)} {f f' : Frame n} {r : MergeRec}
    (hr : RecOK w (A ++ f :: B) r) (ht : r.time ≤ A.length) (hs : ∀ i, 0 < f' i ↔ 0 < f i) :
    RecOK w (A ++ f' :: B) r := by
  obtain ⟨t, f1, h, g, e, h1, h2, h3, h4⟩ := hr
  have e1 : (A ++ f' :: B)[t]? = some f1 := by
    rw [List.getElem?_append_left (by omega)] at h1 ⊢; exact h1
  by_cases htt : t + 1 < A.length
  · refine ⟨t, f1, h, g, e, e1, ?_, h3, h4⟩
    rw [List.getElem?_append_left htt] at h2 ⊢; exact h2
  · have : t + 1 = A.length := by omega
    refine ⟨t, f1, f', g, e, e1, ?_, ?_, h4⟩
    · rw [List.getElem?_append_right (by omega)]; simp [this]
    · rw [List.getElem?_append_right (by omega)] at h2
      simp only [this, Nat.sub_self, List.getElem?_cons_zero, Option.some.injEq] at h2
      subst h2
      exact fun i => (h3 i).trans (hs i).symm

theorem Inv.consolidate {c : TrackCfg n} {N0 : Nat} {A B : List (Frame n)} {f : Frame n} {t : Nat} {s : SMState}
    (h : Inv c.w N0 (A ++ f :: B) t s) (ht : t = A.length + 1) (f2 : Frame n) :
    Inv c.w N0 (A ++ (consolidate c f2 f s.props).1 :: B) t { s with props := (consolidate c f2 f s.props).2 } ∧
    (∀ i, 0 < (MarEx.consolidate c f2 f s.props).1 i ↔ 0 < f i) := by
  have u := consolidate_upd c f2 f s.props s.nextId (h.g.good (by simp))
  refine ⟨⟨h.g.upd u, h.le, ?_, h.fresh⟩, u.supp⟩
  intro r hr
  obtain ⟨h1, h2⟩ := h.recs r hr
  exact ⟨h1, h2.replace (by omega) u.supp⟩

theorem Inv.step {c : TrackCfg n} (hc : PartitionOK c) {N0 : Nat} {A B : List (Frame n)} {cur prev : Frame n} {t : Nat}
    {s : SMState} (h : Inv c.w N0 (A ++ cur :: B) t s) (ht : t = A.length) (hprev : prev = zeroFrame ∨ A.getLast? = some prev) :
    Inv c.w N0 (A ++ (processStep c t prev cur s).1 :: B) (t + 1) (processStep c t prev cur s).2 ∧
    (∀ i, 0 < (processStep c t prev cur s).1 i ↔ 0 < cur i) := by
  have r := resolveMerges_res c hc t prev 10 cur s (h.g.good (by simp))
  unfold processStep
  refine ⟨⟨h.g.upd r.upd, le_trans h.le r.upd.le, ?_, ?_⟩, r.upd.supp⟩
  · obtain ⟨new, e, hr, _⟩ := r.recs
    intro x hx
    rw [e, List.mem_append] at hx
    rcases hx with hx | hx
    · obtain ⟨h1, h2⟩ := h.recs x hx
      exact ⟨by omega, h2.replace (by omega) r.upd.supp⟩
    · obtain ⟨h1, g, h2, h3⟩ := hr x hx
      refine ⟨by omega, ?_⟩
      rcases hprev with hz | hl
      · exfalso
        obtain ⟨child, _, _, _, h4⟩ := h3.head
        have := h3.two
        obtain ⟨p, hp⟩ := List.exists_mem_of_length_pos (by omega : 0 < x.parents.length)
        obtain ⟨h5, i, h6, _⟩ := h4 p hp
        rw [hz] at h6; simp only [zeroFrame] at h6; omega
      · have hA : A ≠ [] := by rintro rfl; simp at hl
        have hlen : 0 < A.length := List.length_pos_of_ne_nil hA
        refine ⟨t - 1, prev, _, g, by omega, ?_, ?_, fun i => (h2 i).trans (r.upd.supp i).symm, h3⟩
        · rw [List.getElem?_append_left (by omega), ht, ← List.getLast?_eq_getElem?]; exact hl
        · rw [List.getElem?_append_right (by omega)]
          have : t - 1 + 1 - A.length = 0 := by omega
          rw [this]; rfl
  · obtain ⟨new, e, _, hf⟩ := r.recs
    have h1 := h.le
    have h2 := r.upd.le
    have h3 := h.fresh
    rw [e, List.flatMap_append, h3, hf]
    have e3 : s.nextId = N0 + (s.nextId - N0) := by omega
    have e4 : (resolveMerges c t prev 10 (cur, s)).2.nextId - N0
        = (s.nextId - N0) + ((resolveMerges c t prev 10 (cur, s)).2.nextId - s.nextId) := by omega
    rw [e4, ← List.range'_append_1, ← e3]

/-- Two frames label the same cells. -/
def SameSupport (f g : Frame n) : Prop := ∀ i, 0 < g i ↔ 0 < f i

theorem chunkLoop_inv (c : TrackCfg n) (hc : PartitionOK c) (N0 : Nat) (rest : List (Frame n)) :
    ∀ (pre done post : List (Frame n)) (last2 last1 : Frame n) (t : Nat) (s : SMState),
      t = pre.length + done.length + 1 →
      Inv c.w N0 (pre ++ (done.reverse ++ last1 :: rest) ++ post) t s →
      ∃ out, (chunkLoop c t last2 last1 done false rest s).1 = out ∧
        Inv c.w N0 (pre ++ out ++ post) (t + rest.length) (chunkLoop c t last2 last1 done false rest s).2 ∧
        List.Forall₂ SameSupport (done.reverse ++ last1 :: rest) out := by
  induction rest with
  | nil =>
    intro pre done post last2 last1 t s ht h
    refine ⟨_, rfl, ?_⟩
    rw [chunkLoop]
    simp only [Bool.false_eq_true, if_false, List.length_nil, Nat.add_zero]
    split
    · rename_i hd
      rw [List.isEmpty_iff] at hd
      subst hd
      exact ⟨by simpa using h, by simp [SameSupport]⟩
    · have h' : Inv c.w N0 ((pre ++ done.reverse) ++ last1 :: post) t s := by simpa using h
      obtain ⟨h1, h2⟩ := h'.consolidate (by simp [ht]) last2
      refine ⟨by simpa using h1, ?_⟩
      simp only [List.reverse_cons]
      refine List.rel_append (List.forall₂_same.mpr ?_) (List.Forall₂.cons h2 List.Forall₂.nil)
      intro x _ i; exact Iff.rfl
  | cons cur rest ih =>
    intro pre done post last2 last1 t s ht h
    refine ⟨_, rfl, ?_⟩
    rw [chunkLoop]
    simp only [Bool.false_eq_true, if_false]
    have h' : Inv c.w N0 ((pre ++ done.reverse) ++ last1 :: (cur :: rest ++ post)) t s := by simpa using h
    obtain ⟨h1, h2⟩ := h'.consolidate (by simp [ht]) last2
    have h1' : Inv c.w N0 ((pre ++ done.reverse ++ [(consolidate c last2 last1 s.props).1]) ++ cur :: (rest ++ post)) t
        { s with props := (consolidate c last2 last1 s.props).2 } := by simpa using h1
    obtain ⟨h3, h4⟩ := h1'.step hc (prev := (consolidate c last2 last1 s.props).1) (by simp [ht]; omega) (Or.inr (by simp))
    obtain ⟨out, he, h5, h6⟩ := ih pre ((consolidate c last2 last1 s.props).1 :: done) post
      (consolidate c last2 last1 s.props).1
      (processStep c t (consolidate c last2 last1 s.props).1 cur { s with props := (consolidate c last2 last1 s.props).2 }).1
      (t + 1)
      (processStep c t (consolidate c last2 last1 s.props).1 cur { s with props := (consolidate c last2 last1 s.props).2 }).2
      (by simp [ht]; omega) (by simpa using h3)
    rw [he]
    refine ⟨?_, ?_⟩
    · have : t + (cur :: rest).length = t + 1 + rest.length := by simp; omega
      rw [this]; exact h5
    · have hh : List.Forall₂ SameSupport (done.reverse ++ last1 :: cur :: rest)
          (((consolidate c last2 last1 s.props).1 :: done).reverse ++
            (processStep c t (consolidate c last2 last1 s.props).1 cur
              { s with props := (consolidate c last2 last1 s.props).2 }).1 :: rest) := by
        simp only [List.reverse_cons, List.append_assoc, List.cons_append, List.nil_append]
        refine List.rel_append (List.forall₂_same.mpr (fun x _ i => Iff.rfl)) ?_
        exact List.Forall₂.cons h2 (List.Forall₂.cons h4 (List.forall₂_same.mpr (fun x _ i => Iff.rfl)))
      clear h5 he ih
      revert hh h6
      generalize (done.reverse ++ last1 :: cur :: rest) = l1
      generalize (((consolidate c last2 last1 s.props).1 :: done).reverse ++
            (processStep c t (consolidate c last2 last1 s.props).1 cur
              { s with props := (consolidate c last2 last1 s.props).2 }).1 :: rest) = l2
      intro hb ha
      clear h1 h1' h2 h3 h4 h h'
      induction ha generalizing out with
      | nil => cases hb; exact List.Forall₂.nil
      | cons hx _ ih2 =>
        cases hb with
        | cons hy hys => exact List.Forall₂.cons (fun i => (hy i).trans (hx i)) (ih2 _ hys)

theorem forall₂_support_trans {a b d : List (Frame n)} (h1 : List.Forall₂ SameSupport a b) (h2 : List.Forall₂ SameSupport b d) :
    List.Forall₂ SameSupport a d := by
  induction h1 generalizing d with
  | nil => cases h2; exact List.Forall₂.nil
  | cons hx _ ih2 =>
    cases h2 with
    | cons hy hys => exact List.Forall₂.cons (fun i => (hy i).trans (hx i)) (ih2 hys)

theorem forall₂_support_refl (a : List (Frame n)) : List.Forall₂ SameSupport a a :=
  List.forall₂_same.mpr (fun _ _ _ => Iff.rfl)

theorem chunk_inv (c : TrackCfg n) (hc : PartitionOK c) (N0 : Nat) (ch pre post : List (Frame n)) (last2 last1 : Frame n)
    (t : Nat) (s : SMState) (ht : t = pre.length) (hprev : last1 = zeroFrame ∨ pre.getLast? = some last1)
    (h : Inv c.w N0 (pre ++ ch ++ post) t s) :
    Inv c.w N0 (pre ++ (chunkLoop c t last2 last1 [] true ch s).1 ++ post) (t + ch.length)
      (chunkLoop c t last2 last1 [] true ch s).2 ∧
    List.Forall₂ SameSupport ch (chunkLoop c t last2 last1 [] true ch s).1 := by
  cases ch with
  | nil => rw [chunkLoop]; simpa using h
  | cons cur rest =>
    rw [chunkLoop]
    simp only [if_true]
    have h' : Inv c.w N0 (pre ++ cur :: (rest ++ post)) t s := by simpa using h
    obtain ⟨h1, h2⟩ := h'.step hc ht hprev
    obtain ⟨out, he, h3, h4⟩ := chunkLoop_inv c hc N0 rest pre [] post last1 (processStep c t last1 cur s).1 (t + 1)
      (processStep c t last1 cur s).2 (by simp [ht]) (by simpa using h1)
    rw [he]
    refine ⟨?_, ?_⟩
    · have : t + (cur :: rest).length = t + 1 + rest.length := by simp; omega
      rw [this]; exact h3
    · exact forall₂_support_trans (List.Forall₂.cons h2 (forall₂_support_refl rest)) h4

theorem chunksLoop_inv (c : TrackCfg n) (hc : PartitionOK c) (N0 : Nat) (chs : List (List (Frame n))) :
    ∀ (pre prev : List (Frame n)) (t : Nat) (s : SMState), t = pre.length → (∃ q, pre = q ++ prev) →
      Inv c.w N0 (pre ++ chs.flatten) t s →
      Inv c.w N0 (pre ++ (chunksLoop c t prev chs s).1) (t + chs.flatten.length) (chunksLoop c t prev chs s).2 ∧
      List.Forall₂ SameSupport chs.flatten (chunksLoop c t prev chs s).1 := by
  induction chs with
  | nil => intro pre prev t s _ _ h; simpa [chunksLoop] using h
  | cons ch chs ih =>
    intro pre prev t s ht hq h
    rw [chunksLoop]
    dsimp only
    obtain ⟨q, hq⟩ := hq
    have hprev : prev.getLast?.getD zeroFrame = zeroFrame ∨ pre.getLast? = some (prev.getLast?.getD zeroFrame) := by
      cases hl : prev.getLast? with
      | none => left; rfl
      | some x => right; rw [hq, List.getLast?_append, hl]; rfl
    obtain ⟨h1, h2⟩ := chunk_inv c hc N0 ch pre chs.flatten (prev.dropLast.getLast?.getD zeroFrame)
      (prev.getLast?.getD zeroFrame) t s ht hprev (by simpa using h)
    generalize hr : chunkLoop c t (prev.dropLast.getLast?.getD zeroFrame) (prev.getLast?.getD zeroFrame) [] true ch s = r at h1 h2
    have hlen : r.1.length = ch.length := h2.length_eq.symm
    obtain ⟨h3, h4⟩ := ih (pre ++ r.1) r.1 (t + ch.length) r.2 (by simp [ht, hlen]) ⟨pre, rfl⟩ h1
    refine ⟨?_, ?_⟩
    · rw [List.flatten_cons, List.length_append, ← Nat.add_assoc, ← List.append_assoc]; exact h3
    · rw [List.flatten_cons]; exact List.rel_append h2 h4

theorem le_firstNewId_aux (p : List Obj) (m : Nat) : m ≤ p.foldl (fun m o => max m o.id) m ∧
    ∀ o ∈ p, o.id ≤ p.foldl (fun m o => max m o.id) m := by
  induction p generalizing m with
  | nil => simp
  | cons a p ih =>
    rw [List.foldl_cons]
    obtain ⟨h1, h2⟩ := ih (max m a.id)
    refine ⟨le_trans (le_max_left _ _) h1, ?_⟩
    intro o ho
    rcases List.mem_cons.mp ho with rfl | ho
    · exact le_trans (le_max_right _ _) h1
    · exact h2 o ho

theorem lt_firstNewId {p : List Obj} {k : Nat} (h : hasId p k = true) : k < firstNewId p := by
  unfold hasId at h
  rw [List.any_eq_true] at h
  obtain ⟨o, ho, hk⟩ := h
  rw [beq_iff_eq] at hk
  have := (le_firstNewId_aux p 0).2 o ho
  unfold firstNewId
  omega

end MarEx
