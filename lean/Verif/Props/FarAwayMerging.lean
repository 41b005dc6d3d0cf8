import Verif.Props.LeftOut
import Verif.Props.FarAway
/-! C199 on grids with `allow_merging = True`. -/
namespace MarEx.Props
open MarEx Spec

/-- A group of events keeps to itself in the second run when the extremes far from all its cells are changed. -/
theorem far_ownGroup {ny nx : Nat} (cc : Labeller) (hcc : CorrectLabeller cc) (hnx : 0 < nx) (p : GridRun ny nx)
    (wrap nn : Bool) (thr : ℚ) (cen : Frame (ny * nx) → Nat → ℚ × ℚ) (ht : p.track = gridCfg wrap nn ny nx thr cen)
    (hT : p.T % 2 = 0) (a : ℚ) (hc : p.criterion = .absolute a) (data data' : List (Fin (ny * nx) → Bool)) (hlen : data.length = data'.length)
    (chunks : List Nat) (pre pre' : List (Fin (ny * nx) → Bool)) (ids ids' : List (Frame (ny * nx)))
    (h : runGrid cc p chunks data = .ok (pre, ids)) (h' : runGrid cc p chunks data' = .ok (pre', ids'))
    (group : List (Fin (ny * nx) → Bool)) (hgr : OwnGroup p.regional nx pre group)
    (hsame : ∀ u j, IsExtreme group u j → SameWithin p.regional ny nx (6 * p.R + ⌈a⌉₊ + 1) data data' j)
    (s s' : Nat) (k k' : Fin (ny * nx)) (hk : IsExtreme pre s k) (hk' : IsExtreme pre' s' k')
    (hs : ∀ u j, IsExtreme group u j → s + 1 < u ∧ s' + 1 < u) : OwnGroup p.regional nx pre' group := by
  classical
  have l1 := (C65_grid_run cc hcc hnx p wrap nn thr cen ht chunks _ pre ids h).1
  have l1' := (C65_grid_run cc hcc hnx p wrap nn thr cen ht chunks _ pre' ids' h').1
  obtain ⟨r, hr, rfl⟩ := runGrid_parts h
  obtain ⟨r', hr', rfl⟩ := runGrid_parts h'
  unfold preprocessGrid at hr hr'
  rw [hc] at hr hr'
  have hloc := fun i hi => fillStagesGrid_local p hT data data' hlen i hi
  set F := fillStagesGrid p data with hF
  set F' := fillStagesGrid p data' with hF'
  have sub : ∀ {F : List (Fin (ny * nx) → Bool)} {r : FilterResult (ny * nx)},
      filterGrid (.absolute a) (identifyObjectsGrid cc false p.regional nx F) = .ok r → ∀ {s k}, IsExtreme r.field s k → IsExtreme F s k := by
    intro F r hr s k hx
    obtain ⟨hl, hsub⟩ := filterGrid_sub hr
    obtain ⟨d, hd, hdk⟩ := hx
    have hsl : s < (identifyObjectsGrid cc false p.regional nx F).length := by rw [← hl]; exact (List.getElem?_eq_some_iff.1 hd).1
    have hg := List.getElem?_eq_getElem hsl
    exact ((C63_grid_objects_are_components cc hcc p.regional nx hnx F s s _ _ hg hg k k).1).1 (hsub s _ d hg hd k hdk)
  have hsk : IsExtreme F s k := sub hr hk
  have hsk' : IsExtreme F' s' k' := sub hr' hk'
  have kept := fun v (hv : s < v) j => kept_iff_cluster cc hcc hnx p.regional a F r hr v s hv k hsk j
  have kept' := fun v (hv : s' < v) j => kept_iff_cluster cc hcc hnx p.regional a F' r' hr' v s' hv k' hsk' j
  -- around a cell of the group the two preprocessed fields agree
  have key : ∀ u i₁, IsExtreme group u i₁ → ∀ (v : Nat) j, ((v = u ∧ Touch p.regional nx i₁ j) ∨ (((u : Int) - v).natAbs ≤ 1 ∧ j = i₁)) →
      (IsExtreme r.field v j ↔ IsExtreme r'.field v j) := by
    intro u i₁ he v j hj
    obtain ⟨h1, h2⟩ := hs u i₁ he
    have hv : s < v ∧ s' < v := by rcases hj with ⟨e, -⟩ | ⟨e, -⟩ <;> omega
    have hbox : InBox p.regional ny nx 1 i₁ j := by
      rcases hj with ⟨-, hj⟩ | ⟨-, rfl⟩
      · exact touch_inBox hj
      · exact inBox_refl _ _ _
    have near : ∀ d x, d ≤ ⌈a⌉₊ + 1 → InBox p.regional ny nx d i₁ x → (IsExtreme F v x ↔ IsExtreme F' v x) := by
      intro d x hd hx
      exact hloc x (fun w y hy => hsame u i₁ he w y (inBox_mono (inBox_trans hx hy) (by omega))) v
    have hFj := near 1 j (by omega) hbox
    have same : (∀ x, Linked (JoinedInStep p.regional nx F v) j x ↔ Linked (JoinedInStep p.regional nx F' v) j x) →
        (IsExtreme r.field v j ↔ IsExtreme r'.field v j) := by
      intro hx
      rw [kept v hv.1, kept' v hv.2, hFj]
      simp only [hx]
    by_cases hp : IsExtreme r.field v j
    · refine same (same_object hnx fun x hx y hy => ?_)
      obtain ⟨hFx, hcard⟩ := (kept v hv.1 j).1 hp
      have hkept : ∀ z, Linked (JoinedInStep p.regional nx F v) j z → IsExtreme r.field v z := by
        intro z hz
        refine (kept v hv.1 z).2 ⟨linked_last (P := IsExtreme F v) (fun x y hxy => hxy.2) hFx hz, ?_⟩
        have : ∀ y, Linked (JoinedInStep p.regional nx F v) z y ↔ Linked (JoinedInStep p.regional nx F v) j y :=
          fun y => ⟨fun hy => hz.trans hy, fun hy => hz.symm.trans hy⟩
        simp only [this]
        exact hcard
      have hj' : IsExtreme group v j := by
        rcases hj with ⟨rfl, hj⟩ | ⟨huv, rfl⟩
        · exact (hgr.objects v i₁ j hj (hgr.sub _ _ he) hp).1 he
        · rcases (by omega : v = u ∨ v = u + 1 ∨ u = v + 1) with rfl | rfl | rfl
          · exact he
          · exact (hgr.cells u j (hgr.sub _ _ he) hp).1 he
          · exact (hgr.cells v j hp (hgr.sub _ _ he)).2 he
      have hlink : ∀ z, Linked (JoinedInStep p.regional nx F v) j z → IsExtreme group v z := by
        intro z hz
        induction hz with
        | refl => exact hj'
        | fwd h1 e ih => exact (hgr.objects v _ _ e.1 (hkept _ h1) (hkept _ (.fwd h1 e))).1 ih
        | bwd h1 e ih => exact (hgr.objects v _ _ e.1 (hkept _ (.bwd h1 e)) (hkept _ h1)).2 ih
      have hxy : InBox p.regional ny nx 1 x y := by
        rcases hy with rfl | hy
        · exact inBox_refl _ _ _
        · exact touch_inBox hy
      exact hloc y (fun w z hz => hsame v x (hlink x hx) w z (inBox_mono (inBox_trans hxy hz) (by omega))) v
    · by_cases hFx : IsExtreme F v j
      · refine same (same_object hnx fun x hx y hy => ?_)
        have hsmall : ((Finset.univ.filter fun z => Linked (JoinedInStep p.regional nx F v) j z).card : ℚ) < a := by
          by_contra hge
          exact hp ((kept v hv.1 j).2 ⟨hFx, not_lt.1 hge⟩)
        have hch := chain_inBox hnx (chain_of_linked rfl hx)
        have hlt : (Finset.univ.filter fun z => Linked (JoinedInStep p.regional nx F v) j z).card < ⌈a⌉₊ := Nat.lt_ceil.2 hsmall
        have hxy : InBox p.regional ny nx 1 x y := by
          rcases hy with rfl | hy
          · exact inBox_refl _ _ _
          · exact touch_inBox hy
        exact near _ y (by omega) (inBox_trans (inBox_trans hbox hch) hxy)
      · rw [kept v hv.1, kept' v hv.2, ← hFj]
        simp only [hFx, false_and]
  -- so the group keeps to itself in the second run too
  have at_ : ∀ v x, IsExtreme group v x → (IsExtreme r.field v x ↔ IsExtreme r'.field v x) := fun v x hx => key v x hx v x (.inr ⟨by simp, rfl⟩)
  refine ⟨by rw [hgr.length, l1, l1', hlen], fun t i hx => (at_ t i hx).1 (hgr.sub _ _ hx), ?_, ?_⟩
  · have one : ∀ t i j, Touch p.regional nx i j → IsExtreme r'.field t j → IsExtreme group t i → IsExtreme group t j := by
      intro t i j hij hj hg
      exact (hgr.objects t i j hij (hgr.sub _ _ hg) ((key t i hg t j (.inl ⟨rfl, hij⟩)).2 hj)).1 hg
    intro t i j hij hi hj
    exact ⟨one t i j hij hj, one t j i (touch_symm hnx hij) hi⟩
  · intro t i hi hj
    constructor
    · intro hg
      exact (hgr.cells t i (hgr.sub _ _ hg) ((key t i hg (t + 1) i (.inr ⟨by omega, rfl⟩)).2 hj)).1 hg
    · intro hg
      exact (hgr.cells t i ((key (t + 1) i hg t i (.inr ⟨by omega, rfl⟩)).2 hi) (hgr.sub _ _ hg)).2 hg

/-- **C199** (partial), structured grids with `allow_merging = True` and `area_filter_absolute = a`. Take a group of events of a run: preprocessed extremes
that never meet the rest (no object of both, no cell of both at consecutive steps). Change the extremes of the record as you like, at any steps, at cells that
lie more than `6 R_fill + ⌈a⌉ + 1` rows or columns from every cell of the group. The events of the group are the same in the second run: the same cells at the
same steps, none besides, through all splits and merges. Missing: single events that share cells with others (`C199_overlap_fails`),
`area_filter_quartile` (`C199_quartile_fails`), groups that begin before both runs have had another object (C07), and meshes
(`C199_mesh_far_away_partial`). -/
theorem C199_far_away_merging_partial {ny nx : Nat} (cc : Labeller) (hcc : CorrectLabeller cc) (hord : NumbersInOrder cc) (hnx : 0 < nx) (p : GridRun ny nx)
    (hm : p.allowMerging = true) (wrap nn : Bool) (thr : ℚ) (cen : Frame (ny * nx) → Nat → ℚ × ℚ) (hcen : OfCells cen)
    (ht : p.track = gridCfg wrap nn ny nx thr cen)
    (hT : p.T % 2 = 0) (a : ℚ) (hc : p.criterion = .absolute a) (data data' : List (Fin (ny * nx) → Bool)) (hlen : data.length = data'.length)
    (chunks : List Nat) (pre pre' : List (Fin (ny * nx) → Bool)) (ids ids' : List (Frame (ny * nx)))
    (h : runGrid cc p chunks data = .ok (pre, ids)) (h' : runGrid cc p chunks data' = .ok (pre', ids'))
    (group : List (Fin (ny * nx) → Bool)) (hgr : OwnGroup p.regional nx pre group)
    (hsame : ∀ u j, IsExtreme group u j → SameWithin p.regional ny nx (6 * p.R + ⌈a⌉₊ + 1) data data' j)
    (s s' : Nat) (k k' : Fin (ny * nx)) (hk : IsExtreme pre s k) (hk' : IsExtreme pre' s' k')
    (hs : ∀ u j, IsExtreme group u j → s + 1 < u ∧ s' + 1 < u) (t : Nat) (i : Fin (ny * nx)) (hi : IsExtreme group t i) (u : Nat) (j : Fin (ny * nx)) :
    SameEvent ids t i u j ↔ SameEvent ids' t i u j := by
  have hids : ∀ {data pre ids}, runGrid cc p chunks data = .ok (pre, ids) → ids = trackingGrid cc p chunks pre := by
    intro data pre ids h
    unfold runGrid at h
    split at h
    · cases h
    · cases h; rfl
  have hgr' := far_ownGroup cc hcc hnx p wrap nn thr cen ht hT a hc data data' hlen chunks pre pre' ids ids' h h' group hgr hsame s s' k k' hk hk' hs
  rw [hids h, hids h', ← (C204_group_tracked_alone cc hcc hord hnx p hm wrap nn thr cen hcen ht chunks _ _ hgr).2 t i u j hi,
    ← (C204_group_tracked_alone cc hcc hord hnx p hm wrap nn thr cen hcen ht chunks _ _ hgr').2 t i u j hi]

/-- From step 2 on, cells 0 and 2 merge and cell 2 stays; cells 6 and 8 are extreme at first. -/
def nearMerge : List (Fin (1 * 9) → Bool) :=
  [fun i => i.val == 6 || i.val == 8, fun _ => false, fun i => i.val == 0 || i.val == 2, fun i => decide (i.val ≤ 2), fun i => i.val == 2]

/-- The same, with further extremes three and more columns away. -/
def nearMergeFar : List (Fin (1 * 9) → Bool) :=
  [fun i => i.val == 6 || i.val == 8, fun i => i.val == 7, fun i => i.val == 0 || i.val == 2 || i.val == 5 || i.val == 7, fun i => decide (i.val ≠ 3 ∧ i.val ≠ 4),
    fun i => i.val == 2 || i.val == 7]

theorem nearMerge_far (i : Fin (1 * 9)) (hi : i.val ≤ 2) : SameWithin true 1 9 2 nearMerge nearMergeFar i := by
  rintro t j ⟨dy, dx, -, hdx, -, hc⟩
  have hj : j.val < 5 := by
    have h9 : j.val < 9 := j.isLt
    rw [Nat.mod_eq_of_lt h9, Nat.mod_eq_of_lt (by omega)] at hc
    unfold moved at hc
    rw [if_pos rfl] at hc
    omega
  unfold IsExtreme
  match t with
  | 0 => rfl
  | 1 | 2 | 3 | 4 => simp [nearMerge, nearMergeFar]; omega
  | t + 5 => simp [nearMerge, nearMergeFar]

-- non-vacuity: the group of the cells 0 to 4; cells 0 and 2 are different events that share the object of step 3
example : ∃ pre ids pre' ids', runGrid quickFind (rowRun 9 true (1 / 3)) [2, 3] nearMerge = .ok (pre, ids) ∧
    runGrid quickFind (rowRun 9 true (1 / 3)) [2, 3] nearMergeFar = .ok (pre', ids') ∧ ids ≠ ids' ∧
    OwnGroup true 9 pre (within (fun i => decide (i.val ≤ 4)) pre) ∧
    (∀ u j, IsExtreme (within (fun i => decide (i.val ≤ 4)) pre) u j →
      SameWithin true 1 9 (6 * 0 + ⌈(1 : ℚ)⌉₊ + 1) nearMerge nearMergeFar j ∧ 0 + 1 < u) ∧
    IsExtreme pre 0 8 ∧ IsExtreme pre' 0 8 ∧ IsExtreme (within (fun i => decide (i.val ≤ 4)) pre) 3 1 ∧
    SameEvent ids' 2 2 3 2 ∧ SameEvent ids' 2 0 3 0 ∧ ¬ SameEvent ids' 3 0 3 2 := by
  have h1 : (match runGrid quickFind (rowRun 9 true (1 / 3)) [2, 3] nearMerge with
    | .ok ([a, b, c, d, e], [_, b', _, _, _]) => decide ((∀ i, i.val ≤ 4 → a i = false ∧ b i = false) ∧ a 8 = true ∧ d 1 = true ∧
        ∀ f ∈ [a, b, c, d, e], f 3 = false ∧ f 4 = false) && decide (b' 7 = 0)
    | _ => false) = true := by decide +kernel
  have h2 : (match runGrid quickFind (rowRun 9 true (1 / 3)) [2, 3] nearMergeFar with
    | .ok (a :: _, [_, b', c, d, _]) => decide (a 8 = true ∧ 0 < b' 7 ∧ 0 < c 2 ∧ c 2 = d 2 ∧ 0 < c 0 ∧ c 0 = d 0 ∧ d 0 ≠ d 2) | _ => false) = true := by decide +kernel
  split at h1
  · rename_i a b c d e v b' w x y hr
    split at h2
    · rename_i a₂ l v₂ b₂ c₂ d₂ y₂ hr'
      rw [Bool.and_eq_true] at h1
      obtain ⟨k1, k2, k3, k4⟩ := of_decide_eq_true h1.1
      have kb := of_decide_eq_true h1.2
      obtain ⟨m1, mb, m2, m3, m4, m5, m6⟩ := of_decide_eq_true h2
      have low : ∀ u j, IsExtreme (within (fun i => decide (i.val ≤ 4)) [a, b, c, d, e]) u j → j.val ≤ 2 ∧ 1 < u := by
        intro u j hx
        obtain ⟨⟨f, hf, hj⟩, h4⟩ := (isExtreme_within _ _ u j).mp hx
        have h4 := of_decide_eq_true h4
        have n := k4 f (List.mem_of_getElem? hf)
        refine ⟨?_, ?_⟩
        · by_contra hlt
          rcases (by omega : j.val = 3 ∨ j.val = 4) with e | e
          · rw [show j = 3 from Fin.ext e, n.1] at hj; cases hj
          · rw [show j = 4 from Fin.ext e, n.2] at hj; cases hj
        · match u with
          | 0 => cases hf; rw [(k1 j h4).1] at hj; cases hj
          | 1 => cases hf; rw [(k1 j h4).2] at hj; cases hj
          | u + 2 => omega
      refine ⟨_, _, _, _, hr, hr', ?_, ownGroup_within _ _ ?_, ?_, ⟨a, rfl, k2⟩, ⟨a₂, rfl, m1⟩, ?_, ⟨c₂, d₂, rfl, rfl, m2, m3⟩, ⟨c₂, d₂, rfl, rfl, m4, m5⟩, ?_⟩
      · intro e
        simp only [List.cons.injEq] at e
        rw [e.2.1] at kb
        omega
      · intro f hf i j hij hi hj
        have n := k4 f hf
        have h9 : i.val < 9 := i.isLt
        have h9' : j.val < 9 := j.isLt
        have n4 : i.val ≠ 4 := fun e => by rw [show i = 4 from Fin.ext e, n.2] at hi; cases hi
        have n4' : j.val ≠ 4 := fun e => by rw [show j = 4 from Fin.ext e, n.2] at hj; cases hj
        obtain ⟨-, dx, hdx, hc⟩ := hij
        rw [Nat.mod_eq_of_lt h9, Nat.mod_eq_of_lt h9', if_pos rfl] at hc
        rw [decide_eq_decide]
        omega
      · intro u j hx
        obtain ⟨h1, h2⟩ := low u j hx
        refine ⟨?_, by omega⟩
        have := nearMerge_far j h1
        simpa using this
      · exact (isExtreme_within _ _ 3 1).mpr ⟨⟨d, rfl, k3⟩, by decide⟩
      · rintro ⟨f, g, hf, hg, -, he⟩
        cases hf
        cases hg
        exact m6 he
    · cases h2
  · cases h1

end MarEx.Props
