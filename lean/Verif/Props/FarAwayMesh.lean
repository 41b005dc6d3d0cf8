import Verif.Props.SeparateMesh
import Verif.Props.FarAway
/-! C205: groups of objects that never meet, on meshes; C199 on meshes. -/
namespace MarEx.Spec

variable {n : Nat}

/-- Two records have the same extremes, at all steps, at the cells up to `d` neighbour hops from cell `i`. -/
def SameWithinHops (nbr : NbrTable n) (d : Nat) (data data' : List (Fin n → Bool)) (i : Fin n) : Prop :=
  ∀ t j, WithinHops nbr d i j → (IsExtreme data t j ↔ IsExtreme data' t j)

/-- The extremes of `part` are a group of the extremes of `whole` that never meets the rest: no object (neighbouring cells of one step) lies in both, and no
cell belongs to the group at one step and to the rest at the next. -/
structure OwnMeshGroup (nbr : NbrTable n) (whole part : List (Fin n → Bool)) : Prop where
  length : part.length = whole.length
  sub : ∀ t i, IsExtreme part t i → IsExtreme whole t i
  objects : ∀ t i j, ListsNeighbour nbr i j → IsExtreme whole t i → IsExtreme whole t j → (IsExtreme part t i ↔ IsExtreme part t j)
  cells : ∀ t i, IsExtreme whole t i → IsExtreme whole (t + 1) i → (IsExtreme part t i ↔ IsExtreme part (t + 1) i)

end MarEx.Spec

namespace MarEx.Props
open MarEx Spec

variable {n : Nat}

/-! ### Objects of a group -/

/-- Neighbouring sea cells that are both extreme at step `t`. -/
def MeshJoined (nbr : NbrTable n) (mask : Fin n → Bool) (D : List (Fin n → Bool)) (t : Nat) (a b : Fin n) : Prop :=
  ListsNeighbour nbr a b ∧ (IsExtreme D t a ∧ mask a = true) ∧ (IsExtreme D t b ∧ mask b = true)

theorem identifyMesh_iff (cc : Labeller) (hcc : CorrectLabeller cc) (nbr : NbrTable n) (mask : Fin n → Bool) (D : List (Fin n → Bool)) {t : Nat}
    {d : Fin n → Bool} (hd : D[t]? = some d) (i j : Fin n) :
    (0 < identifyObjectsMesh cc nbr mask d i ↔ IsExtreme D t i ∧ mask i = true) ∧
    (0 < identifyObjectsMesh cc nbr mask d i →
      (identifyObjectsMesh cc nbr mask d i = identifyObjectsMesh cc nbr mask d j ↔ Linked (MeshJoined nbr mask D t) i j)) := by
  have hx : ∀ i, (mask i && d i) = true ↔ IsExtreme D t i ∧ mask i = true := by
    intro i
    unfold IsExtreme
    rw [hd]
    simp [and_comm]
  have hE : Adjacent nbr (fun i => mask i && d i) = MeshJoined nbr mask D t := by
    funext a b
    unfold Adjacent MeshJoined
    dsimp only
    rw [hx, hx]
  rw [identifyObjectsMesh_eq, identifyObjectsMesh_eq, clusterTrueValues_pos, hx]
  refine ⟨Iff.rfl, fun h0 => ?_⟩
  rw [← hE]
  have hi : (fun i => mask i && d i) i = true := (hx i).2 h0
  constructor
  · intro he
    have hj : (fun i => mask i && d i) j = true := clusterTrueValues_pos.1 (he ▸ clusterTrueValues_pos.2 hi)
    exact (clusterTrueValues_same hcc hi hj).1 he
  · intro hl
    have hj : (fun i => mask i && d i) j = true := linked_last (P := fun i => (fun i => mask i && d i) i = true) (fun x y hxy => hxy.2) hi hl
    exact (clusterTrueValues_same hcc hi hj).2 hl

theorem objectFieldMesh_iff (cc : Labeller) (hcc : CorrectLabeller cc) (nbr : NbrTable n) (mask : Fin n → Bool) (D : List (Fin n → Bool)) {t : Nat}
    {f : Fin n → Nat} (hf : (objectFieldMesh cc nbr mask D)[t]? = some f) (i j : Fin n) :
    (0 < f i ↔ IsExtreme D t i ∧ mask i = true) ∧ (0 < f i → (f i = f j ↔ Linked (MeshJoined nbr mask D t) i j)) := by
  unfold objectFieldMesh at hf
  have ht : t < D.length := by
    have := (List.getElem?_eq_some_iff.1 hf).1
    rwa [length_uniqueAcrossTime, List.length_map] at this
  have hd := List.getElem?_eq_getElem ht
  obtain ⟨k, -, hk⟩ := uniqueAcrossTime_get 0 (D.map (identifyObjectsMesh cc nbr mask)) t _ (by rw [List.getElem?_map, hd]; rfl)
  rw [hf, Option.some.injEq] at hk
  subst hk
  obtain ⟨h1, h2⟩ := identifyMesh_iff cc hcc nbr mask D hd i j
  rw [← h1]
  dsimp only
  constructor
  · split <;> omega
  · intro h0
    have hi : 0 < identifyObjectsMesh cc nbr mask D[t] i := by
      by_contra hn
      rw [if_neg hn] at h0
      omega
    rw [← h2 hi, if_pos hi]
    split <;> omega

theorem objectFieldMesh_get (cc : Labeller) (nbr : NbrTable n) (mask : Fin n → Bool) {D : List (Fin n → Bool)} {t : Nat} {i : Fin n} (h : IsExtreme D t i) :
    ∃ f, (objectFieldMesh cc nbr mask D)[t]? = some f := by
  obtain ⟨d, hd, -⟩ := h
  have : t < (objectFieldMesh cc nbr mask D).length := by
    unfold objectFieldMesh
    rw [length_uniqueAcrossTime, List.length_map]
    exact (List.getElem?_eq_some_iff.1 hd).1
  exact ⟨_, List.getElem?_eq_getElem this⟩

/-! ### Links of a group -/

/-- At the voxels `G` two records have the same objects, under other IDs; the objects lie in `G` and overlap nothing outside. -/
structure SharedGroup (fs fs' : List (Fin n → Nat)) (G : Nat → Fin n → Prop) : Prop where
  same : ∀ t i, G t i → ∃ f f', fs[t]? = some f ∧ fs'[t]? = some f' ∧ 0 < f i ∧ 0 < f' i ∧ ∀ j, (f j = f i ↔ f' j = f' i) ∧ (f j = f i → G t j)
  next : ∀ t i g, G t i → fs[t + 1]? = some g → 0 < g i → G (t + 1) i
  prev : ∀ t i f, G (t + 1) i → fs[t]? = some f → 0 < f i → G t i

theorem overlap_group {w : Fin n → ℚ} {thr : ℚ} {f g f' g' : Fin n → Nat} {y : Fin n} (hf : ∀ j, f j = f y ↔ f' j = f' y) (hg : ∀ j, g j = g y ↔ g' j = g' y)
    (h0 : 0 < f' y) (h : OverlapEnough w thr f (f y) g (g y)) : OverlapEnough w thr f' (f' y) g' (g' y) := by
  refine ⟨h0, ⟨y, rfl, rfl⟩, ?_⟩
  have h2 := h.2.2
  unfold objectArea commonArea at h2 ⊢
  simp only [hf, hg] at h2
  exact h2

theorem linked_group {w : Fin n → ℚ} {thr : ℚ} {fs fs' : List (Fin n → Nat)} (hu : TimeUnique fs) {G : Nat → Fin n → Prop} (hG : SharedGroup fs fs' G)
    {t : Nat} {i : Fin n} (hi : G t i) {f f' : Fin n → Nat} (hf : fs[t]? = some f) (hf' : fs'[t]? = some f') {b : Nat}
    (h : Linked (Follows w thr fs) (f i) b) :
    ∃ u g g' x, G u x ∧ fs[u]? = some g ∧ fs'[u]? = some g' ∧ g x = b ∧ Linked (Follows w thr fs') (f' i) (g' x) := by
  induction h with
  | refl => exact ⟨t, f, f', i, hi, hf, hf', rfl, .refl _⟩
  | fwd _ he ih =>
    obtain ⟨u, g, g', x, hx, hg, hg', rfl, hL⟩ := ih
    obtain ⟨v, F, H, hF, hH, hb, hov⟩ := he
    obtain ⟨y, hy1, hy2⟩ := hov.2.1
    obtain ⟨g1, g1', e1, e1', p1, -, hsx⟩ := hG.same u x hx
    rw [hg] at e1; rw [hg'] at e1'; cases e1; cases e1'
    have hv : v = u := timeUnique_step hu hF hg (i := y) (j := x) (by rw [hy1]; exact p1) hy1
    subst hv
    rw [hg] at hF; cases hF
    have hy := ((hsx y).2 hy1)
    have hy' := hG.next v y H hy hH (by rw [hy2]; exact hb)
    obtain ⟨g2, g2', e2, e2', -, q2, hsy⟩ := hG.same v y hy
    rw [hg] at e2; rw [hg'] at e2'; cases e2; cases e2'
    obtain ⟨H1, H', e3, e3', -, q3, hsH⟩ := hG.same (v + 1) y hy'
    rw [hH] at e3; cases e3
    refine ⟨v + 1, H, H', y, hy', hH, e3', hy2, .fwd hL ⟨v, g', H', hg', e3', q3, ?_⟩⟩
    rw [← ((hsx y).1).1 hy1]
    rw [← hy1, ← hy2] at hov
    exact overlap_group (fun j => (hsy j).1) (fun j => (hsH j).1) q2 hov
  | bwd _ he ih =>
    obtain ⟨u, g, g', x, hx, hg, hg', rfl, hL⟩ := ih
    obtain ⟨v, F, H, hF, hH, hb, hov⟩ := he
    obtain ⟨y, hy1, hy2⟩ := hov.2.1
    obtain ⟨g1, g1', e1, e1', p1, p1', hsx⟩ := hG.same u x hx
    rw [hg] at e1; rw [hg'] at e1'; cases e1; cases e1'
    have hv : v + 1 = u := timeUnique_step hu hH hg (i := y) (j := x) (by rw [hy2]; exact p1) hy2
    subst hv
    rw [hg] at hH; cases hH
    have hy := ((hsx y).2 hy2)
    have hy' := hG.prev v y F hy hF (by rw [hy1]; exact hov.1)
    obtain ⟨g2, g2', e2, e2', -, q2, hsy⟩ := hG.same (v + 1) y hy
    rw [hg] at e2; rw [hg'] at e2'; cases e2; cases e2'
    obtain ⟨F1, F', e3, e3', -, q3, hsF⟩ := hG.same v y hy'
    rw [hF] at e3; cases e3
    refine ⟨v, F, F', y, hy', hF, e3', hy1, .bwd hL ⟨v, F', g', e3', hg', p1', ?_⟩⟩
    rw [← ((hsx y).1).1 hy2]
    rw [← hy1, ← hy2] at hov
    exact overlap_group (fun j => (hsF j).1) (fun j => (hsy j).1) q3 hov

theorem SharedGroup.symm {fs fs' : List (Fin n → Nat)} {G : Nat → Fin n → Prop} (h : SharedGroup fs fs' G)
    (hn : ∀ t i g, G t i → fs'[t + 1]? = some g → 0 < g i → G (t + 1) i) (hp : ∀ t i f, G (t + 1) i → fs'[t]? = some f → 0 < f i → G t i) :
    SharedGroup fs' fs G := by
  refine ⟨fun t i hi => ?_, hn, hp⟩
  obtain ⟨f, f', h1, h2, h3, h4, h5⟩ := h.same t i hi
  exact ⟨f', f, h2, h1, h4, h3, fun j => ⟨(h5 j).1.symm, fun e => (h5 j).2 ((h5 j).1.2 e)⟩⟩

/-- No merges in the whole, none in the group. -/
theorem noMerges_group {w : Fin n → ℚ} {thr : ℚ} {fs fs' : List (Fin n → Nat)} (hu' : TimeUnique fs') {G : Nat → Fin n → Prop}
    (hG : SharedGroup fs' fs G) (hall : ∀ (t : Nat) f, fs'[t]? = some f → ∀ i, 0 < f i → G t i) (hm : NoMerges w thr fs) : NoMerges w thr fs' := by
  rintro a b k ⟨t, f, g, hf, hg, hk, hov⟩ ⟨u, f2, g2, hf2, hg2, hk2, hov2⟩
  obtain ⟨x, hx1, hx2⟩ := hov.2.1
  obtain ⟨y, hy1, hy2⟩ := hov2.2.1
  have e : t + 1 = u + 1 := timeUnique_step hu' hg hg2 (i := x) (j := y) (by rw [hx2]; exact hk) (by rw [hx2, hy2])
  have e : t = u := by omega
  subst e
  rw [hf] at hf2; rw [hg] at hg2; cases hf2; cases hg2
  have one : ∀ z, 0 < f z → 0 < g z → OverlapEnough w thr f (f z) g (g z) → ∃ F H, fs[t]? = some F ∧ fs[t + 1]? = some H ∧
      (∀ j, f j = f z ↔ F j = F z) ∧ (∀ j, g j = g z ↔ H j = H z) ∧ Follows w thr fs (F z) (H z) := by
    intro z hz hz' ho
    obtain ⟨f1, F, e1, e2, -, q, hs⟩ := hG.same t z (hall t f hf z hz)
    rw [hf] at e1; cases e1
    obtain ⟨g1, H, e3, e4, -, q', hs'⟩ := hG.same (t + 1) z (hall (t + 1) g hg z hz')
    rw [hg] at e3; cases e3
    exact ⟨F, H, e2, e4, fun j => (hs j).1, fun j => (hs' j).1, t, F, H, e2, e4, q', overlap_group (fun j => (hs j).1) (fun j => (hs' j).1) q ho⟩
  subst hx1
  subst hy1
  rw [← hx2] at hov
  rw [← hy2] at hov2
  obtain ⟨F, H, hF, hH, s1, s2, r1⟩ := one x hov.1 (by omega) hov
  obtain ⟨F2, H2, hF2, hH2, s3, s4, r2⟩ := one y hov2.1 (by omega) hov2
  rw [hF] at hF2; rw [hH] at hH2; cases hF2; cases hH2
  have : H x = H y := (s4 x).1 (by rw [hx2, hy2])
  rw [this] at r1
  exact (s3 x).2 (hm _ _ _ r1 r2)

/-- A group that never meets the rest has the same objects alone. -/
theorem sharedGroup_own (cc : Labeller) (hcc : CorrectLabeller cc) (nbr : NbrTable n) (mask : Fin n → Bool) {whole part : List (Fin n → Bool)}
    (h : OwnMeshGroup nbr whole part) :
    SharedGroup (objectFieldMesh cc nbr mask whole) (objectFieldMesh cc nbr mask part) fun t i => IsExtreme part t i ∧ mask i = true := by
  refine ⟨fun t i hi => ?_, ?_, ?_⟩
  · obtain ⟨f, hf⟩ := objectFieldMesh_get cc nbr mask (h.sub t i hi.1)
    obtain ⟨f', hf'⟩ := objectFieldMesh_get cc nbr mask hi.1
    have k := fun i j => objectFieldMesh_iff cc hcc nbr mask whole hf i j
    have k' := fun i j => objectFieldMesh_iff cc hcc nbr mask part hf' i j
    have p1 := ((k i i).1).2 ⟨h.sub t i hi.1, hi.2⟩
    have p2 := ((k' i i).1).2 hi
    have stay : ∀ j, Linked (MeshJoined nbr mask whole t) i j → (IsExtreme part t j ∧ mask j = true) ∧ Linked (MeshJoined nbr mask part t) i j := by
      intro j hl
      induction hl with
      | refl => exact ⟨hi, .refl _⟩
      | fwd _ e ih =>
        have hc := (h.objects t _ _ e.1 e.2.1.1 e.2.2.1).1 ih.1.1
        exact ⟨⟨hc, e.2.2.2⟩, .fwd ih.2 ⟨e.1, ih.1, hc, e.2.2.2⟩⟩
      | bwd _ e ih =>
        have hc := (h.objects t _ _ e.1 e.2.1.1 e.2.2.1).2 ih.1.1
        exact ⟨⟨hc, e.2.1.2⟩, .bwd ih.2 ⟨e.1, ⟨hc, e.2.1.2⟩, ih.1⟩⟩
    refine ⟨f, f', hf, hf', p1, p2, fun j => ⟨?_, fun e => (stay j (((k i j).2 p1).1 e.symm)).1⟩⟩
    rw [eq_comm, (k i j).2 p1, eq_comm (a := f' j), (k' i j).2 p2]
    exact ⟨fun hl => (stay j hl).2, fun hl => hl.mono fun a b e => ⟨e.1, ⟨h.sub _ _ e.2.1.1, e.2.1.2⟩, h.sub _ _ e.2.2.1, e.2.2.2⟩⟩
  · intro t i g hi hg h0
    have := ((objectFieldMesh_iff cc hcc nbr mask whole hg i i).1).1 h0
    exact ⟨(h.cells t i (h.sub _ _ hi.1) this.1).1 hi.1, hi.2⟩
  · intro t i f hi hf h0
    have := ((objectFieldMesh_iff cc hcc nbr mask whole hf i i).1).1 h0
    exact ⟨(h.cells t i this.1 (h.sub _ _ hi.1)).2 hi.1, hi.2⟩

/-- **C205** (partial). Take away from the preprocessed field all extremes outside a group that never meets the rest (no object of both, no cell of
both at consecutive steps). If tracking the whole succeeds and nothing merges in it, tracking what is left succeeds, finds events on exactly the sea cells of
the group, and they are the events these cells had before. Missing: records with merges (`C205_merges_fails`). -/
theorem C205_mesh_group_alone_partial (cc : Labeller) (hcc : CorrectLabeller cc) (p : MeshRun n) (hw : ∀ i, 0 < p.track.w i) (whole part : List (Fin n → Bool))
    (h : OwnMeshGroup p.nbr whole part) (ids : List (Frame n)) (hids : trackingMesh cc p whole = .ok ids)
    (hm : NoMerges p.track.w p.track.thr (objectFieldMesh cc p.nbr p.mask whole)) :
    ∃ ids', trackingMesh cc p part = .ok ids' ∧
      (∀ (t : Nat) (f : Frame n), ids'[t]? = some f → ∀ i, 0 < f i ↔ IsExtreme part t i ∧ p.mask i = true) ∧
      ∀ t i u j, IsExtreme part t i → (SameEvent ids' t i u j ↔ SameEvent ids t i u j) := by
  have hG := sharedGroup_own cc hcc p.nbr p.mask h
  have hu := timeUnique_objectFieldMesh cc p.nbr p.mask whole
  have hu' := timeUnique_objectFieldMesh cc p.nbr p.mask part
  have at' : ∀ (t : Nat) f, (objectFieldMesh cc p.nbr p.mask part)[t]? = some f → ∀ i, 0 < f i ↔ IsExtreme part t i ∧ p.mask i = true :=
    fun t f hf i => (objectFieldMesh_iff cc hcc p.nbr p.mask part hf i i).1
  have hG' : SharedGroup (objectFieldMesh cc p.nbr p.mask part) (objectFieldMesh cc p.nbr p.mask whole) _ :=
    hG.symm (fun t i g _ hg h0 => (at' _ g hg i).1 h0) (fun t i f _ hf h0 => (at' _ f hf i).1 h0)
  have hm' := noMerges_group hu' hG' (fun t f hf i h0 => (at' t f hf i).1 h0) hm
  have hlen : ¬ (whole.length = 1 ∧ n ≠ 1) := by
    intro hc
    unfold trackingMesh at hids
    rw [if_pos hc] at hids
    cases hids
  have hmax := maxIter_pos hids
  obtain ⟨ids₁, h1, l1, s1⟩ := runMesh_noMerges cc hcc p hw hmax whole hlen hm
  rw [hids] at h1
  cases h1
  obtain ⟨ids', h2, l2, s2⟩ := runMesh_noMerges cc hcc p hw hmax part (by rw [h.length]; exact hlen) hm'
  refine ⟨ids', h2, fun t f hf i => ?_, fun t i u j hi => ?_⟩
  · constructor
    · intro h0
      obtain ⟨g, -, hg, -, h0', -⟩ := (s2 t t i i).1 ⟨f, f, hf, hf, h0, rfl⟩
      exact (at' t g hg i).1 h0'
    · intro hx
      obtain ⟨g, hg⟩ := objectFieldMesh_get cc p.nbr p.mask hx.1
      obtain ⟨f1, -, hf1, -, h0, -⟩ := (s2 t t i i).2 ⟨g, g, hg, hg, (at' t g hg i).2 hx, (at' t g hg i).2 hx, .refl _⟩
      rw [hf] at hf1
      cases hf1
      exact h0
  · rw [s1, s2]
    constructor
    · rintro ⟨f', g', hf', hg', p1, p2, hl⟩
      have hi' := (at' t f' hf' i).1 p1
      obtain ⟨f, f1, hf, e1, q1, -, -⟩ := hG.same t i hi'
      obtain ⟨v, g1, g, x, hx, e2, hg, e3, hL⟩ := linked_group hu' hG' hi' hf' hf hl
      have q : 0 < g1 x := by rw [e3]; exact p2
      have hv : v = u := timeUnique_step hu' e2 hg' (i := x) (j := j) q e3
      subst hv
      rw [hg'] at e2; cases e2
      obtain ⟨g2, g2', e4, e5, q4, -, hs⟩ := hG'.same v x hx
      rw [hg'] at e4; rw [hg] at e5; cases e4; cases e5
      have := (hs j).1.1 e3.symm
      obtain ⟨a1, a2, e6, e7, q6, q7, -⟩ := hG.same v x hx
      rw [hg] at e6; cases e6
      exact ⟨f, g, hf, hg, q1, by rw [this]; exact q6, by rw [this]; exact hL⟩
    · rintro ⟨f, g, hf, hg, p1, p2, hl⟩
      have hi' : IsExtreme part t i ∧ p.mask i = true := ⟨hi, (((objectFieldMesh_iff cc hcc p.nbr p.mask whole hf i i).1).1 p1).2⟩
      obtain ⟨f1, f', e1, hf', -, q1, -⟩ := hG.same t i hi'
      obtain ⟨v, g1, g', x, hx, e2, hg', e3, hL⟩ := linked_group hu hG hi' hf hf' hl
      have q : 0 < g1 x := by rw [e3]; exact p2
      have hv : v = u := timeUnique_step hu e2 hg (i := x) (j := j) q e3
      subst hv
      rw [hg] at e2; cases e2
      obtain ⟨g2, g2', e4, e5, -, q4, hs⟩ := hG.same v x hx
      rw [hg] at e4; rw [hg'] at e5; cases e4; cases e5
      have := (hs j).1.1 e3.symm
      exact ⟨f', g', hf', hg', q1, by rw [this]; exact q4, by rw [this]; exact hL⟩

/-! ### Preprocessing looks at the cells around -/

theorem fillHolesMesh_local {nbr : NbrTable n} (mask : Fin n → Bool) (R : Nat) {f f' : Fin n → Bool} {i : Fin n}
    (h : ∀ j, WithinHops nbr (4 * R) i j → f j = f' j) :
    fillHolesMesh (dilationRow nbr) mask R f i = fillHolesMesh (dilationRow nbr) mask R f' i := by
  have dil : ∀ {d : Nat} {g g' : Fin n → Bool} {i}, (∀ j, WithinHops nbr (R + d) i j → g j = g' j) →
      ∀ j, WithinHops nbr d i j → dilateMesh (dilationRow nbr) R g j = dilateMesh (dilationRow nbr) R g' j := by
    intro d g g' i h j hj
    rw [Bool.eq_iff_iff, dilateMesh_iff, dilateMesh_iff]
    refine exists_congr fun k => and_congr_left fun hk => ?_
    rw [h k ((Spec.HopsLE.trans hj hk).mono (by omega))]
  have ero : ∀ {d : Nat} {g g' : Fin n → Bool} {i}, (∀ j, WithinHops nbr (R + d) i j → g j = g' j) →
      ∀ j, WithinHops nbr d i j → erodeMesh (dilationRow nbr) R g j = erodeMesh (dilationRow nbr) R g' j := by
    intro d g g' i h j hj
    rw [Bool.eq_iff_iff, erodeMesh_iff, erodeMesh_iff]
    refine forall_congr' fun k => imp_congr_right fun hk => ?_
    rw [h k ((Spec.HopsLE.trans hj hk).mono (by omega))]
  have land : ∀ {d : Nat} {g g' : Fin n → Bool} {i}, (∀ j, WithinHops nbr d i j → g j = g' j) →
      ∀ j, WithinHops nbr d i j → setLandTrue mask g j = setLandTrue mask g' j := by
    intro d g g' i h j hj
    rw [Bool.eq_iff_iff, setLandTrue_iff, setLandTrue_iff, h j hj]
  unfold fillHolesMesh openMesh closeMesh
  have h1 := dil (d := 3 * R) (fun j hj => h j (hj.mono (by omega)))
  have h2 := ero (d := 2 * R) (fun j hj => land h1 j (hj.mono (by omega)))
  have h3 := ero (d := R) (fun j hj => land h2 j (hj.mono (by omega)))
  exact dil (d := 0) (fun j hj => h3 j (hj.mono (by omega))) i (.here _ _)

theorem mapMesh_local {nbr : NbrTable n} (mask : Fin n → Bool) (R : Nat) (data data' : List (Fin n → Bool)) (hlen : data.length = data'.length) (i : Fin n)
    (h : SameWithinHops nbr (4 * R) data data' i) (t : Nat) :
    IsExtreme (data.map (fillHolesMesh (dilationRow nbr) mask R)) t i ↔ IsExtreme (data'.map (fillHolesMesh (dilationRow nbr) mask R)) t i := by
  by_cases ht : t < data.length
  · have hd := List.getElem?_eq_getElem ht
    have hd' := List.getElem?_eq_getElem (hlen ▸ ht)
    have := fillHolesMesh_local (nbr := nbr) mask R (f := data[t]) (f' := data'[t]'(hlen ▸ ht)) (i := i) fun j hj => eq_of_extreme_iff hd hd' (h t j hj)
    unfold IsExtreme
    rw [List.getElem?_map, List.getElem?_map, hd, hd']
    simp only [Option.map_some, Option.some.injEq, exists_eq_left']
    rw [this]
  · unfold IsExtreme
    rw [List.getElem?_eq_none (by rw [List.length_map]; omega), List.getElem?_eq_none (by rw [List.length_map]; omega)]

/-- The filled record. -/
def filledMesh (p : MeshRun n) (data : List (Fin n → Bool)) : List (Fin n → Bool) :=
  fillTimeGaps (fillHolesMesh (dilationRow p.nbr) p.mask) p.T p.R (data.map (fillHolesMesh (dilationRow p.nbr) p.mask p.R))

theorem filledMesh_local (p : MeshRun n) (hT : p.T % 2 = 0) (data data' : List (Fin n → Bool)) (hlen : data.length = data'.length) (i : Fin n)
    (h : SameWithinHops p.nbr (6 * p.R) data data' i) (t : Nat) : IsExtreme (filledMesh p data) t i ↔ IsExtreme (filledMesh p data') t i := by
  unfold filledMesh fillTimeGaps
  split
  · exact mapMesh_local p.mask p.R data data' hlen i (fun t j hj => h t j (hj.mono (by omega))) t
  · refine mapMesh_local (nbr := p.nbr) p.mask (p.R / 2) _ _ (by rw [length_closeTimeGaps, length_closeTimeGaps, List.length_map, List.length_map, hlen]) i ?_ t
    intro t j hj
    refine closeTimeGaps_local p.T hT _ _ j (fun t => ?_) t
    exact mapMesh_local p.mask p.R data data' hlen j (fun t k hk => h t k ((Spec.HopsLE.trans hj hk).mono (by omega))) t

open Classical in
/-- What the absolute area filter keeps on a mesh: sea cells of clusters of more than `a` cells. -/
theorem kept_iff_mesh (cc : Labeller) (hcc : CorrectLabeller cc) (p : MeshRun n) (a : ℚ) (hc : p.criterion = .absolute a)
    (data : List (Fin n → Bool)) (r : FilterResult n) (hr : preprocessMesh cc p data = .ok r) (t : Nat) (i : Fin n) :
    IsExtreme r.field t i ↔ (IsExtreme (filledMesh p data) t i ∧ p.mask i = true) ∧
      a < ((Finset.univ.filter fun j => Linked (MeshJoined p.nbr p.mask (filledMesh p data) t) i j).card : ℚ) := by
  unfold preprocessMesh at hr
  rw [hc] at hr
  change filterMesh _ ((filledMesh p data).map _) = _ at hr
  generalize filledMesh p data = F at hr ⊢
  by_cases ht : t < F.length
  · have hd := List.getElem?_eq_getElem ht
    obtain ⟨g, hg, hgi⟩ := C08_keeps_exactly_larger _ _ r hr t _ (by rw [List.getElem?_map, hd]; rfl)
    have : IsExtreme r.field t i ↔ g i = true := by
      unfold IsExtreme
      rw [hg]
      simp
    have cf := fun j => identifyMesh_iff cc hcc p.nbr p.mask F hd i j
    rw [this, hgi, absolute_threshold_mesh hr, (cf i).1]
    refine and_congr_right fun hx => ?_
    have : size (identifyObjectsMesh cc p.nbr p.mask F[t]) (identifyObjectsMesh cc p.nbr p.mask F[t] i) =
        (Finset.univ.filter fun j => Linked (MeshJoined p.nbr p.mask F t) i j).card := by
      unfold size
      congr 1
      refine Finset.filter_congr fun j _ => ?_
      rw [eq_comm]
      exact (cf j).2 ((cf i).1.2 hx)
    rw [this]
  · have hl : r.field.length = F.length := by
      unfold filterMesh at hr
      dsimp only at hr
      split at hr
      · cases hr
      · cases hr
        dsimp only
        rw [List.length_map, List.length_map]
    constructor
    · rintro ⟨d, hd, -⟩
      have := (List.getElem?_eq_some_iff.1 hd).1
      omega
    · rintro ⟨⟨⟨d, hd, -⟩, -⟩, -⟩
      have := (List.getElem?_eq_some_iff.1 hd).1
      omega

theorem chain_withinHops {nbr : NbrTable n} (hs : SymmetricTable nbr) {mask : Fin n → Bool} {D : List (Fin n → Bool)} {t : Nat} : ∀ {k : Nat} {i j : Fin n},
    ChainOf (MeshJoined nbr mask D t) k i j → WithinHops nbr k i j
  | 0, _, _, h => h ▸ .here _ _
  | _ + 1, _, _, .inl h => (chain_withinHops hs h).weaken
  | _ + 1, _, _, .inr ⟨_, h, .inl e⟩ => (chain_withinHops hs h).trans (.hop e.1 (.here 0 _))
  | _ + 1, _, _, .inr ⟨_, h, .inr e⟩ => (chain_withinHops hs h).trans (.hop (hs _ _ e.1) (.here 0 _))

/-- Two records that agree on an object and on the cells beside it have the same object there. -/
theorem same_object_mesh {nbr : NbrTable n} (hs : SymmetricTable nbr) {mask : Fin n → Bool} {F F' : List (Fin n → Bool)} {t : Nat} {i : Fin n}
    (h : ∀ j, Linked (MeshJoined nbr mask F t) i j → ∀ k, k = j ∨ ListsNeighbour nbr j k → (IsExtreme F t k ↔ IsExtreme F' t k)) (j : Fin n) :
    Linked (MeshJoined nbr mask F t) i j ↔ Linked (MeshJoined nbr mask F' t) i j := by
  constructor
  · intro hl
    induction hl with
    | refl => exact .refl _
    | fwd h1 e ih => exact .fwd ih ⟨e.1, ⟨(h _ h1 _ (.inl rfl)).1 e.2.1.1, e.2.1.2⟩, (h _ h1 _ (.inr e.1)).1 e.2.2.1, e.2.2.2⟩
    | bwd h1 e ih => exact .bwd ih ⟨e.1, ⟨(h _ h1 _ (.inr (hs _ _ e.1))).1 e.2.1.1, e.2.1.2⟩, (h _ h1 _ (.inl rfl)).1 e.2.2.1, e.2.2.2⟩
  · intro hl
    induction hl with
    | refl => exact .refl _
    | fwd h1 e ih => exact .fwd ih ⟨e.1, ⟨(h _ ih _ (.inl rfl)).2 e.2.1.1, e.2.1.2⟩, (h _ ih _ (.inr e.1)).2 e.2.2.1, e.2.2.2⟩
    | bwd h1 e ih => exact .bwd ih ⟨e.1, ⟨(h _ ih _ (.inr (hs _ _ e.1))).2 e.2.1.1, e.2.1.2⟩, (h _ ih _ (.inl rfl)).2 e.2.2.1, e.2.2.2⟩

/-- **C199** on meshes (partial), with `area_filter_absolute = a` and a symmetric neighbour table. Take a group of events of a run: preprocessed extremes that
never meet the rest (no object of both, no cell of both at consecutive steps). Change the extremes of the record as you like, at any steps, at cells more
than `6 R_fill + ⌊a⌋ + 2` neighbour hops from every cell of the group. If nothing merges in either run, the events of the group are the same in the second
run: the same cells at the same steps, none besides. Missing: runs with merges, where IDs can be given twice (`C205_merges_fails`), and
`area_filter_quartile` (`C199_quartile_fails`). -/
theorem C199_mesh_far_away_partial (cc : Labeller) (hcc : CorrectLabeller cc) (p : MeshRun n) (hsym : SymmetricTable p.nbr) (hw : ∀ i, 0 < p.track.w i)
    (hT : p.T % 2 = 0) (a : ℚ) (hc : p.criterion = .absolute a) (data data' : List (Fin n → Bool)) (hlen : data.length = data'.length)
    (pre pre' : List (Fin n → Bool)) (ids ids' : List (Frame n)) (h : runMesh cc p data = .ok (pre, ids)) (h' : runMesh cc p data' = .ok (pre', ids'))
    (hm : NoMerges p.track.w p.track.thr (objectFieldMesh cc p.nbr p.mask pre))
    (hm' : NoMerges p.track.w p.track.thr (objectFieldMesh cc p.nbr p.mask pre'))
    (group : List (Fin n → Bool)) (hgr : OwnMeshGroup p.nbr pre group)
    (hsame : ∀ u j, IsExtreme group u j → SameWithinHops p.nbr (6 * p.R + ⌊a⌋₊ + 2) data data' j)
    (t : Nat) (i : Fin n) (hi : IsExtreme group t i) (u : Nat) (j : Fin n) :
    SameEvent ids t i u j ↔ SameEvent ids' t i u j := by
  classical
  have hids : ∀ {data pre ids}, runMesh cc p data = .ok (pre, ids) → trackingMesh cc p pre = .ok ids := by
    intro data pre ids h
    unfold runMesh at h
    split at h
    · cases h
    · split at h
      · cases h
      · cases h; assumption
  have ht := hids h
  have ht' := hids h'
  obtain ⟨r, hr, rfl⟩ := runMesh_parts h
  obtain ⟨r', hr', rfl⟩ := runMesh_parts h'
  have hlr : ∀ {data : List (Fin n → Bool)} {r : FilterResult n}, preprocessMesh cc p data = .ok r → r.field.length = data.length := by
    intro data r hr
    unfold preprocessMesh filterMesh at hr
    dsimp only at hr
    split at hr
    · cases hr
    · cases hr
      dsimp only
      rw [List.length_map, List.length_map, length_fillTimeGaps, List.length_map]
  have hloc := fun i hi => filledMesh_local p hT data data' hlen i hi
  have kept := fun v j => kept_iff_mesh cc hcc p a hc data r hr v j
  have kept' := fun v j => kept_iff_mesh cc hcc p a hc data' r' hr' v j
  set F := filledMesh p data with hF
  set F' := filledMesh p data' with hF'
  -- around a cell of the group the two preprocessed fields agree
  have key : ∀ u i₁, IsExtreme group u i₁ → ∀ (v : Nat) j, ((v = u ∧ ListsNeighbour p.nbr i₁ j) ∨ (((u : Int) - v).natAbs ≤ 1 ∧ j = i₁)) →
      (IsExtreme r.field v j ↔ IsExtreme r'.field v j) := by
    intro u i₁ he v j hj
    have hbox : WithinHops p.nbr 1 i₁ j := by
      rcases hj with ⟨-, hj⟩ | ⟨-, rfl⟩
      · exact .hop hj (.here _ _)
      · exact .here _ _
    have near : ∀ d x, d ≤ ⌊a⌋₊ + 2 → WithinHops p.nbr d i₁ x → (IsExtreme F v x ↔ IsExtreme F' v x) := by
      intro d x hd hx
      exact hloc x (fun w y hy => hsame u i₁ he w y ((Spec.HopsLE.trans hx hy).mono (by omega))) v
    have hFj := near 1 j (by omega) hbox
    have hstep : ∀ {x y : Fin n}, y = x ∨ ListsNeighbour p.nbr x y → WithinHops p.nbr 1 x y := by
      rintro x y (rfl | hy)
      · exact .here _ _
      · exact .hop hy (.here _ _)
    have same : (∀ x, Linked (MeshJoined p.nbr p.mask F v) j x ↔ Linked (MeshJoined p.nbr p.mask F' v) j x) →
        (IsExtreme r.field v j ↔ IsExtreme r'.field v j) := by
      intro hx
      rw [kept v, kept' v, hFj]
      simp only [hx]
    by_cases hp : IsExtreme r.field v j
    · refine same (same_object_mesh hsym fun x hx y hy => ?_)
      obtain ⟨hFx, hcard⟩ := (kept v j).1 hp
      have hkept : ∀ z, Linked (MeshJoined p.nbr p.mask F v) j z → IsExtreme r.field v z := by
        intro z hz
        refine (kept v z).2 ⟨linked_last (P := fun x => IsExtreme F v x ∧ p.mask x = true) (fun x y hxy => hxy.2) hFx hz, ?_⟩
        have : ∀ y, Linked (MeshJoined p.nbr p.mask F v) z y ↔ Linked (MeshJoined p.nbr p.mask F v) j y :=
          fun y => ⟨fun hy => hz.trans hy, fun hy => hz.symm.trans hy⟩
        simp only [this]
        exact hcard
      have hj' : IsExtreme group v j := by
        rcases hj with ⟨rfl, hj⟩ | ⟨huv, rfl⟩
        · exact (hgr.objects v i₁ j hj (hgr.sub _ _ he) hp).1 he
        · rcases (by omega : v = u ∨ v = u + 1 ∨ u = v + 1) with rfl | rfl | rfl
          · exact he
          · exact (hgr.cells u j (hgr.sub _ _ he) hp).1 he
          · exact (hgr.cells v j hp (hgr.sub _ _ he)).2 he
      have hlink : ∀ z, Linked (MeshJoined p.nbr p.mask F v) j z → IsExtreme group v z := by
        intro z hz
        induction hz with
        | refl => exact hj'
        | fwd h1 e ih => exact (hgr.objects v _ _ e.1 (hkept _ h1) (hkept _ (.fwd h1 e))).1 ih
        | bwd h1 e ih => exact (hgr.objects v _ _ e.1 (hkept _ (.bwd h1 e)) (hkept _ h1)).2 ih
      exact hloc y (fun w z hz => hsame v x (hlink x hx) w z ((Spec.HopsLE.trans (hstep hy) hz).mono (by omega))) v
    · by_cases hFx : IsExtreme F v j ∧ p.mask j = true
      · refine same (same_object_mesh hsym fun x hx y hy => ?_)
        have hsmall : ((Finset.univ.filter fun z => Linked (MeshJoined p.nbr p.mask F v) j z).card : ℚ) ≤ a := by
          by_contra hge
          exact hp ((kept v j).2 ⟨hFx, not_le.1 hge⟩)
        have hch := chain_withinHops hsym (chain_of_linked rfl hx)
        have hle : (Finset.univ.filter fun z => Linked (MeshJoined p.nbr p.mask F v) j z).card ≤ ⌊a⌋₊ := Nat.le_floor hsmall
        exact near _ y (by omega) (Spec.HopsLE.trans (Spec.HopsLE.trans hbox hch) (hstep hy))
      · rw [kept v, kept' v, ← hFj]
        simp only [hFx, false_and]
  -- so the group keeps to itself in the second run too
  have at_ : ∀ v x, IsExtreme group v x → (IsExtreme r.field v x ↔ IsExtreme r'.field v x) := fun v x hx => key v x hx v x (.inr ⟨by simp, rfl⟩)
  have hgr' : OwnMeshGroup p.nbr r'.field group := by
    refine ⟨by rw [hgr.length, hlr hr, hlr hr', hlen], fun t i hx => (at_ t i hx).1 (hgr.sub _ _ hx), ?_, ?_⟩
    · have one : ∀ t i j, ListsNeighbour p.nbr i j → IsExtreme r'.field t j → IsExtreme group t i → IsExtreme group t j := by
        intro t i j hij hj hg
        exact (hgr.objects t i j hij (hgr.sub _ _ hg) ((key t i hg t j (.inl ⟨rfl, hij⟩)).2 hj)).1 hg
      intro t i j hij hi hj
      exact ⟨one t i j hij hj, one t j i (hsym _ _ hij) hi⟩
    · intro t i hi hj
      constructor
      · intro hg
        exact (hgr.cells t i (hgr.sub _ _ hg) ((key t i hg (t + 1) i (.inr ⟨by omega, rfl⟩)).2 hj)).1 hg
      · intro hg
        exact (hgr.cells t i ((key (t + 1) i hg t i (.inr ⟨by omega, rfl⟩)).2 hi) (hgr.sub _ _ hg)).2 hg
  obtain ⟨i₁, g1, -, k1⟩ := C205_mesh_group_alone_partial cc hcc p hw _ _ hgr ids ht hm
  obtain ⟨i₂, g2, -, k2⟩ := C205_mesh_group_alone_partial cc hcc p hw _ _ hgr' ids' ht' hm'
  rw [g1] at g2
  cases g2
  rw [← k1 t i u j hi, ← k2 t i u j hi]

/-- An object at cells 0–5, then 1–2. -/
def nearLine : List (Fin 14 → Bool) := [fun i => decide (i.val ≤ 5 ∨ i.val = 9 ∨ i.val = 10), fun i => decide (i.val = 1 ∨ i.val = 2)]

/-- The same, with other extremes from cell 9 on. -/
def nearLineFar : List (Fin 14 → Bool) := [fun i => decide (i.val ≤ 5), fun i => decide (i.val = 1 ∨ i.val = 2 ∨ 9 ≤ i.val)]

/-- The cells 0–5 of the record. -/
def nearGroup : List (Fin 14 → Bool) := [fun i => decide (i.val ≤ 5), fun i => decide (i.val = 1 ∨ i.val = 2)]

theorem lineTable_iff (i j : Fin 14) : ListsNeighbour (lineTable 14) i j ↔ i.val = j.val + 1 ∨ j.val = i.val + 1 := by
  unfold ListsNeighbour
  revert i j
  decide

theorem line_hops {d : Nat} {i j : Fin 14} (h : WithinHops (lineTable 14) d i j) : j.val ≤ i.val + d := by
  unfold WithinHops at h
  induction h with
  | here => omega
  | hop h1 _ ih =>
    have := (lineTable_iff _ _).1 h1
    omega

theorem line_noMerges (data : List (Fin 14 → Bool)) (x : List (List Nat)) (h : (match runMesh quickFind (lineRun true) data with
      | .ok (pre, ids) => decide (((enforceOverlap (lineRun true).track.thr
          ((objectFieldMesh quickFind (lineRun true).nbr (lineRun true).mask pre).flatMap
            (calcProps ⟨(lineRun true).track.w, (lineRun true).track.thr, (lineRun true).cen, fun _ _ _ _ _ _ _ => 0⟩))
          (findOverlaps (lineRun true).track.w (objectFieldMesh quickFind (lineRun true).nbr (lineRun true).mask pre))).map (·.b)).Nodup) &&
          decide (ids.map (fun g => (List.finRange 14).map g) = x)
      | .error _ => false) = true) :
    ∃ pre ids, runMesh quickFind (lineRun true) data = .ok (pre, ids) ∧
      NoMerges (lineRun true).track.w (lineRun true).track.thr (objectFieldMesh quickFind (lineRun true).nbr (lineRun true).mask pre) ∧
      ids.map (fun g => (List.finRange 14).map g) = x := by
  cases hr : runMesh quickFind (lineRun true) data with
  | error e => rw [hr] at h; cases h
  | ok q =>
    rw [hr] at h
    obtain ⟨pre, ids⟩ := q
    rw [Bool.and_eq_true] at h
    have hu := timeUnique_objectFieldMesh quickFind (lineRun true).nbr (lineRun true).mask pre
    exact ⟨pre, ids, rfl, noMerges_of_nodup (fun _ => one_pos) hu
      (tableExact_calcProps ⟨(lineRun true).track.w, _, (lineRun true).cen, fun _ _ _ _ _ _ _ => 0⟩ _ hu) (of_decide_eq_true h.1), of_decide_eq_true h.2⟩

/-- The group keeps to itself, whatever else is extreme from cell 9 on. -/
theorem nearGroup_own (x y : Fin 14 → Bool) (hx : ∀ i, i.val < 9 → x i = decide (i.val ≤ 5)) (hy : ∀ i, i.val < 9 → y i = decide (i.val = 1 ∨ i.val = 2)) :
    OwnMeshGroup (lineTable 14) [x, y] nearGroup := by
  have e : ∀ {a b : Fin 14 → Bool} {t i}, IsExtreme [a, b] t i ↔ (t = 0 ∧ a i = true) ∨ (t = 1 ∧ b i = true) := by
    intro a b t i
    unfold IsExtreme
    match t with
    | 0 => simp
    | 1 => simp
    | t + 2 => simp
  have ex : ∀ i, decide (i.val ≤ 5) = true → x i = true := fun i hi => by
    have := of_decide_eq_true hi
    rw [hx i (by omega)]; exact hi
  have ey : ∀ i : Fin 14, decide (i.val = 1 ∨ i.val = 2) = true → y i = true := fun i hi => by
    have := of_decide_eq_true hi
    rw [hy i (by omega)]; exact hi
  refine ⟨rfl, ?_, ?_, ?_⟩
  · intro t i h
    rcases e.1 h with ⟨rfl, h1⟩ | ⟨rfl, h1⟩
    · exact e.2 (.inl ⟨rfl, ex i h1⟩)
    · exact e.2 (.inr ⟨rfl, ey i h1⟩)
  · intro t i j hij hi hj
    have hn := (lineTable_iff i j).1 hij
    unfold nearGroup
    rw [e, e]
    rcases e.1 hi with ⟨rfl, h1⟩ | ⟨rfl, h1⟩
    · rcases e.1 hj with ⟨-, h2⟩ | ⟨h, -⟩
      · simp only [true_and, zero_ne_one, false_and, or_false, decide_eq_true_eq]
        have k1 := hx i
        have k2 := hx j
        rw [h1] at k1; rw [h2] at k2
        simp only [eq_comm (a := true), decide_eq_true_eq] at k1 k2
        omega
      · cases h
    · rcases e.1 hj with ⟨h, -⟩ | ⟨-, h2⟩
      · cases h
      · simp only [true_and, one_ne_zero, false_and, false_or, decide_eq_true_eq]
        have k1 := hy i
        have k2 := hy j
        rw [h1] at k1; rw [h2] at k2
        simp only [eq_comm (a := true), decide_eq_true_eq] at k1 k2
        omega
  · intro t i hi hj
    unfold nearGroup
    rw [e, e]
    rcases e.1 hi with ⟨rfl, h1⟩ | ⟨rfl, h1⟩
    · rcases e.1 hj with ⟨h, -⟩ | ⟨-, h2⟩
      · cases h
      · simp only [zero_add, true_and, one_ne_zero, zero_ne_one, false_and, false_or, or_false, decide_eq_true_eq]
        have k1 := hx i
        have k2 := hy i
        rw [h1] at k1; rw [h2] at k2
        simp only [eq_comm (a := true), decide_eq_true_eq] at k1 k2
        omega
    · rcases e.1 hj with ⟨h, -⟩ | ⟨h, -⟩ <;> cases h

theorem preLine (data : List (Fin 14 → Bool)) (b : List (List Bool)) (h : (match runMesh quickFind (lineRun true) data with
    | .ok (pre, _) => decide (pre.map (fun g => (List.finRange 14).map g) = b) | .error _ => false) = true) {pre : List (Fin 14 → Bool)} {ids : List (Frame 14)}
    (hr : runMesh quickFind (lineRun true) data = .ok (pre, ids)) : pre.map (fun g => (List.finRange 14).map g) = b := by
  rw [hr] at h
  exact of_decide_eq_true h

-- the hypotheses of `C205_mesh_group_alone_partial` and `C199_mesh_far_away_partial` are met: an event of the first steps and changes from cell 9 on
example : ∃ pre ids pre' ids', runMesh quickFind (lineRun true) nearLine = .ok (pre, ids) ∧ runMesh quickFind (lineRun true) nearLineFar = .ok (pre', ids') ∧
    NoMerges (lineRun true).track.w (lineRun true).track.thr (objectFieldMesh quickFind (lineRun true).nbr (lineRun true).mask pre) ∧
    NoMerges (lineRun true).track.w (lineRun true).track.thr (objectFieldMesh quickFind (lineRun true).nbr (lineRun true).mask pre') ∧
    OwnMeshGroup (lineRun true).nbr pre nearGroup ∧ SymmetricTable (lineRun true).nbr ∧
    (∀ u j, IsExtreme nearGroup u j → SameWithinHops (lineRun true).nbr (6 * 0 + ⌊(1 : ℚ)⌋₊ + 2) nearLine nearLineFar j) ∧
    IsExtreme nearGroup 1 2 ∧ ids ≠ ids' ∧ (SameEvent ids 0 0 1 2 ∧ SameEvent ids' 0 0 1 2) := by
  obtain ⟨pre, ids, hr, hm, hi⟩ := line_noMerges nearLine [[1, 1, 1, 1, 1, 1, 0, 0, 0, 2, 2, 0, 0, 0], [0, 1, 1, 0, 0, 0, 0, 0, 0, 0, 0, 0, 0, 0]] (by decide +kernel)
  obtain ⟨pre', ids', hr', hm', hi'⟩ := line_noMerges nearLineFar [[1, 1, 1, 1, 1, 1, 0, 0, 0, 0, 0, 0, 0, 0], [0, 1, 1, 0, 0, 0, 0, 0, 0, 2, 2, 2, 2, 0]] (by decide +kernel)
  have hp := preLine nearLine [(List.finRange 14).map fun i => decide (i.val ≤ 5 ∨ i.val = 9 ∨ i.val = 10), (List.finRange 14).map fun i => decide (i.val = 1 ∨ i.val = 2)]
    (by decide +kernel) hr
  have fr : ∀ {x y : Fin 14 → Bool}, (List.finRange 14).map x = (List.finRange 14).map y → x = y := by
    intro x y h
    funext i
    exact List.map_inj_left.1 h i (List.mem_finRange i)
  have hpre : pre = nearLine := by
    have hl : pre.length = 2 := by simpa using congrArg List.length hp
    match pre, hl, hp with
    | [x, y], _, hp =>
      simp only [List.map_cons, List.map_nil, List.cons.injEq, and_true] at hp
      rw [fr hp.1, fr hp.2]
      rfl
  have ev : ∀ {l : List (Frame 14)} {c d : List Nat}, l.map (fun g => (List.finRange 14).map g) = [1 :: c, 0 :: 1 :: 1 :: d] → SameEvent l 0 0 1 2 := by
    intro l c d h
    have hl : l.length = 2 := by simpa using congrArg List.length h
    match l, hl, h with
    | [x, y], _, h =>
      simp only [List.map_cons, List.map_nil, List.cons.injEq, and_true] at h
      have h0 : x 0 = 1 := by
        have := congrArg (·[0]?) h.1
        simpa using this
      have h2 : y 2 = 1 := by
        have := congrArg (·[2]?) h.2
        simpa using this
      exact ⟨x, y, rfl, rfl, by omega, by omega⟩
  refine ⟨pre, ids, pre', ids', hr, hr', hm, hm', ?_, strip_symmetric 14, ?_, ⟨_, rfl, by decide⟩, ?_, ev hi, ev hi'⟩
  · rw [hpre]
    refine nearGroup_own _ _ (fun i hi => ?_) (fun i _ => rfl)
    rw [decide_eq_decide]
    omega
  · intro u j hj t k hk
    have hj2 : j.val ≤ 5 := by
      obtain ⟨f, hf, hj⟩ := hj
      match u with
      | 0 => cases hf; exact of_decide_eq_true hj
      | 1 => cases hf; have := of_decide_eq_true hj; omega
      | u + 2 => simp [nearGroup] at hf
    have hk5 := line_hops hk
    simp only [mul_zero, Nat.floor_one, zero_add] at hk5
    unfold IsExtreme
    match t with
    | 0 => simp [nearLine, nearLineFar]; omega
    | 1 => simp [nearLine, nearLineFar]; omega
    | t + 2 => simp [nearLine, nearLineFar]
  · rintro rfl
    rw [hi] at hi'
    exact absurd hi' (by decide)

/-- A line of fifteen sea cells, chunks of two steps. -/
def gapRun : MeshRun 15 :=
  { nbr := lineTable 15, mask := fun _ => true, R := 0, T := 0, criterion := .absolute 1, allowMerging := true
    track := meshCfg (lineNbr 15) (fun _ => 1) 1 (1/4) 2 40 (fun _ _ _ => 0), cen := fun _ _ => (0, 0) }

/-- Eight objects merge at step 1, nothing at step 2, two objects merge at step 4. -/
def gapWhole : List (Fin 15 → Bool) :=
  [fun i => i.val % 2 == 0, fun _ => true, noExtremes, fun i => i.val == 0 || i.val == 2, fun i => decide (i.val ≤ 2), noExtremes]

/-- What comes after step 2. -/
def gapPart : List (Fin 15 → Bool) :=
  [noExtremes, noExtremes, noExtremes, fun i => i.val == 0 || i.val == 2, fun i => decide (i.val ≤ 2), noExtremes]

theorem gapPart_own : OwnMeshGroup gapRun.nbr gapWhole gapPart := by
  have e : ∀ t i, IsExtreme gapPart t i ↔ 2 < t ∧ IsExtreme gapWhole t i := by
    intro t i
    unfold IsExtreme gapPart gapWhole
    match t with
    | 0 | 1 | 2 | 3 | 4 | 5 => simp [noExtremes]
    | t + 6 => simp
  have n2 : ∀ i, ¬ IsExtreme gapWhole 2 i := by
    rintro i ⟨d, hd, hi⟩
    cases hd
    cases hi
  refine ⟨rfl, fun t i h => ((e t i).1 h).2, fun t i j _ hi hj => ?_, fun t i hi hj => ?_⟩
  · rw [e, e]
    simp only [hi, hj]
  · rw [e, e]
    simp only [hi, hj, and_true]
    have : t ≠ 2 := fun h => n2 i (h ▸ hi)
    omega

/-- **C205 fails** with merges: the merge of eight objects at step 1 takes seven new IDs, two are reserved per step, and the last one is given out again at
step 4. The objects of steps 3 and 4, which an empty step separates from the others, are then one event with cell 14 of step 0; tracked alone they are not. -/
theorem C205_merges_fails : OwnMeshGroup gapRun.nbr gapWhole gapPart ∧ IsExtreme gapPart 3 2 ∧ ¬ IsExtreme gapPart 0 14 ∧
    ∃ ids ids', trackingMesh quickFind gapRun gapWhole = .ok ids ∧ trackingMesh quickFind gapRun gapPart = .ok ids' ∧
      SameEvent ids 3 2 0 14 ∧ ¬ SameEvent ids' 3 2 0 14 := by
  refine ⟨gapPart_own, ⟨_, rfl, by decide⟩, ?_, ?_⟩
  · rintro ⟨d, hd, hi⟩
    cases hd
    cases hi
  · have h1 : (match trackingMesh quickFind gapRun gapWhole with
      | .ok (f :: _ :: _ :: g :: _) => decide (0 < g 2 ∧ g 2 = f 14) | _ => false) = true := by decide +kernel
    have h2 : (match trackingMesh quickFind gapRun gapPart with
      | .ok (f :: _ :: _ :: g :: _) => decide (g 2 ≠ f 14) | _ => false) = true := by decide +kernel
    split at h1
    · rename_i f _ _ g _ hr
      split at h2
      · rename_i f' _ _ g' _ hr'
        have k := of_decide_eq_true h1
        refine ⟨_, _, hr, hr', ⟨g, f, rfl, rfl, k.1, k.2⟩, ?_⟩
        rintro ⟨a, b, ha, hb, -, he⟩
        cases ha
        cases hb
        exact of_decide_eq_true h2 he
      · cases h2
    · cases h1

end MarEx.Props
