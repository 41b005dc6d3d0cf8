import Verif.Lemmas.CutTrack
import Verif.Props.Choice
/-! C204: groups of objects that never meet are tracked as if they were alone. -/
namespace MarEx.Spec

/-- The extremes of `part` are a group of the extremes of `whole` that never meets the rest: no object (touching cells of one step) lies in both, and no cell
belongs to the group at one step and to the rest at the next. -/
structure OwnGroup {n : Nat} (regional : Bool) (nx : Nat) (whole part : List (Fin n → Bool)) : Prop where
  length : part.length = whole.length
  sub : ∀ t i, IsExtreme part t i → IsExtreme whole t i
  objects : ∀ t i j, Touch regional nx i j → IsExtreme whole t i → IsExtreme whole t j → (IsExtreme part t i ↔ IsExtreme part t j)
  cells : ∀ t i, IsExtreme whole t i → IsExtreme whole (t + 1) i → (IsExtreme part t i ↔ IsExtreme part (t + 1) i)

/-- Component numbers follow the order of the nodes: a component with a smaller number has a node before all nodes of one with a larger number. -/
def NumbersInOrder (cc : Nat → List (Nat × Nat) → Nat × (Nat → Nat)) : Prop :=
  ∀ n edges, EdgesBelow n edges → ∀ u v, u < n → v < n → (cc n edges).2 u < (cc n edges).2 v →
    ∃ w, w < n ∧ (cc n edges).2 w = (cc n edges).2 u ∧ ∀ x, x < n → (cc n edges).2 x = (cc n edges).2 v → w < x

/-- The centroid of an object is a function of its cells. -/
def OfCells {n : Nat} (cen : (Fin n → Nat) → Nat → ℚ × ℚ) : Prop := ∀ f g k l, (∀ i, f i = k ↔ g i = l) → cen f k = cen g l

end MarEx.Spec

namespace MarEx.Props
open MarEx Spec

variable {n : Nat}

/-! ### Numbering in order -/

theorem idxOf_eraseDups_lt : ∀ (m : Nat) (l : List Nat), l.length ≤ m → ∀ a b, a ∈ l → b ∈ l → l.eraseDups.idxOf a < l.eraseDups.idxOf b →
    l.idxOf a < l.idxOf b := by
  intro m
  induction m with
  | zero =>
    intro l hl a b ha
    rw [List.length_eq_zero_iff.mp (Nat.le_zero.mp hl)] at ha
    cases ha
  | succ m ih =>
    intro l hl a b ha hb h
    match l with
    | [] => cases ha
    | x :: l =>
      rw [List.eraseDups_cons, List.idxOf_cons, List.idxOf_cons] at h
      rw [List.idxOf_cons, List.idxOf_cons]
      by_cases hxb : x = b
      · simp [hxb] at h
      · by_cases hxa : x = a
        · subst hxa
          simp [Bool.cond_eq_ite, hxb]
        · simp only [beq_iff_eq, hxa, hxb, Bool.cond_eq_ite, if_false] at h ⊢
          have ha' : a ∈ l.filter fun y => !y == x := by
            rcases List.mem_cons.mp ha with e | e
            · exact absurd e.symm hxa
            · exact List.mem_filter.mpr ⟨e, by simpa using fun e : a = x => hxa e.symm⟩
          have hb' : b ∈ l.filter fun y => !y == x := by
            rcases List.mem_cons.mp hb with e | e
            · exact absurd e.symm hxb
            · exact List.mem_filter.mpr ⟨e, by simpa using fun e : b = x => hxb e.symm⟩
          have := ih (l.filter fun y => !y == x) (le_trans (List.length_filter_le _ _) (by simpa using hl)) a b ha' hb' (by omega)
          -- first positions keep their order when other entries are removed
          have mono : ∀ (l : List Nat) (p : Nat → Bool), p a = true → p b = true → (l.filter p).idxOf a < (l.filter p).idxOf b → l.idxOf a < l.idxOf b := by
            intro l p pa pb
            induction l with
            | nil => intro h; simp at h
            | cons y l ihl =>
              intro h
              rw [List.idxOf_cons, List.idxOf_cons]
              by_cases hya : y = a
              · subst hya
                by_cases hyb : y = b
                · subst hyb; simp at h
                · simp [Bool.cond_eq_ite, hyb]
              · by_cases hyb : y = b
                · subst hyb
                  rw [List.filter_cons_of_pos pb] at h
                  simp at h
                · simp only [beq_iff_eq, hya, hyb, Bool.cond_eq_ite, if_false]
                  have : l.idxOf a < l.idxOf b := by
                    apply ihl
                    by_cases py : p y = true
                    · rw [List.filter_cons_of_pos py, List.idxOf_cons, List.idxOf_cons] at h
                      simp only [beq_iff_eq, hya, hyb, Bool.cond_eq_ite, if_false] at h
                      omega
                    · rw [List.filter_cons_of_neg py] at h
                      exact h
                  omega
          have := mono l (fun y => !y == x) (by simpa using fun e : a = x => hxa e.symm) (by simpa using fun e : b = x => hxb e.symm) this
          omega

/-- The reference routine numbers components in order. -/
theorem quickFind_inOrder : NumbersInOrder quickFind := by
  intro n edges _ u v hu hv h
  simp only [quickFind] at h ⊢
  have hmem : ∀ x, x < n → quickMerge edges x ∈ (List.range n).map (quickMerge edges) := fun x hx => List.mem_map_of_mem (List.mem_range.mpr hx)
  have hlt := idxOf_eraseDups_lt _ _ (le_refl _) _ _ (hmem u hu) (hmem v hv) h
  have hw := List.idxOf_lt_length_of_mem (hmem u hu)
  refine ⟨((List.range n).map (quickMerge edges)).idxOf (quickMerge edges u), by simpa using hw, ?_, ?_⟩
  · have e := List.getElem_idxOf hw
    rw [List.getElem_map, List.getElem_range] at e
    rw [e]
  · intro x hx hxv
    have e : quickMerge edges x = quickMerge edges v := by
      have mx := List.mem_eraseDups.mpr (hmem x hx)
      have mv := List.mem_eraseDups.mpr (hmem v hv)
      have e1 := List.getElem_idxOf (List.idxOf_lt_length_of_mem mx)
      have e2 := List.getElem_idxOf (List.idxOf_lt_length_of_mem mv)
      rw [← e1, ← e2]
      congr 1
    have hle : ((List.range n).map (quickMerge edges)).idxOf (quickMerge edges v) ≤ x := by
      by_contra hc
      have hx' : x < ((List.range n).map (quickMerge edges)).length := by simpa using hx
      have := List.not_of_lt_findIdx (p := (· == quickMerge edges v)) (xs := (List.range n).map (quickMerge edges)) (i := x) (by
        unfold List.idxOf at hc
        omega)
      rw [List.getElem_map, List.getElem_range] at this
      simp [e] at this
    omega

theorem labelGraph_inOrder {V : Type} [DecidableEq V] {cc : Labeller} (hord : NumbersInOrder cc) {nodes : List V} (hnd : nodes.Nodup) (adj : V → V → Bool)
    {v w : V} (hv : v ∈ nodes) (hw : w ∈ nodes) (h : labelGraph cc nodes adj v < labelGraph cc nodes adj w) :
    ∃ a ∈ nodes, labelGraph cc nodes adj a = labelGraph cc nodes adj v ∧
      ∀ b ∈ nodes, labelGraph cc nodes adj b = labelGraph cc nodes adj w → nodes.idxOf a < nodes.idxOf b := by
  have hval : ∀ u ∈ nodes, labelGraph cc nodes adj u = (cc nodes.length (nodes.flatMap fun a => nodes.filterMap fun b =>
      if adj a b then some (nodes.idxOf a, nodes.idxOf b) else none)).2 (nodes.idxOf u) + 1 := by
    intro u hu
    unfold labelGraph
    rw [if_pos (by rwa [List.contains_iff_mem])]
  rw [hval v hv, hval w hw] at h
  obtain ⟨k, hk, e, hx⟩ := hord _ _ (graphEdges_below (nodes := nodes) (adj := adj)) _ _ (List.idxOf_lt_length_of_mem hv) (List.idxOf_lt_length_of_mem hw) (by omega)
  have hik : nodes.idxOf nodes[k] = k := List.Nodup.idxOf_getElem hnd k hk
  refine ⟨nodes[k], List.getElem_mem hk, ?_, ?_⟩
  · rw [hval _ (List.getElem_mem hk), hval v hv, hik, e]
  · intro b hb he
    rw [hval b hb, hval w hw] at he
    rw [hik]
    exact hx _ (List.idxOf_lt_length_of_mem hb) (by omega)

theorem idxOf_key {V : Type} [DecidableEq V] {nodes : List V} {key : V → Nat} (hs : nodes.Pairwise fun a b => key a < key b) {a b : V} (ha : a ∈ nodes)
    (hb : b ∈ nodes) (h : nodes.idxOf a < nodes.idxOf b) : key a < key b := by
  have h1 := List.idxOf_lt_length_of_mem ha
  have h2 := List.idxOf_lt_length_of_mem hb
  have := List.pairwise_iff_getElem.mp hs _ _ h1 h2 h
  rwa [List.getElem_idxOf h1, List.getElem_idxOf h2] at this

/-- Position of a voxel in the record. -/
def voxelPos (v : Nat × Fin n) : Nat := v.1 * n + v.2.val

theorem extremeVoxels_sorted (data : List (Fin n → Bool)) : (extremeVoxels data).Pairwise fun a b => voxelPos a < voxelPos b := by
  unfold extremeVoxels
  rw [List.pairwise_flatMap]
  constructor
  · intro t _
    refine List.Pairwise.map _ (fun i j hij => ?_) ((List.pairwise_lt_finRange n).filter _)
    unfold voxelPos
    have : i.val < j.val := hij
    dsimp only
    omega
  · refine List.pairwise_lt_range.imp ?_
    intro s t hst a ha b hb
    obtain ⟨i, _, rfl⟩ := List.mem_map.mp ha
    obtain ⟨j, _, rfl⟩ := List.mem_map.mp hb
    unfold voxelPos
    dsimp only
    have h1 := i.isLt
    have : (s + 1) * n ≤ t * n := Nat.mul_le_mul_right n hst
    rw [Nat.add_mul] at this
    omega

/-! ### The objects of a group -/

/-- The number of a voxel's object. -/
def objectAt (cc : Labeller) (regional : Bool) (nx : Nat) (data : List (Fin n → Bool)) : Nat × Fin n → Nat :=
  labelGraph cc (extremeVoxels data) (voxelAdj false regional nx)

theorem identify_eq (cc : Labeller) (regional : Bool) (nx : Nat) (data : List (Fin n → Bool)) :
    identifyObjectsGrid cc false regional nx data = (List.range data.length).map fun t i => objectAt cc regional nx data (t, i) := rfl

variable {cc : Labeller} {regional : Bool} {nx : Nat} {whole part : List (Fin n → Bool)}

/-- No object lies in the part and in the rest. -/
structure OwnObjects {n : Nat} (regional : Bool) (nx : Nat) (whole part : List (Fin n → Bool)) : Prop where
  sub : ∀ t i, IsExtreme part t i → IsExtreme whole t i
  objects : ∀ t i j, Touch regional nx i j → IsExtreme whole t i → IsExtreme whole t j → (IsExtreme part t i ↔ IsExtreme part t j)

theorem group_closed (hcc : CorrectLabeller cc) (hnx : 0 < nx) (h : OwnObjects regional nx whole part) {v w : Nat × Fin n} (hv : IsExtreme part v.1 v.2)
    (hw : IsExtreme whole w.1 w.2) (e : objectAt cc regional nx whole v = objectAt cc regional nx whole w) :
    IsExtreme part w.1 w.2 ∧ objectAt cc regional nx part v = objectAt cc regional nx part w := by
  have hl := (labelGraph_same hcc (mem_extremeVoxels.mpr (h.sub _ _ hv)) (mem_extremeVoxels.mpr hw)).mp e
  have key : IsExtreme part w.1 w.2 ∧ Linked (fun a b => voxelAdj false regional nx a b = true ∧ a ∈ extremeVoxels part ∧ b ∈ extremeVoxels part) v w := by
    clear hw e
    induction hl with
    | refl => exact ⟨hv, .refl _⟩
    | fwd _ hab ih =>
      obtain ⟨i1, i2⟩ := ih
      obtain ⟨h1, h2⟩ := (voxelAdj_iff hnx).mp hab.1
      rw [if_neg (by simp)] at h1
      have wa := mem_extremeVoxels.mp hab.2.1
      have wb := mem_extremeVoxels.mp hab.2.2
      rw [h1] at wa
      have pb := (h.objects _ _ _ h2 wa wb).mp (by rw [← h1]; exact i1)
      exact ⟨pb, .fwd i2 ⟨hab.1, mem_extremeVoxels.mpr i1, mem_extremeVoxels.mpr pb⟩⟩
    | bwd _ hab ih =>
      obtain ⟨i1, i2⟩ := ih
      obtain ⟨h1, h2⟩ := (voxelAdj_iff hnx).mp hab.1
      rw [if_neg (by simp)] at h1
      have wa := mem_extremeVoxels.mp hab.2.1
      have wb := mem_extremeVoxels.mp hab.2.2
      rw [← h1] at wb
      have pa := (h.objects _ _ _ h2 wa wb).mpr (by rw [h1]; exact i1)
      exact ⟨pa, .bwd i2 ⟨hab.1, mem_extremeVoxels.mpr pa, mem_extremeVoxels.mpr i1⟩⟩
  exact ⟨key.1, (labelGraph_same hcc (mem_extremeVoxels.mpr hv) (mem_extremeVoxels.mpr key.1)).mpr key.2⟩

theorem group_same (hcc : CorrectLabeller cc) (h : OwnObjects regional nx whole part) {v w : Nat × Fin n} (hv : IsExtreme part v.1 v.2)
    (hw : IsExtreme part w.1 w.2) (e : objectAt cc regional nx part v = objectAt cc regional nx part w) :
    objectAt cc regional nx whole v = objectAt cc regional nx whole w := by
  refine (labelGraph_same hcc (mem_extremeVoxels.mpr (h.sub _ _ hv)) (mem_extremeVoxels.mpr (h.sub _ _ hw))).mpr ?_
  exact Linked.mono (fun a b hab => ⟨hab.1, mem_extremeVoxels.mpr (h.sub _ _ (mem_extremeVoxels.mp hab.2.1)),
    mem_extremeVoxels.mpr (h.sub _ _ (mem_extremeVoxels.mp hab.2.2))⟩)
    ((labelGraph_same hcc (mem_extremeVoxels.mpr hv) (mem_extremeVoxels.mpr hw)).mp e)

theorem group_order (hcc : CorrectLabeller cc) (hord : NumbersInOrder cc) (hnx : 0 < nx) (h : OwnObjects regional nx whole part) {v w : Nat × Fin n}
    (hv : IsExtreme part v.1 v.2) (hw : IsExtreme part w.1 w.2) (e : objectAt cc regional nx whole v < objectAt cc regional nx whole w) :
    objectAt cc regional nx part v < objectAt cc regional nx part w := by
  by_contra hc
  have hne : objectAt cc regional nx part v ≠ objectAt cc regional nx part w := fun e' => by
    have := group_same hcc h hv hw e'
    omega
  obtain ⟨a, ha, ea, hA⟩ := labelGraph_inOrder hord (nodup_extremeVoxels whole) _ (mem_extremeVoxels.mpr (h.sub _ _ hv)) (mem_extremeVoxels.mpr (h.sub _ _ hw)) e
  obtain ⟨b, hb, eb, hB⟩ := labelGraph_inOrder hord (nodup_extremeVoxels part) (voxelAdj false regional nx) (mem_extremeVoxels.mpr hw) (mem_extremeVoxels.mpr hv)
    (show objectAt cc regional nx part w < objectAt cc regional nx part v by omega)
  have ca := group_closed hcc hnx h hv (mem_extremeVoxels.mp ha) ea.symm
  have hb' := h.sub _ _ (mem_extremeVoxels.mp hb)
  have cb := group_same hcc h (mem_extremeVoxels.mp hb) hw eb
  have l1 := idxOf_key (extremeVoxels_sorted whole) ha (mem_extremeVoxels.mpr hb') (hA b (mem_extremeVoxels.mpr hb') cb)
  have l2 := idxOf_key (extremeVoxels_sorted part) hb (mem_extremeVoxels.mpr ca.1) (hB a (mem_extremeVoxels.mpr ca.1) ca.2.symm)
  omega

theorem chunksOf_map {α β : Type} (F : α → β) (ks : List Nat) (l : List α) : chunksOf ks (l.map F) = (chunksOf ks l).map (List.map F) := by
  induction ks generalizing l with
  | nil =>
    unfold chunksOf
    by_cases h : l.isEmpty
    · simp [h]
    · simp [h]
  | cons k ks ih => rw [chunksOf, chunksOf, List.map_cons, ← ih, List.map_take, List.map_drop]

/-- Objects of the whole record to objects of the group. -/
theorem group_cut (hcc : CorrectLabeller cc) (hord : NumbersInOrder cc) (hnx : 0 < nx) (h : OwnObjects regional nx whole part) :
    ∃ ρ : Nat → Nat, ρ 0 = 0 ∧ (∀ a b, ρ a ≠ 0 → ρ b ≠ 0 → a < b → ρ a < ρ b) ∧
      (∀ k, ρ k ≠ 0 → ∃ v, IsExtreme part v.1 v.2 ∧ objectAt cc regional nx whole v = k) ∧
      ∀ v, ρ (objectAt cc regional nx whole v) = objectAt cc regional nx part v := by
  classical
  have hpos : ∀ (data : List (Fin n → Bool)) v, 0 < objectAt cc regional nx data v ↔ IsExtreme data v.1 v.2 := by
    intro data v; unfold objectAt; rw [labelGraph_pos, mem_extremeVoxels]
  set ρ : Nat → Nat := fun k => if hk : ∃ v, IsExtreme part v.1 v.2 ∧ objectAt cc regional nx whole v = k then objectAt cc regional nx part hk.choose else 0 with hρ
  have hin : ∀ k, ρ k ≠ 0 → ∃ v, IsExtreme part v.1 v.2 ∧ objectAt cc regional nx whole v = k := by
    intro k hk
    by_contra hc
    apply hk
    rw [hρ]
    dsimp only
    rw [dif_neg hc]
  have hval : ∀ v, ρ (objectAt cc regional nx whole v) = objectAt cc regional nx part v := by
    intro v
    by_cases hv : IsExtreme part v.1 v.2
    · have hk : ∃ u : Nat × Fin n, IsExtreme part u.1 u.2 ∧ objectAt cc regional nx whole u = objectAt cc regional nx whole v := ⟨v, hv, rfl⟩
      rw [hρ]
      dsimp only
      rw [dif_pos hk]
      exact (group_closed hcc hnx h hk.choose_spec.1 (h.sub _ _ hv) hk.choose_spec.2).2
    · have h0 : objectAt cc regional nx part v = 0 := by
        have := (hpos part v).not.mpr hv
        omega
      rw [h0]
      by_contra hc
      obtain ⟨u, hu, e⟩ := hin _ hc
      have hp := (hpos whole u).mpr (h.sub _ _ hu)
      rw [e] at hp
      exact hv (group_closed hcc hnx h hu ((hpos whole v).mp hp) e).1
  refine ⟨ρ, ?_, ?_, hin, hval⟩
  · by_contra hc
    obtain ⟨u, hu, e⟩ := hin _ hc
    have hp := (hpos whole u).mpr (h.sub _ _ hu)
    omega
  · intro a b ha hb hab
    obtain ⟨u, hu, rfl⟩ := hin _ ha
    obtain ⟨v, hv, rfl⟩ := hin _ hb
    rw [hval, hval]
    exact group_order hcc hord hnx h hu hv hab

theorem group_tracked {ny nx : Nat} (cc : Labeller) (hcc : CorrectLabeller cc) (hord : NumbersInOrder cc) (hnx : 0 < nx) (p : GridRun ny nx)
    (wrap nn : Bool) (thr : ℚ) (cen : Frame (ny * nx) → Nat → ℚ × ℚ) (hcen : OfCells cen) (chunks : List Nat)
    (whole part : List (Fin (ny * nx) → Bool)) (h : OwnGroup p.regional nx whole part) :
    ∃ ρ : Nat → Nat, CutTracked ρ (identifyObjectsGrid cc false p.regional nx whole)
        (trackGrid cc (gridCfg wrap nn ny nx thr cen) (chunksOf chunks (identifyObjectsGrid cc false p.regional nx whole)))
        (trackGrid cc (gridCfg wrap nn ny nx thr cen) (chunksOf chunks (identifyObjectsGrid cc false p.regional nx part))) ∧
      ∀ (t : Nat) (f : Frame (ny * nx)), (identifyObjectsGrid cc false p.regional nx whole)[t]? = some f → ∀ i, ρ (f i) ≠ 0 ↔ IsExtreme part t i := by
  obtain ⟨ρ, h0, hmono, hin, hval⟩ := group_cut (cc := cc) hcc hord hnx ⟨h.sub, h.objects⟩
  have hpos : ∀ (data : List (Fin (ny * nx) → Bool)) v, 0 < objectAt cc p.regional nx data v ↔ IsExtreme data v.1 v.2 := by
    intro data v; unfold objectAt; rw [labelGraph_pos, mem_extremeVoxels]
  set obj := identifyObjectsGrid cc false p.regional nx whole with hobj
  have hpart : identifyObjectsGrid cc false p.regional nx part = obj.map (cutFrame ρ) := by
    rw [hobj, identify_eq, identify_eq, List.map_map, h.length]
    refine List.map_congr_left fun t _ => ?_
    funext i
    exact (hval (t, i)).symm
  have hget : ∀ (t : Nat) (f : Frame (ny * nx)), obj[t]? = some f → ∀ i, f i = objectAt cc p.regional nx whole (t, i) :=
    fun t f hf i => (identify_get hf).2 i
  have hside : ∀ (t : Nat) (f : Frame (ny * nx)), obj[t]? = some f → ∀ i a, side ρ f i = some a → IsExtreme whole t i ∧ (a = true ↔ IsExtreme part t i) := by
    intro t f hf i a ha
    unfold side at ha
    split at ha
    · cases ha
    · rename_i hne
      rw [Option.some.injEq] at ha
      rw [hget t f hf i] at ha hne
      refine ⟨(hpos whole (t, i)).mp (by omega), ?_⟩
      rw [← ha, decide_eq_true_eq, hval, ← hpos part (t, i)]
      omega
  have hap : List.IsChain Apart ((chunksOf chunks obj).flatten.map (side ρ)) := by
    rw [flatten_chunksOf]
    refine List.isChain_iff_getElem.mpr fun t ht => ?_
    rw [List.length_map] at ht
    rw [List.getElem_map, List.getElem_map]
    intro i a b ha hb
    obtain ⟨a1, a2⟩ := hside t _ (List.getElem?_eq_getElem (by omega)) i a ha
    obtain ⟨b1, b2⟩ := hside (t + 1) _ (List.getElem?_eq_getElem (by omega)) i b hb
    have := h.cells t i a1 b1
    rw [Bool.eq_iff_iff, a2, b2, this]
  have hex : ∀ t i, IsExtreme whole t i → ∃ f, obj[t]? = some f := by
    rintro t i ⟨d, hd, _⟩
    have : t < obj.length := by rw [hobj, length_identify]; exact (List.getElem?_eq_some_iff.mp hd).1
    exact ⟨_, List.getElem?_eq_getElem this⟩
  have key := trackGrid_cut (cc := cc) (cc' := cc) hcc hcc (faithful_gridCfg wrap nn ny nx thr hcen) (ρ := ρ) (chunksOf chunks obj) h0 hmono (by
    intro k hk
    obtain ⟨v, hv, rfl⟩ := hin k hk
    obtain ⟨f, hf⟩ := hex v.1 v.2 (h.sub _ _ hv)
    rw [flatten_chunksOf]
    exact ⟨f, List.mem_of_getElem? hf, v.2, hget _ f hf _⟩) hap
  rw [flatten_chunksOf] at key
  have e2 : chunksOf chunks (identifyObjectsGrid cc false p.regional nx part) = (chunksOf chunks obj).map (List.map (cutFrame ρ)) := by
    rw [hpart, chunksOf_map]
  rw [e2]
  have hne : ∀ (t : Nat) (f : Frame (ny * nx)), obj[t]? = some f → ∀ i, ρ (f i) ≠ 0 ↔ IsExtreme part t i := by
    intro t f hf i
    rw [hget t f hf i, hval, ← hpos part (t, i)]
    omega
  exact ⟨ρ, key, hne⟩

/-- **C204**: structured grids, `allow_merging = True`. Take away from the preprocessed field all extremes outside a group that never meets the rest (no
object of both, no cell of both at consecutive steps). Tracking what is left gives events on exactly the cells of the group, and they are the events these
cells had before: none had cells outside the group — through all splits and merges, for every chunking, overlap threshold and either partition method. -/
theorem C204_group_tracked_alone {ny nx : Nat} (cc : Labeller) (hcc : CorrectLabeller cc) (hord : NumbersInOrder cc) (hnx : 0 < nx) (p : GridRun ny nx)
    (hm : p.allowMerging = true) (wrap nn : Bool) (thr : ℚ) (cen : Frame (ny * nx) → Nat → ℚ × ℚ) (hcen : OfCells cen)
    (ht : p.track = gridCfg wrap nn ny nx thr cen) (chunks : List Nat) (whole part : List (Fin (ny * nx) → Bool))
    (h : OwnGroup p.regional nx whole part) :
    (∀ (t : Nat) (f : Frame (ny * nx)), (trackingGrid cc p chunks part)[t]? = some f → ∀ i, 0 < f i ↔ IsExtreme part t i) ∧
    (∀ t i u j, IsExtreme part t i → (SameEvent (trackingGrid cc p chunks part) t i u j ↔ SameEvent (trackingGrid cc p chunks whole) t i u j)) := by
  obtain ⟨ρ, key, hne⟩ := group_tracked cc hcc hord hnx p wrap nn thr cen hcen chunks whole part h
  set obj := identifyObjectsGrid cc false p.regional nx whole with hobj
  set objP := identifyObjectsGrid cc false p.regional nx part with hobjP
  have hex : ∀ t i, IsExtreme whole t i → ∃ f, obj[t]? = some f := by
    rintro t i ⟨d, hd, _⟩
    have : t < obj.length := by rw [hobj, length_identify]; exact (List.getElem?_eq_some_iff.mp hd).1
    exact ⟨_, List.getElem?_eq_getElem this⟩
  have e1 : trackingGrid cc p chunks whole = (trackGrid cc (gridCfg wrap nn ny nx thr cen) (chunksOf chunks obj)).idField := by
    unfold trackingGrid
    rw [if_pos hm, ht]
  have e2 : trackingGrid cc p chunks part = (trackGrid cc (gridCfg wrap nn ny nx thr cen) (chunksOf chunks objP)).idField := by
    unfold trackingGrid
    rw [if_pos hm, ht]
  rw [e1, e2]
  have pos : ∀ (t : Nat) (f : Frame (ny * nx)), (trackGrid cc (gridCfg wrap nn ny nx thr cen) (chunksOf chunks objP)).idField[t]? = some f →
      ∀ i, 0 < f i ↔ IsExtreme part t i := by
    intro t f hf i
    have hl : t < obj.length := by rw [← key.length']; exact (List.getElem?_eq_some_iff.mp hf).1
    have hg := List.getElem?_eq_getElem hl
    rw [key.pos' t _ f hg hf i, hne t _ hg i]
  refine ⟨pos, fun t i u j hi => ?_⟩
  obtain ⟨f, hf⟩ := hex t i (h.sub _ _ hi)
  have fwd : IsExtreme part u j → (SameEvent (trackGrid cc (gridCfg wrap nn ny nx thr cen) (chunksOf chunks objP)).idField t i u j ↔
      SameEvent (trackGrid cc (gridCfg wrap nn ny nx thr cen) (chunksOf chunks obj)).idField t i u j) := fun hj => by
    obtain ⟨g, hg⟩ := hex u j (h.sub _ _ hj)
    exact key.same t u i j f g hf hg ((hne t f hf i).mpr hi) ((hne u g hg j).mpr hj)
  constructor
  · intro hs
    refine (fwd ?_).mp hs
    obtain ⟨x, y, hx, hy, h1, h2⟩ := hs
    exact (pos u y hy j).mp (h2 ▸ h1)
  · intro hs
    refine (fwd ?_).mpr hs
    obtain ⟨x, y, hx, hy, h1, h2⟩ := id hs
    have hl : u < obj.length := by rw [← key.length]; exact (List.getElem?_eq_some_iff.mp hy).1
    have hg := List.getElem?_eq_getElem hl
    exact (hne u _ hg j).mp (key.apart t u i j f _ hf hg ((hne t f hf i).mpr hi) hs)

/-- The extremes of a record on the cells of a region. -/
def within (region : Fin n → Bool) (data : List (Fin n → Bool)) : List (Fin n → Bool) := data.map fun f i => f i && region i

theorem isExtreme_within (region : Fin n → Bool) (data : List (Fin n → Bool)) (t : Nat) (i : Fin n) :
    IsExtreme (within region data) t i ↔ IsExtreme data t i ∧ region i = true := by
  unfold IsExtreme within
  rw [List.getElem?_map]
  constructor
  · rintro ⟨d, hd, h⟩
    obtain ⟨f, hf, rfl⟩ := Option.map_eq_some_iff.mp hd
    rw [Bool.and_eq_true] at h
    exact ⟨⟨f, hf, h.1⟩, h.2⟩
  · rintro ⟨⟨f, hf, h⟩, h2⟩
    exact ⟨_, by rw [hf]; rfl, by rw [Bool.and_eq_true]; exact ⟨h, h2⟩⟩

/-- A region whose extremes never touch extremes outside of it holds a group of its own. -/
theorem ownGroup_within {regional : Bool} {nx : Nat} (region : Fin n → Bool) (data : List (Fin n → Bool))
    (h : ∀ f ∈ data, ∀ i j, Touch regional nx i j → f i = true → f j = true → region i = region j) : OwnGroup regional nx data (within region data) where
  length := by simp [within]
  sub := fun t i hi => ((isExtreme_within region data t i).mp hi).1
  objects := by
    intro t i j hij hi hj
    obtain ⟨f, hf, h1⟩ := id hi
    obtain ⟨g, hg, h2⟩ := id hj
    rw [hf, Option.some.injEq] at hg
    subst hg
    rw [isExtreme_within, isExtreme_within, h f (List.mem_of_getElem? hf) i j hij h1 h2]
    exact and_congr (iff_of_true hi hj) Iff.rfl
  cells := by
    intro t i hi hj
    rw [isExtreme_within, isExtreme_within]
    exact and_congr (iff_of_true hi hj) Iff.rfl

theorem rowCen_ofCells (m : Nat) : OfCells (rowCen m) := by
  intro f g k l h
  unfold rowCen
  have : ((List.finRange (1 * m)).filter fun i => f i == k) = (List.finRange (1 * m)).filter fun i => g i == l :=
    List.filter_congr fun i _ => by rw [Bool.eq_iff_iff, beq_iff_eq, beq_iff_eq]; exact h i
  rw [this]

/-- Cells 0 and 2 merge and split again; cells 6 and 8 merge too, and only cell 8 stays. -/
def twoMerges : List (Fin (1 * 9) → Bool) :=
  [fun i => i.val == 0 || i.val == 2 || i.val == 6 || i.val == 8, fun i => !(i.val == 3 || i.val == 4 || i.val == 5),
   fun i => i.val == 0 || i.val == 2 || i.val == 8]

-- non-vacuity: the right half alone, among cells 6–8, is a group of its own; there the object of step 1 is split between the events of cells 6 and 8
example : OwnGroup true 9 twoMerges (within (fun i => decide (5 ≤ i.val)) twoMerges) ∧
    (match trackingGrid quickFind (rowRun 9 true (1 / 3)) [2, 1] twoMerges, trackingGrid quickFind (rowRun 9 true (1 / 3)) [2, 1] (within (fun i => decide (5 ≤ i.val)) twoMerges) with
      | [a, b, c], [a', b', c'] => decide (a 6 ≠ a 8 ∧ b 6 = a 6 ∧ b 8 = a 8 ∧ c 8 = a 8 ∧ 0 < c 8 ∧ a' 6 ≠ a' 8 ∧ b' 6 = a' 6 ∧ b' 8 = a' 8 ∧ c' 8 = a' 8 ∧ a 8 ≠ a' 8)
      | _, _ => false) = true := by
  refine ⟨ownGroup_within _ _ ?_, by decide +kernel⟩
  intro f hf i j hij hi hj
  have hij := (touch_iff (by decide)).mpr hij
  have H : (twoMerges.all fun f => (List.finRange (1 * 9)).all fun i => (List.finRange (1 * 9)).all fun j =>
    !((near (i.val / 9) (j.val / 9) && (near (i.val % 9) (j.val % 9) ||
    (!true && ((i.val % 9 == 0 && j.val % 9 == 9 - 1) || (i.val % 9 == 9 - 1 && j.val % 9 == 0))))) && f i && f j) ||
      decide (5 ≤ i.val) == decide (5 ≤ j.val)) = true := by decide +kernel
  have := List.all_eq_true.mp (List.all_eq_true.mp (List.all_eq_true.mp H f hf) i (List.mem_finRange i)) j (List.mem_finRange j)
  rw [hij, hi, hj] at this
  simpa using this

/-- **C204**, with `allow_merging = False`: the same, for a group whose cells touch no other extreme cell of the same or of the next or previous step. -/
theorem C204_group_tracked_alone_without_merging {ny nx : Nat} (cc : Labeller) (hcc : CorrectLabeller cc) (hnx : 0 < nx) (p : GridRun ny nx)
    (hm : p.allowMerging = false) (chunks : List Nat) (whole part : List (Fin (ny * nx) → Bool))
    (hsub : ∀ t i, IsExtreme part t i → IsExtreme whole t i)
    (h : ∀ a b, JoinedInTime p.regional nx whole a b → (IsExtreme part a.1 a.2 ↔ IsExtreme part b.1 b.2)) :
    (∀ (t : Nat) (f : Frame (ny * nx)), (trackingGrid cc p chunks part)[t]? = some f → ∀ i, 0 < f i ↔ IsExtreme part t i) ∧
    (∀ t i u j, IsExtreme part t i → (SameEvent (trackingGrid cc p chunks part) t i u j ↔ SameEvent (trackingGrid cc p chunks whole) t i u j)) := by
  have kp := (C64_no_merging_events cc hcc hnx p hm chunks part).1
  have kw := (C64_no_merging_events cc hcc hnx p hm chunks whole).1
  have len : ∀ data : List (Fin (ny * nx) → Bool), (trackingGrid cc p chunks data).length = data.length := by
    intro data
    unfold trackingGrid
    rw [hm]
    exact length_identify
  refine ⟨fun t f hf i => (kp t t f f hf hf i i).1, fun t i u j hi => ?_⟩
  have ex : ∀ (data : List (Fin (ny * nx) → Bool)) t i, IsExtreme data t i → ∃ f, (trackingGrid cc p chunks data)[t]? = some f := by
    rintro data t i ⟨d, hd, _⟩
    have : t < (trackingGrid cc p chunks data).length := by rw [len]; exact (List.getElem?_eq_some_iff.mp hd).1
    exact ⟨_, List.getElem?_eq_getElem this⟩
  have lift : ∀ (data : List (Fin (ny * nx) → Bool)),
      (∀ (t u : Nat) (g g' : Frame (ny * nx)), (trackingGrid cc p chunks data)[t]? = some g → (trackingGrid cc p chunks data)[u]? = some g' →
      ∀ i j, (0 < g i ↔ IsExtreme data t i) ∧
        ((0 < g i ∧ g i = g' j) ↔ (IsExtreme data t i ∧ IsExtreme data u j ∧ Linked (JoinedInTime p.regional nx data) (t, i) (u, j)))) →
      (SameEvent (trackingGrid cc p chunks data) t i u j ↔
        IsExtreme data t i ∧ IsExtreme data u j ∧ Linked (JoinedInTime p.regional nx data) (t, i) (u, j)) := by
    intro data k
    constructor
    · rintro ⟨f', g', hf', hg', h0, he⟩
      exact (k t u f' g' hf' hg' i j).2.mp ⟨h0, he⟩
    · intro hl
      obtain ⟨f, hf⟩ := ex data t i hl.1
      obtain ⟨g, hg⟩ := ex data u j hl.2.1
      obtain ⟨h0, he⟩ := (k t u f g hf hg i j).2.mpr hl
      exact ⟨f, g, hf, hg, h0, he⟩
  rw [lift part kp, lift whole kw]
  constructor
  · rintro ⟨-, hj, hl⟩
    exact ⟨hsub _ _ hi, hsub _ _ hj, hl.mono fun a b hab => ⟨hab.1, hab.2.1, hsub _ _ hab.2.2.1, hsub _ _ hab.2.2.2⟩⟩
  · rintro ⟨-, -, hl⟩
    have : ∀ v w, IsExtreme part v.1 v.2 → Linked (JoinedInTime p.regional nx whole) v w →
        IsExtreme part w.1 w.2 ∧ Linked (JoinedInTime p.regional nx part) v w := by
      intro v w hv hl
      induction hl with
      | refl => exact ⟨hv, .refl _⟩
      | fwd _ hab ih =>
        have pb := (h _ _ hab).mp ih.1
        exact ⟨pb, .fwd ih.2 ⟨hab.1, hab.2.1, ih.1, pb⟩⟩
      | bwd _ hab ih =>
        have pa := (h _ _ hab).mpr ih.1
        exact ⟨pa, .bwd ih.2 ⟨hab.1, hab.2.1, pa, ih.1⟩⟩
    have := this (t, i) (u, j) hi hl
    exact ⟨hi, this⟩

-- non-vacuity: cells 0 and 1 drift, cell 4 stays
example : (identifyObjectsGrid quickFind true true 5 [fun i : Fin 5 => i.val == 0 || i.val == 4, fun i => i.val == 1 || i.val == 4]).map
      (fun g => (List.finRange 5).map g) = [[1, 0, 0, 0, 2], [0, 1, 0, 0, 2]] ∧
    (identifyObjectsGrid quickFind true true 5 [fun i : Fin 5 => i.val == 4, fun i => i.val == 4]).map
      (fun g => (List.finRange 5).map g) = [[0, 0, 0, 0, 1], [0, 0, 0, 0, 1]] := by decide +kernel

end MarEx.Props
