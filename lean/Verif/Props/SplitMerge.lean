import Verif.Lemmas.Driver
import Verif.Lemmas.Consolidate
import Verif.Props.Partition
import Verif.Spec.Tracking
/-! Properties C14, C19–C21 (split/merge part), C27 and C57. -/
namespace MarEx.Props
open MarEx

variable {n : Nat}

/-! ### Auxiliary facts -/

theorem partitionOK_gridCfg (wrap nn : Bool) (ny nx : Nat) (thr : ℚ) (cen : Frame n → Nat → ℚ × ℚ) :
    PartitionOK (gridCfg wrap nn ny nx thr cen) := by
  intro prev cur child parents childIds props i hne hlen hi
  have hpne : parents ≠ [] := by
    intro h; rw [h] at hlen; exact hne (List.length_eq_zero_iff.mp hlen)
  unfold gridCfg
  cases nn
  · simp only [Bool.false_eq_true, if_false]
    unfold centroidPart
    have := argmin_lt (l := parents.map fun p =>
      distSqMask wrap nx (rowOf nx i) (colOf nx i) (cenOf props p).1 (cenOf props p).2) (by simpa using hpne)
    rw [List.length_map, ← hlen] at this
    rw [List.getD_eq_getElem _ _ this]
    exact List.getElem_mem _
  · simp only [if_true]
    unfold nnPart
    dsimp only
    have := nnAssign_lt wrap ny nx (max (sqrtTimes ((parents.map fun p => (areaOf props p).getD 0).foldl max 0) 3) 40)
      (parents.map (cellsWith prev)) (parents.map (cenOf props)) i (by simpa using hpne) (by simp)
    rw [List.length_map, ← hlen] at this
    rw [List.getD_eq_getElem _ _ this]
    exact List.getElem_mem _

/-- The table gives the area of every object of the frame. -/
def AreasListed (w : Fin n → ℚ) (f : Frame n) (props : List Obj) : Prop :=
  ∀ i, 0 < f i → areaOf props (f i) = some (Spec.objectArea w f (f i))

theorem AreasListed.good {w : Fin n → ℚ} {f : Frame n} {props : List Obj} (h : AreasListed w f props) :
    Good w f props (firstNewId props) := by
  refine ⟨fun i => ?_, h, fun k hk => lt_firstNewId hk⟩
  by_cases h0 : f i = 0
  · rw [h0]; unfold firstNewId; omega
  · exact lt_firstNewId (hasId_iff_area.mpr ⟨_, h i (by omega)⟩)

/-- `p` has at least two children among the links. -/
def Splits (links : List Ov) (p : Nat) : Prop := ∃ k k', k ≠ k' ∧ Spec.LinkedTo links p k ∧ Spec.LinkedTo links p k'

/-- `k` is a child of a splitting parent. -/
def InSplit (links : List Ov) (k : Nat) : Prop := ∃ p, Splits links p ∧ Spec.LinkedTo links p k

theorem linkedTo_iff {links : List Ov} {p k : Nat} : Spec.LinkedTo links p k ↔ k ∈ childrenOf links p := mem_childrenOf.symm

theorem splits_of_cons {links : List Ov} {p first : Nat} {rest : List Nat} (hnd : (childrenOf links p).Nodup)
    (h : childrenOf links p = first :: rest) (hr : rest ≠ []) : Splits links p := by
  obtain ⟨k, hk⟩ := List.exists_mem_of_ne_nil rest hr
  rw [h, List.nodup_cons] at hnd
  exact ⟨first, k, fun e => hnd.1 (e ▸ hk), linkedTo_iff.mpr (by rw [h]; simp), linkedTo_iff.mpr (by rw [h]; simp [hk])⟩

theorem consolidateParent_map (c : TrackCfg n) (ovs : List Ov) (hnd : (ovs.map fun o => (o.a, o.b)).Nodup)
    (st : Frame n × List Obj) (p : Nat) : ∃ ρ : Nat → Nat, (∀ i, (consolidateParent c ovs st p).1 i = ρ (st.1 i)) ∧
      ∀ k, (¬ InSplit ovs k → ρ k = k) ∧ (InSplit ovs k → InSplit ovs (ρ k)) := by
  rcases consolidateParent_cases c ovs st p with h | ⟨first, rest, hch, hne, hp, hfirst, heq⟩
  · exact ⟨id, fun i => by rw [h]; rfl, fun k => ⟨fun _ => rfl, fun h => h⟩⟩
  · have hs := splits_of_cons (nodup_childrenOf hnd p) hch hne
    refine ⟨fun k => if k ∈ rest ∧ k ≠ first ∧ hasId st.2 k = true then first else k, ?_, ?_⟩
    · intro i
      rw [heq]
      have := (foldl_consolidateChild first rest st).1 i
      dsimp only
      split <;> exact this
    · intro k
      have hmem : ∀ x ∈ first :: rest, InSplit ovs x := fun x hx => ⟨p, hs, linkedTo_iff.mpr (by rw [hch]; exact hx)⟩
      constructor
      · intro hk
        dsimp only
        rw [if_neg]
        rintro ⟨h1, _⟩
        exact hk (hmem k (by simp [h1]))
      · intro hk
        dsimp only
        split
        · exact hmem first (by simp)
        · exact hk

theorem foldl_consolidateParent_map (c : TrackCfg n) (ovs : List Ov) (hnd : (ovs.map fun o => (o.a, o.b)).Nodup) (ps : List Nat)
    (st : Frame n × List Obj) : ∃ ρ : Nat → Nat, (∀ i, (ps.foldl (consolidateParent c ovs) st).1 i = ρ (st.1 i)) ∧
      ∀ k, (¬ InSplit ovs k → ρ k = k) ∧ (InSplit ovs k → InSplit ovs (ρ k)) := by
  induction ps generalizing st with
  | nil => exact ⟨id, fun _ => rfl, fun k => ⟨fun _ => rfl, fun h => h⟩⟩
  | cons p ps ih =>
    obtain ⟨ρ, h1, h2⟩ := consolidateParent_map c ovs hnd st p
    obtain ⟨σ, g1, g2⟩ := ih (consolidateParent c ovs st p)
    refine ⟨fun k => σ (ρ k), fun i => by rw [List.foldl_cons, g1, h1], fun k => ⟨fun hk => ?_, fun hk => ?_⟩⟩
    · dsimp only
      rw [(h2 k).1 hk]; exact (g2 k).1 hk
    · exact (g2 _).2 ((h2 k).2 hk)

/-! ### C14: consolidation -/

/-- **C14**: consolidating the objects of frame `f1` under the links from frame `f2` is a renaming of whole objects: the set of
labelled cells is unchanged, cells of one object stay together, an object that is not the child of a splitting parent keeps its ID
and takes no other cells, a child of a splitting parent gets the ID of such a child; and afterwards the table holds the total area
of every object of the frame. -/
theorem C14_consolidation_renames (c : TrackCfg n) (f2 f1 : Frame n) (props : List Obj) (ht : AreasListed c.w f1 props) :
    let links := enforceOverlap c.thr props (checkOverlapSlice c.w f2 f1)
    let r := consolidate c f2 f1 props
    (∀ i, 0 < r.1 i ↔ 0 < f1 i) ∧ AreasListed c.w r.1 r.2 ∧
    ∃ ρ : Nat → Nat, (∀ i, r.1 i = ρ (f1 i)) ∧
      ∀ k, (¬ InSplit links k → ρ k = k) ∧ (InSplit links k → InSplit links (ρ k)) := by
  intro links r
  have u := consolidate_upd c f2 f1 props _ ht.good
  refine ⟨u.supp, u.good.area, ?_⟩
  exact foldl_consolidateParent_map c _ (nodup_enforce (pairwise_checkOverlapSlice _ _ _)) _ _

-- non-vacuity: object 1 (cells 0–3) is followed by objects 2 (cells 0, 1) and 3 (cell 3); object 4 is unrelated
example : AreasListed (n := 6) (fun _ => 1) (fun i => if i.val < 2 then 2 else if i.val = 3 then 3 else if i.val = 5 then 4 else 0)
    [⟨1, 4, (0, 0)⟩, ⟨2, 2, (0, 0)⟩, ⟨3, 1, (0, 0)⟩, ⟨4, 1, (0, 0)⟩] := by unfold AreasListed Spec.objectArea; decide +kernel
example : (fun r : Frame 6 × List Obj => ((List.finRange 6).map r.1, r.2.map fun o => (o.id, o.area)))
      (consolidate (n := 6) (gridCfg true false 1 6 (1/2) (fun _ _ => (0, 0))) (fun i => if i.val < 4 then 1 else 0)
        (fun i => if i.val < 2 then 2 else if i.val = 3 then 3 else if i.val = 5 then 4 else 0)
        [⟨1, 4, (0, 0)⟩, ⟨2, 2, (0, 0)⟩, ⟨3, 1, (0, 0)⟩, ⟨4, 1, (0, 0)⟩])
    = ([2, 2, 0, 2, 0, 4], [(1, 4), (2, 3), (4, 1)]) := by decide +kernel

/-- **C130**, one child per parent, proved part: if no child has two linked parents (this is the condition under which the merge
loop of the previous step stops before its iteration limit) and no ID occurs in both frames, then all children of a splitting parent
get the smallest ID among them, exactly their cells carry it afterwards, the other IDs disappear from the table, and the area of
the survivor is the sum of the areas.
Missing: children with several linked parents, which remain when the merge loop hits its iteration limit (`C130_shared_child_fails`). -/
theorem C130_one_child_per_parent_partial (c : TrackCfg n) (f2 f1 : Frame n) (props : List Obj) (ht : AreasListed c.w f1 props)
    (hdisj : ∀ i j, 0 < f2 i → f2 i ≠ f1 j)
    (hsingle : ∀ p q k, Spec.LinkedTo (enforceOverlap c.thr props (checkOverlapSlice c.w f2 f1)) p k →
      Spec.LinkedTo (enforceOverlap c.thr props (checkOverlapSlice c.w f2 f1)) q k → p = q)
    (p m : Nat) (hsplit : Splits (enforceOverlap c.thr props (checkOverlapSlice c.w f2 f1)) p)
    (hm : Spec.LinkedTo (enforceOverlap c.thr props (checkOverlapSlice c.w f2 f1)) p m)
    (hmin : ∀ k, Spec.LinkedTo (enforceOverlap c.thr props (checkOverlapSlice c.w f2 f1)) p k → m ≤ k) :
    (∀ i, (consolidate c f2 f1 props).1 i = m ↔
      Spec.LinkedTo (enforceOverlap c.thr props (checkOverlapSlice c.w f2 f1)) p (f1 i)) ∧
    (∀ k, Spec.LinkedTo (enforceOverlap c.thr props (checkOverlapSlice c.w f2 f1)) p k → k ≠ m →
      hasId (consolidate c f2 f1 props).2 k = false) ∧
    (∀ ks : List Nat, ks.Nodup → (∀ k, k ∈ ks ↔ Spec.LinkedTo (enforceOverlap c.thr props (checkOverlapSlice c.w f2 f1)) p k) →
      areaOf (consolidate c f2 f1 props).2 m = some (ks.map (Spec.objectArea c.w f1)).sum) := by
  have u := consolidate_upd c f2 f1 props _ ht.good
  have hsorted := fun p => sorted_childrenOf c.thr props c.w f2 f1 p
  have hmem : ∀ o ∈ enforceOverlap c.thr props (checkOverlapSlice c.w f2 f1), 0 < o.a ∧ 0 < o.b ∧ (∃ i, f2 i = o.a ∧ f1 i = o.b) ∧
      hasId props o.a = true ∧ hasId props o.b = true := by
    intro o ho
    obtain ⟨h1, h2, h3⟩ := mem_enforce ho
    obtain ⟨h4, h5, h6, _⟩ := mem_checkOverlapSlice.mp h1
    exact ⟨h4, h5, h6, h2, h3⟩
  have hnd := nodup_enforce (thr := c.thr) (props := props) (pairwise_checkOverlapSlice c.w f2 f1)
  have hcons : (consolidate c f2 f1 props) = (repeated ((enforceOverlap c.thr props (checkOverlapSlice c.w f2 f1)).map (·.a))).foldl
      (consolidateParent c (enforceOverlap c.thr props (checkOverlapSlice c.w f2 f1))) (f1, props) := rfl
  generalize enforceOverlap c.thr props (checkOverlapSlice c.w f2 f1) = links at *
  have hrep : ∀ q, q ∈ repeated (links.map (·.a)) ↔ 1 < (childrenOf links q).length := fun q => by rw [mem_repeated, count_map_a]
  have hex := foldl_consolidateParent_exact c links hnd
    (fun p q k h1 h2 => hsingle p q k (linkedTo_iff.mpr h1) (linkedTo_iff.mpr h2))
    (fun o ho o' ho' e => by
      obtain ⟨h1, _, ⟨i, hi, _⟩, _⟩ := hmem o ho
      obtain ⟨_, _, ⟨j, _, hj⟩, _⟩ := hmem o' ho'
      exact hdisj i j (by omega) (by omega))
    (repeated (links.map (·.a))) (nodup_repeated _) (fun q hq => (hrep q).mp hq) (f1, props)
    (fun q hq => by
      have hl := (hrep q).mp hq
      obtain ⟨k, hk⟩ := List.exists_mem_of_length_pos (by omega : 0 < (childrenOf links q).length)
      obtain ⟨o, ho, rfl, _⟩ := mem_childrenOf.mp hk
      refine ⟨(hmem o ho).2.2.2.1, fun k' hk' => ?_⟩
      obtain ⟨o', ho', _, rfl⟩ := mem_childrenOf.mp hk'
      exact (hmem o' ho').2.2.2.2)
  -- smallest child = first child
  have hfirst : ∀ q first rest, childrenOf links q = first :: rest → ∀ x ∈ rest, first < x := by
    intro q first rest h x hx
    have := hsorted q
    rw [h, List.pairwise_cons] at this
    exact this.1 x hx
  obtain ⟨first, rest, hch⟩ : ∃ first rest, childrenOf links p = first :: rest := by
    cases h : childrenOf links p with
    | nil => have := linkedTo_iff.mp hm; rw [h] at this; cases this
    | cons a b => exact ⟨a, b, rfl⟩
  have hmfirst : m = first := by
    have h1 := hmin first (linkedTo_iff.mpr (by rw [hch]; simp))
    have h2 := linkedTo_iff.mp hm
    rw [hch] at h2
    rcases List.mem_cons.mp h2 with h | h
    · exact h
    · have := hfirst p first rest hch m h; omega
  have hlenp : 1 < (childrenOf links p).length := by
    obtain ⟨k, k', hkk, h1, h2⟩ := hsplit
    have h1' := linkedTo_iff.mp h1
    have h2' := linkedTo_iff.mp h2
    rw [hch] at h1' h2' ⊢
    cases rest with
    | nil => simp at h1' h2'; omega
    | cons a b => simp
  have hcell : ∀ i, (consolidate c f2 f1 props).1 i = m ↔ Spec.LinkedTo links p (f1 i) := by
    intro i
    rw [hcons]
    constructor
    · intro h
      by_cases hin : ∃ q ∈ repeated (links.map (·.a)), f1 i ∈ childrenOf links q
      · obtain ⟨q, hq, hk⟩ := hin
        obtain ⟨a, b, hab⟩ : ∃ a b, childrenOf links q = a :: b := by
          cases h : childrenOf links q with
          | nil => rw [h] at hk; cases hk
          | cons a b => exact ⟨a, b, rfl⟩
        have := (hex i).1 q hq a b hab (by rw [← hab]; exact hk)
        rw [h] at this
        have : p = q := hsingle p q m hm (linkedTo_iff.mpr (by rw [hab, this]; simp))
        rw [this]; exact linkedTo_iff.mpr hk
      · have := (hex i).2 (fun q hq hk => hin ⟨q, hq, hk⟩)
        rw [h] at this
        change m = f1 i at this
        rw [← this]; exact hm
    · intro h
      have := (hex i).1 p ((hrep p).mpr hlenp) first rest hch (by rw [← hch]; exact linkedTo_iff.mp h)
      rw [this, hmfirst]
  refine ⟨hcell, ?_, ?_⟩
  · intro k hk hkm
    by_contra hcon
    rw [Bool.not_eq_false] at hcon
    obtain ⟨o, ho, hoa, hob⟩ := hk
    obtain ⟨_, hpos, ⟨i, _, hi⟩, _⟩ := hmem o ho
    rcases u.noextra k hcon with ⟨_, j, hj⟩ | ⟨_, h⟩
    · -- a cell carrying k afterwards
      rw [hcons] at hj
      by_cases hin : ∃ q ∈ repeated (links.map (·.a)), f1 j ∈ childrenOf links q
      · obtain ⟨q, hq, hkq⟩ := hin
        obtain ⟨a, b, hab⟩ : ∃ a b, childrenOf links q = a :: b := by
          cases h : childrenOf links q with
          | nil => rw [h] at hkq; cases hkq
          | cons a b => exact ⟨a, b, rfl⟩
        have h1 := (hex j).1 q hq a b hab (by rw [← hab]; exact hkq)
        rw [hj] at h1
        have : p = q := hsingle p q k ⟨o, ho, hoa, hob⟩ (linkedTo_iff.mpr (by rw [hab, h1]; simp))
        rw [← this, hch] at hab
        injection hab with e1 _
        omega
      · have h1 := (hex j).2 (fun q hq hk => hin ⟨q, hq, hk⟩)
        rw [hj] at h1
        change k = f1 j at h1
        exact hin ⟨p, (hrep p).mpr hlenp, by rw [← h1]; exact linkedTo_iff.mp ⟨o, ho, hoa, hob⟩⟩
    · rcases h i with h | h <;> omega
  · intro ks hks hmemks
    obtain ⟨o, ho, hoa, hob⟩ := hm
    obtain ⟨_, hpos, ⟨i, _, hi⟩, _⟩ := hmem o ho
    have hri : (consolidate c f2 f1 props).1 i = m := (hcell i).mpr ⟨o, ho, hoa, hi.symm⟩
    have := u.good.area i (by omega)
    rw [hri] at this
    rw [this]
    congr 1
    have e := sum_weightOf c.w f1 ks hks
    change _ = (ks.map (weightOf c.w f1)).sum
    rw [e]
    unfold weightOf
    congr 1
    apply List.map_congr_left
    intro j _
    by_cases hj : Spec.LinkedTo links p (f1 j)
    · rw [if_pos ((hcell j).mpr hj), if_pos ((hmemks _).mpr hj)]
    · rw [if_neg (fun h => hj ((hcell j).mp h)), if_neg (fun h => hj ((hmemks _).mp h))]

-- non-vacuity: in the example above parent 1 splits into 2 and 3, each child has one parent, and 2 is the smallest
example : enforceOverlap (1/2) [⟨1, 4, (0, 0)⟩, ⟨2, 2, (0, 0)⟩, ⟨3, 1, (0, 0)⟩, ⟨4, 1, (0, 0)⟩] (checkOverlapSlice (n := 6) (fun _ => 1)
      (fun i => if i.val < 4 then 1 else 0) (fun i => if i.val < 2 then 2 else if i.val = 3 then 3 else if i.val = 5 then 4 else 0))
    = [⟨1, 2, 2⟩, ⟨1, 3, 1⟩] := by decide +kernel

/-- **C130** fails in general: parents 1 (children 3, 4) and 2 (children 4, 5) share the child 4. After consolidation parent 2 still
overlaps two IDs, 3 and 5. -/
theorem C130_shared_child_fails :
    let f2 : Frame 4 := fun i => if i.val < 2 then 1 else 2
    let f1 : Frame 4 := fun i => if i.val = 0 then 3 else if i.val < 3 then 4 else 5
    let props : List Obj := [⟨1, 2, (0, 0)⟩, ⟨2, 2, (0, 0)⟩, ⟨3, 1, (0, 0)⟩, ⟨4, 2, (0, 0)⟩, ⟨5, 1, (0, 0)⟩]
    let r := consolidate (gridCfg true false 1 4 (1/2) (fun _ _ => (0, 0))) f2 f1 props
    Splits (enforceOverlap (1/2) props (checkOverlapSlice (fun _ => 1) f2 f1)) 2 ∧
    (List.finRange 4).map f2 = [1, 1, 2, 2] ∧ (List.finRange 4).map r.1 = [3, 3, 3, 5] := by
  refine ⟨⟨4, 5, by decide, ⟨⟨2, 4, 1⟩, by decide +kernel, rfl, rfl⟩, ⟨⟨2, 5, 1⟩, by decide +kernel, rfl, rfl⟩⟩, by decide +kernel, by decide +kernel⟩

/-! ### C19: chunk invariance -/

/-- **C19**, proved part: two ways of cutting the same record into time chunks, where every chunk is non-empty and every chunk after
the first has at least two steps, give the same object field, object table, links and merge records.
Missing: one-step chunks after the first (`C19_fails`). -/
theorem C19_chunking_irrelevant_partial (c : TrackCfg n) (chunks chunks' : List (List (Frame n))) (props : List Obj)
    (h : Spec.ChunksOfTwo chunks) (h' : Spec.ChunksOfTwo chunks') (hsame : chunks.flatten = chunks'.flatten) :
    splitAndMerge c chunks props = splitAndMerge c chunks' props := by
  have key : ∀ (ch : List (List (Frame n))), Spec.ChunksOfTwo ch → ch.flatten ≠ [] →
      chunksLoop c 0 [] ch ⟨props, firstNewId props, []⟩
        = chunkLoop c 0 zeroFrame zeroFrame [] true ch.flatten ⟨props, firstNewId props, []⟩ := by
    intro ch hc hne
    cases ch with
    | nil => simp at hne
    | cons a b => exact chunksLoop_eq_aux c b 0 [] _ hc.2 a hc.1 (Or.inr rfl)
  have hnil : ∀ (ch : List (List (Frame n))), Spec.ChunksOfTwo ch → ch.flatten = [] → ch = [] := by
    intro ch hc he
    cases ch with
    | nil => rfl
    | cons a b =>
      rw [List.flatten_cons, List.append_eq_nil_iff] at he
      exact absurd he.1 hc.1
  unfold splitAndMerge
  by_cases hne : chunks.flatten = []
  · rw [hnil chunks h hne, hnil chunks' h' (hsame ▸ hne)]
  · rw [key chunks h hne, key chunks' h' (hsame ▸ hne), hsame]

-- non-vacuity: chunkings 2+2+2, 3+3 and 6 of a six-step record
example (a b c d e f : Frame n) : Spec.ChunksOfTwo [[a, b], [c, d], [e, f]] ∧ Spec.ChunksOfTwo [[a, b, c], [d, e, f]] ∧
    Spec.ChunksOfTwo [[a, b, c, d, e, f]] ∧ [[a, b], [c, d], [e, f]].flatten = [[a, b, c], [d, e, f]].flatten := by
  simp [Spec.ChunksOfTwo]

/-- **C19** fails for one-step chunks: object 1 splits into 2 and 3; in one chunk of two steps they are consolidated, in two chunks
of one step they are not. -/
theorem C19_fails :
    let c := gridCfg (n := 4) true false 1 4 (1/2) (fun _ _ => (0, 0))
    let f : Frame 4 := fun _ => 1
    let g : Frame 4 := fun i => if i.val < 2 then 2 else if i.val = 3 then 3 else 0
    let props : List Obj := [⟨1, 4, (0, 0)⟩, ⟨2, 2, (0, 0)⟩, ⟨3, 1, (0, 0)⟩]
    (splitAndMerge c [[f, g]] props).field.map (fun h => (List.finRange 4).map h) = [[1, 1, 1, 1], [2, 2, 0, 2]] ∧
    (splitAndMerge c [[f], [g]] props).field.map (fun h => (List.finRange 4).map h) = [[1, 1, 1, 1], [2, 2, 0, 3]] := by
  decide +kernel

/-! ### Results of the whole loop -/

theorem splitAndMerge_inv (c : TrackCfg n) (hc : PartitionOK c) (chunks : List (List (Frame n))) (props : List Obj)
    (hu : Spec.TimeUnique chunks.flatten) (ht : Spec.TableExact c.w chunks.flatten props) :
    (∃ s, Inv c.w (firstNewId props) (splitAndMerge c chunks props).field chunks.flatten.length s ∧
      s.props = (splitAndMerge c chunks props).props ∧ s.merges = (splitAndMerge c chunks props).merges) ∧
    List.Forall₂ SameSupport chunks.flatten (splitAndMerge c chunks props).field := by
  have hI : Inv c.w (firstNewId props) ([] ++ chunks.flatten) 0 ⟨props, firstNewId props, []⟩ := by
    refine ⟨⟨?_, ht.areas, fun k hk => lt_firstNewId hk, hu, fun k hk => (ht.ids k).mp hk⟩, le_refl _, by simp, by simp⟩
    intro f hf i
    by_cases h0 : f i = 0
    · rw [h0]; change 0 < firstNewId props; unfold firstNewId; omega
    · exact lt_firstNewId ((ht.ids _).mpr ⟨by omega, f, hf, i, rfl⟩)
  obtain ⟨h1, h2⟩ := chunksLoop_inv c hc (firstNewId props) chunks [] [] 0 _ rfl ⟨[], rfl⟩ hI
  rw [List.nil_append, Nat.zero_add] at h1
  exact ⟨⟨_, h1, rfl, rfl⟩, h2⟩

/-- **C20**: on a gridded record whose IDs are unique in time and described by the table, every ID created by split/merge differs from
every ID of the input and is created once, and afterwards no ID occurs at two time steps. -/
theorem C20_new_ids_are_fresh (wrap nn : Bool) (ny nx : Nat) (thr : ℚ) (cen : Frame n → Nat → ℚ × ℚ) (chunks : List (List (Frame n)))
    (props : List Obj) (hu : Spec.TimeUnique chunks.flatten) (ht : Spec.TableExact (fun _ => 1) chunks.flatten props) :
    let r := splitAndMerge (gridCfg wrap nn ny nx thr cen) chunks props
    (∀ x ∈ r.merges, ∀ k ∈ x.children.tail, 0 < k ∧ (∀ f ∈ chunks.flatten, ∀ i, f i ≠ k) ∧ hasId props k = false) ∧
    (r.merges.flatMap fun x => x.children.tail).Nodup ∧ Spec.TimeUnique r.field := by
  intro r
  obtain ⟨⟨s, hI, e1, e2⟩, _⟩ := splitAndMerge_inv _ (partitionOK_gridCfg wrap nn ny nx thr cen) chunks props hu ht
  have hf := hI.fresh
  rw [e2] at hf
  have hf' : (r.merges.flatMap fun x => x.children.tail) = List.range' (firstNewId props) (s.nextId - firstNewId props) := hf
  refine ⟨?_, ?_, hI.g.disj⟩
  · intro x hx k hk
    have hmem : k ∈ (r.merges.flatMap fun x => x.children.tail) := List.mem_flatMap.mpr ⟨x, hx, hk⟩
    rw [hf', List.mem_range'_1] at hmem
    have hno : hasId props k = false := by
      cases h : hasId props k with
      | false => rfl
      | true => have := lt_firstNewId h; omega
    have hpos : 0 < k := by
      have : 0 < firstNewId props := by unfold firstNewId; omega
      omega
    refine ⟨hpos, ?_, hno⟩
    intro f hf i e
    have := (ht.ids k).mpr ⟨hpos, f, hf, i, e⟩
    rw [hno] at this; cases this
  · rw [hf']; exact List.nodup_range'

/-- **C21**, split/merge part: a cell carries an object ID after split/merge at a time step iff it did before. -/
theorem C21_split_merge_keeps_support (wrap nn : Bool) (ny nx : Nat) (thr : ℚ) (cen : Frame n → Nat → ℚ × ℚ)
    (chunks : List (List (Frame n))) (props : List Obj) (hu : Spec.TimeUnique chunks.flatten)
    (ht : Spec.TableExact (fun _ => 1) chunks.flatten props) :
    let r := splitAndMerge (gridCfg wrap nn ny nx thr cen) chunks props
    r.field.length = chunks.flatten.length ∧
    ∀ (t : Nat) (f g : Frame n), chunks.flatten[t]? = some f → r.field[t]? = some g → ∀ i, 0 < g i ↔ 0 < f i := by
  intro r
  obtain ⟨_, h⟩ := splitAndMerge_inv _ (partitionOK_gridCfg wrap nn ny nx thr cen) chunks props hu ht
  refine ⟨h.length_eq.symm, ?_⟩
  intro t f g hf hg i
  obtain ⟨hlt, rfl⟩ := List.getElem?_eq_some_iff.mp hf
  obtain ⟨hlt', rfl⟩ := List.getElem?_eq_some_iff.mp hg
  exact h.get hlt hlt' i

/-- **C27**: every merge record has a time step `t + 1`, at least two distinct parents, as many distinct children, and its first child is the
merged object: every parent is an object of the final field at step `t` and shared a cell with the merged object at step `t + 1`, and the
overlap values are, in the order of the parents, the numbers of shared cells. `g` is the object field of step `t + 1` at the moment
of the merge; it labels the same cells as the final field. -/
theorem C27_merge_records (wrap nn : Bool) (ny nx : Nat) (thr : ℚ) (cen : Frame n → Nat → ℚ × ℚ) (chunks : List (List (Frame n)))
    (props : List Obj) (hu : Spec.TimeUnique chunks.flatten) (ht : Spec.TableExact (fun _ => 1) chunks.flatten props) :
    let r := splitAndMerge (gridCfg wrap nn ny nx thr cen) chunks props
    ∀ x ∈ r.merges, ∃ (t : Nat) (f h g : Frame n) (child : Nat), x.time = t + 1 ∧ r.field[t]? = some f ∧ r.field[t + 1]? = some h ∧
      (∀ i, 0 < g i ↔ 0 < h i) ∧ 2 ≤ x.parents.length ∧ x.children.length = x.parents.length ∧ x.children.Nodup ∧ x.parents.Nodup ∧
      x.children.head? = some child ∧ 0 < child ∧ (∀ p ∈ x.parents, 0 < p ∧ ∃ i, f i = p ∧ g i = child) ∧
      x.areas = x.parents.map fun p => ((List.finRange n).map fun i => if f i = p ∧ g i = child then (1 : ℚ) else 0).sum := by
  intro r x hx
  obtain ⟨⟨s, hI, e1, e2⟩, _⟩ := splitAndMerge_inv _ (partitionOK_gridCfg wrap nn ny nx thr cen) chunks props hu ht
  obtain ⟨_, t, f, h, g, h1, h2, h3, h4, h5⟩ := hI.recs x (by rw [e2]; exact hx)
  obtain ⟨child, hc1, hc2, hc3, hc4⟩ := h5.head
  exact ⟨t, f, h, g, child, h1, h2, h3, h4, h5.two, h5.len, h5.cnodup, h5.pnodup, hc1, hc2, hc4, hc3⟩

/-- **C57**: after split/merge the object table lists exactly the objects of the final field, each with its total area. -/
theorem C57_table_exact_after_split_merge (wrap nn : Bool) (ny nx : Nat) (thr : ℚ) (cen : Frame n → Nat → ℚ × ℚ)
    (chunks : List (List (Frame n))) (props : List Obj) (hu : Spec.TimeUnique chunks.flatten)
    (ht : Spec.TableExact (fun _ => 1) chunks.flatten props) :
    let r := splitAndMerge (gridCfg wrap nn ny nx thr cen) chunks props
    Spec.TableExact (fun _ => 1) r.field r.props := by
  intro r
  obtain ⟨⟨s, hI, e1, e2⟩, _⟩ := splitAndMerge_inv _ (partitionOK_gridCfg wrap nn ny nx thr cen) chunks props hu ht
  have hg := hI.g
  rw [e1] at hg
  refine ⟨fun k => ⟨hg.noextra k, ?_⟩, hg.area⟩
  rintro ⟨h0, f, hf, i, rfl⟩
  exact hasId_iff_area.mpr ⟨_, hg.area f hf i h0⟩

/-- Example record: two objects (1, 2) merge into one (3), which then splits into two (4, 5). -/
def exRecord : List (Frame 6) :=
  [fun i => if i.val < 2 then 1 else if 3 < i.val then 2 else 0, fun _ => 3, fun i => if i.val < 3 then 4 else if i.val = 5 then 5 else 0]

/-- Its table. -/
def exTable : List Obj := [⟨1, 2, (0, 1/2)⟩, ⟨2, 2, (0, 9/2)⟩, ⟨3, 6, (0, 5/2)⟩, ⟨4, 3, (0, 1)⟩, ⟨5, 1, (0, 5)⟩]

-- non-vacuity of C20, C21, C27, C57
example : Spec.TimeUnique exRecord := by unfold Spec.TimeUnique exRecord; decide +kernel
example : Spec.TableExact (fun _ => 1) exRecord exTable := by
  refine ⟨?_, by unfold Spec.objectArea exRecord exTable; decide +kernel⟩
  intro k
  by_cases hk : k ≤ 5
  · have : ∀ k : Fin 6, hasId exTable k.val = true ↔ 0 < k.val ∧ ∃ f ∈ exRecord, ∃ i, f i = k.val := by
      unfold exRecord exTable; decide +kernel
    exact this ⟨k, by omega⟩
  · constructor
    · intro h
      have := lt_firstNewId h
      have e : firstNewId exTable = 6 := by decide
      omega
    · rintro ⟨_, f, hf, i, rfl⟩
      have : ∀ f ∈ exRecord, ∀ i, f i ≤ 5 := by unfold exRecord; decide
      exact absurd (this f hf i) hk
example : let r := splitAndMerge (gridCfg true false 1 6 (1/2) (fun _ _ => (0, 0))) [exRecord] exTable
    r.field.map (fun h => (List.finRange 6).map h) = [[1, 1, 0, 0, 2, 2], [3, 3, 3, 6, 6, 6], [4, 4, 4, 0, 0, 5]] ∧
    r.merges = [⟨1, [3, 6], [1, 2], [2, 2]⟩] := by decide +kernel

end MarEx.Props
