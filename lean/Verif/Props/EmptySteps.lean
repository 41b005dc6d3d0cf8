import Verif.Props.Workflow
import Verif.Props.SplitMerge
import Verif.Lemmas.Consolidate
import Verif.Props.Monotone
/-! C190: steps without extremes before and after a record do not matter. -/
namespace MarEx.Spec

/-- The record `l` with `a` times the step `z` before it and `b` times after it. -/
def around {α : Type} (z : α) (a b : Nat) (l : List α) : List α := List.replicate a z ++ l ++ List.replicate b z

/-- A step without extremes. -/
def noExtremes {n : Nat} : Fin n → Bool := fun _ => false

/-- A step without events. -/
def noEvents {n : Nat} : Fin n → Nat := fun _ => 0

/-- `chunks` are the lengths of consecutive time chunks of a record of `N` steps; all but the first have at least two steps. -/
structure ChunkLengths (chunks : List Nat) (N : Nat) : Prop where
  cover : chunks.sum = N
  positive : ∀ k ∈ chunks, 1 ≤ k
  two : ∀ k ∈ chunks.tail, 2 ≤ k

end MarEx.Spec

namespace MarEx.Props
open MarEx Spec

variable {n : Nat}

theorem map_around {α β : Type} (f : α → β) (z : α) (a b : Nat) (l : List α) : (around z a b l).map f = around (f z) a b (l.map f) := by
  simp [around]

theorem length_around {α : Type} (z : α) (a b : Nat) (l : List α) : (around z a b l).length = a + l.length + b := by
  simp [around, Nat.add_assoc]

theorem flatMap_around {α β : Type} (f : α → List β) (z : α) (hz : f z = []) (a b : Nat) (l : List α) : (around z a b l).flatMap f = l.flatMap f := by
  have h : ∀ k, (List.replicate k z).flatMap f = [] := by
    intro k; rw [List.flatMap_eq_nil_iff]; intro x hx; rw [(List.mem_replicate.1 hx).2, hz]
  simp [around, List.flatMap_append, h]

theorem getElem?_around_mid {α : Type} (z : α) (a b : Nat) (l : List α) (t : Nat) (ht : t < l.length) : (around z a b l)[a + t]? = l[t]? := by
  unfold around
  rw [List.append_assoc, List.getElem?_append_right (by simp), List.length_replicate, Nat.add_sub_cancel_left, List.getElem?_append_left ht]

theorem getElem?_around_out {α : Type} (z : α) (a b : Nat) (l : List α) (t : Nat) (ht : t < a ∨ a + l.length ≤ t) (htb : t < a + l.length + b) :
    (around z a b l)[t]? = some z := by
  unfold around
  rcases ht with h | h
  · rw [List.append_assoc, List.getElem?_append_left (by simpa using h), List.getElem?_replicate_of_lt h]
  · rw [List.getElem?_append_right (by simp; omega), List.getElem?_replicate_of_lt (by simp; omega)]

theorem extremeAt_around (a b : Nat) (fs : List (Fin n → Bool)) (t : Nat) (c : Fin n) :
    ExtremeAt (around noExtremes a b fs) t c ↔ a ≤ t ∧ ExtremeAt fs (t - a) c := by
  unfold ExtremeAt
  constructor
  · rintro ⟨f, hf, hc⟩
    have hlt : t < a + fs.length + b := by
      have := (List.getElem?_eq_some_iff.1 hf).1
      rwa [length_around] at this
    by_cases h : t < a ∨ a + fs.length ≤ t
    · rw [getElem?_around_out _ _ _ _ _ h hlt, Option.some.injEq] at hf
      rw [← hf] at hc
      exact absurd hc (by simp [noExtremes])
    · refine ⟨by omega, f, ?_, hc⟩
      rw [← getElem?_around_mid noExtremes a b fs (t - a) (by omega), ← hf]
      congr 1; omega
  · rintro ⟨h, f, hf, hc⟩
    refine ⟨f, ?_, hc⟩
    have hlt := (List.getElem?_eq_some_iff.1 hf).1
    rw [← hf, ← getElem?_around_mid noExtremes a b fs (t - a) hlt]
    congr 1; omega

theorem inGap_around (a b : Nat) (fs : List (Fin n → Bool)) (T t : Nat) (c : Fin n) :
    InGap (around noExtremes a b fs) T t c ↔ a ≤ t ∧ InGap fs T (t - a) c := by
  unfold InGap
  simp only [extremeAt_around]
  constructor
  · rintro ⟨u, v, h1, h2, ⟨h3, h4⟩, ⟨h5, h6⟩, h7, h8⟩
    refine ⟨by omega, u - a, v - a, by omega, by omega, h4, h6, ?_, by omega⟩
    intro s hs hs'
    have := h7 (s + a) (by omega) (by omega)
    rw [Nat.add_sub_cancel] at this
    exact fun h => this ⟨by omega, h⟩
  · rintro ⟨h0, u, v, h1, h2, h3, h4, h5, h6⟩
    refine ⟨u + a, v + a, by omega, by omega, ⟨by omega, by rwa [Nat.add_sub_cancel]⟩, ⟨by omega, by rwa [Nat.add_sub_cancel]⟩, ?_, by omega⟩
    rintro s hs hs' ⟨h7, h8⟩
    exact h5 (s - a) (by omega) (by omega) h8

theorem frames_ext {fs gs : List (Fin n → Bool)} (hl : fs.length = gs.length) (h : ∀ t c, ExtremeAt fs t c ↔ ExtremeAt gs t c) : fs = gs := by
  apply List.ext_getElem? 
  intro t
  by_cases ht : t < fs.length
  · have ht' : t < gs.length := hl ▸ ht
    rw [List.getElem?_eq_getElem ht, List.getElem?_eq_getElem ht', Option.some.injEq]
    funext c
    have := h t c
    unfold ExtremeAt at this
    rw [List.getElem?_eq_getElem ht, List.getElem?_eq_getElem ht'] at this
    simp only [Option.some.injEq, exists_eq_left'] at this
    exact Bool.eq_iff_iff.2 this
  · rw [List.getElem?_eq_none (by omega), List.getElem?_eq_none (by omega)]

theorem closeTimeGaps_around (T : Nat) (hT : T % 2 = 0) (a b : Nat) (fs : List (Fin n → Bool)) :
    closeTimeGaps T (around noExtremes a b fs) = around noExtremes a b (closeTimeGaps T fs) := by
  obtain ⟨hl, hx⟩ := C01_time_gaps_filled_exactly T hT (around noExtremes a b fs)
  obtain ⟨hl', hx'⟩ := C01_time_gaps_filled_exactly T hT fs
  apply frames_ext
  · rw [hl, length_around, length_around, hl']
  · intro t c
    rw [hx, extremeAt_around, extremeAt_around, inGap_around, hx']
    tauto

theorem fillTimeGaps_around (F : Nat → (Fin n → Bool) → Fin n → Bool) (hF : ∀ R, F R noExtremes = noExtremes) (T R : Nat) (hT : T % 2 = 0) (a b : Nat)
    (fs : List (Fin n → Bool)) : fillTimeGaps F T R (around noExtremes a b fs) = around noExtremes a b (fillTimeGaps F T R fs) := by
  unfold fillTimeGaps
  split
  · rfl
  · rw [closeTimeGaps_around T hT, map_around, hF]

/-! ### Objects -/

theorem range_add_add (a l b : Nat) : List.range (a + l + b) = List.range a ++ (List.range l).map (a + ·) ++ (List.range b).map (a + l + ·) := by
  rw [List.range_add, List.range_add]

theorem extremeVoxels_around (a b : Nat) (data : List (Fin n → Bool)) :
    extremeVoxels (around noExtremes a b data) = (extremeVoxels data).map fun v => (a + v.1, v.2) := by
  unfold extremeVoxels
  rw [length_around, range_add_add, List.flatMap_append, List.flatMap_append]
  have hout : ∀ t, t < a ∨ a + data.length ≤ t → t < a + data.length + b →
      (((List.finRange n).filter fun i => ((around noExtremes a b data)[t]?.map fun d => d i).getD false).map fun i => (t, i)) = [] := by
    intro t h1 h2
    rw [getElem?_around_out _ _ _ _ _ h1 h2]
    simp [noExtremes]
  have h1 : ((List.range a).flatMap fun t =>
      ((List.finRange n).filter fun i => ((around noExtremes a b data)[t]?.map fun d => d i).getD false).map fun i => (t, i)) = [] := by
    rw [List.flatMap_eq_nil_iff]; intro t ht; have := List.mem_range.1 ht; exact hout t (Or.inl this) (by omega)
  have h2 : (((List.range b).map (a + data.length + ·)).flatMap fun t =>
      ((List.finRange n).filter fun i => ((around noExtremes a b data)[t]?.map fun d => d i).getD false).map fun i => (t, i)) = [] := by
    rw [List.flatMap_eq_nil_iff]; intro t ht
    obtain ⟨k, hk, rfl⟩ := List.mem_map.1 ht
    have := List.mem_range.1 hk
    exact hout _ (Or.inr (by omega)) (by omega)
  rw [h1, h2, List.nil_append, List.append_nil, List.flatMap_map, List.map_flatMap]
  refine List.flatMap_congr fun t ht => ?_
  rw [getElem?_around_mid _ _ _ _ _ (List.mem_range.1 ht), List.map_map]
  rfl

theorem idxOf_map_injective {V W : Type} [DecidableEq V] [DecidableEq W] (φ : V → W) (hφ : Function.Injective φ) (l : List V) (v : V) :
    (l.map φ).idxOf (φ v) = l.idxOf v := by
  induction l with
  | nil => rfl
  | cons x l ih =>
    rw [List.map_cons, List.idxOf_cons, List.idxOf_cons, ih]
    by_cases h : x = v
    · subst h; simp
    · have : φ x ≠ φ v := fun e => h (hφ e)
      rw [beq_false_of_ne h, beq_false_of_ne this]

theorem labelGraph_image {V W : Type} [DecidableEq V] [DecidableEq W] (cc : Labeller) (φ : V → W) (hφ : Function.Injective φ) (nodes : List V)
    (adj : V → V → Bool) (adj' : W → W → Bool) (h : ∀ u v, adj' (φ u) (φ v) = adj u v) (v : V) :
    labelGraph cc (nodes.map φ) adj' (φ v) = labelGraph cc nodes adj v := by
  unfold labelGraph
  have he : ((nodes.map φ).flatMap fun a => (nodes.map φ).filterMap fun b => if adj' a b then some ((nodes.map φ).idxOf a, (nodes.map φ).idxOf b) else none) =
      nodes.flatMap fun a => nodes.filterMap fun b => if adj a b then some (nodes.idxOf a, nodes.idxOf b) else none := by
    rw [List.flatMap_map]
    refine List.flatMap_congr fun x _ => ?_
    rw [List.filterMap_map]
    apply List.filterMap_congr
    intro y _
    simp only [Function.comp, h, idxOf_map_injective φ hφ]
  have hc : (nodes.map φ).contains (φ v) = nodes.contains v := by
    rw [Bool.eq_iff_iff, List.contains_iff_mem, List.contains_iff_mem, List.mem_map]
    constructor
    · rintro ⟨w, hw, e⟩; exact hφ e ▸ hw
    · exact fun hv => ⟨v, hv, rfl⟩
  rw [he, hc, List.length_map, idxOf_map_injective φ hφ]

theorem labelGraph_outside {V : Type} [DecidableEq V] (cc : Labeller) (nodes : List V) (adj : V → V → Bool) (v : V) (h : v ∉ nodes) :
    labelGraph cc nodes adj v = 0 := by
  unfold labelGraph
  rw [if_neg (by rwa [List.contains_iff_mem])]

theorem identifyObjectsGrid_around (cc : Labeller) (timeConn regional : Bool) (nx a b : Nat) (data : List (Fin n → Bool)) :
    identifyObjectsGrid cc timeConn regional nx (around noExtremes a b data) = around noEvents a b (identifyObjectsGrid cc timeConn regional nx data) := by
  have hinj : Function.Injective fun v : Nat × Fin n => (a + v.1, v.2) := by
    rintro ⟨t, i⟩ ⟨u, j⟩ h
    simp only [Prod.mk.injEq] at h ⊢
    exact ⟨by omega, h.2⟩
  have hadj : ∀ u v : Nat × Fin n, voxelAdj timeConn regional nx (a + u.1, u.2) (a + v.1, v.2) = voxelAdj timeConn regional nx u v := by
    rintro ⟨t, i⟩ ⟨u, j⟩
    have h1 : near (a + t) (a + u) = near t u := by unfold near; congr 1; simp only [eq_iff_iff]; omega
    have h2 : (a + t == a + u) = (t == u) := by rw [Bool.eq_iff_iff, beq_iff_eq, beq_iff_eq]; omega
    simp only [voxelAdj, h1, h2]
  unfold identifyObjectsGrid
  dsimp only
  rw [extremeVoxels_around, length_around, range_add_add, List.map_append, List.map_append, List.map_map, List.map_map]
  have hout : ∀ t i, t < a ∨ a + data.length ≤ t →
      labelGraph cc ((extremeVoxels data).map fun v => (a + v.1, v.2)) (voxelAdj timeConn regional nx) (t, i) = 0 := by
    intro t i h
    apply labelGraph_outside
    rw [List.mem_map]
    rintro ⟨⟨u, j⟩, hu, e⟩
    unfold extremeVoxels at hu
    rw [List.mem_flatMap] at hu
    obtain ⟨v, hv, hm⟩ := hu
    have hv := List.mem_range.1 hv
    rw [List.mem_map] at hm
    obtain ⟨k, -, hk⟩ := hm
    simp only [Prod.mk.injEq] at hk e
    omega
  unfold around
  congr 1
  · congr 1
    · refine List.eq_replicate_iff.2 ⟨by simp, fun f hf => ?_⟩
      obtain ⟨t, ht, rfl⟩ := List.mem_map.1 hf
      funext i
      exact hout t i (Or.inl (List.mem_range.1 ht))
    · refine List.map_congr_left fun t _ => ?_
      funext i
      exact labelGraph_image cc _ hinj (extremeVoxels data) _ _ hadj (t, i)
  · refine List.eq_replicate_iff.2 ⟨by simp, fun f hf => ?_⟩
    obtain ⟨t, ht, rfl⟩ := List.mem_map.1 hf
    funext i
    exact hout _ i (Or.inr (Nat.le_add_right _ _))

theorem idsOf_noEvents : idsOf (noEvents : Fin n → Nat) = [] := by
  rw [List.eq_nil_iff_forall_not_mem]
  intro k hk
  obtain ⟨h, i, hi⟩ := mem_idsOf'.1 hk
  simp only [noEvents] at hi
  omega

theorem objectTable_around (a b : Nat) (fs : List (Fin n → Nat)) : objectTable (around noEvents a b fs) = objectTable fs :=
  flatMap_around _ _ (by rw [stepTable, idsOf_noEvents]; rfl) a b fs

theorem filterGrid_around (c : AreaCriterion) (a b : Nat) (labels : List (Fin n → Nat)) (r : FilterResult n) (h : filterGrid c labels = .ok r) :
    filterGrid c (around noEvents a b labels) = .ok { r with field := around noExtremes a b r.field } := by
  unfold filterGrid at h ⊢
  dsimp only at h ⊢
  rw [objectTable_around]
  split at h
  · cases h
  rename_i hne
  rw [if_neg hne]
  simp only [Except.ok.injEq] at h ⊢
  subst h
  rw [FilterResult.mk.injEq]
  refine ⟨?_, rfl, rfl, rfl⟩
  rw [map_around]
  congr 1
  funext i
  simp only [noEvents, noExtremes, Nat.cast_zero]
  rw [← Bool.not_eq_true, List.contains_iff_mem]
  intro hm
  unfold keepIdsGrid at hm
  rcases List.mem_or_eq_of_mem_set hm with hm | hm
  · obtain ⟨e, he, h0⟩ := List.mem_map.1 hm
    split at h0
    · unfold objectTable at he
      obtain ⟨g, -, hg⟩ := List.mem_flatMap.1 he
      unfold stepTable at hg
      obtain ⟨k, hk, rfl⟩ := List.mem_map.1 hg
      have := (mem_idsOf'.1 hk).1
      simp only at h0
      omega
    · omega
  · omega

/-! ### Tracking -/

theorem overlap_from_zero (w : Fin n → ℚ) (g : Frame n) : checkOverlapSlice w zeroFrame g = [] := by
  rw [List.eq_nil_iff_forall_not_mem]
  intro o ho
  obtain ⟨h, _, ⟨i, hi, _⟩, _⟩ := mem_checkOverlapSlice.mp ho
  simp only [zeroFrame] at hi; omega

theorem overlap_to_zero (w : Fin n → ℚ) (f : Frame n) : checkOverlapSlice w f zeroFrame = [] := checkOverlapSlice_zero w f

theorem consolidate_to_zero (c : TrackCfg n) (f : Frame n) (p : List Obj) : consolidate c f zeroFrame p = (zeroFrame, p) := by
  unfold consolidate
  rw [overlap_to_zero]
  rfl

theorem processStep_zero (c : TrackCfg n) (t : Nat) (prev : Frame n) (s : SMState) : processStep c t prev zeroFrame s = (zeroFrame, s) := by
  unfold processStep
  rw [resolveMerges]
  simp only [overlap_to_zero]
  rfl

/-- The merge records `a` steps later. -/
def later (a : Nat) (s : SMState) : SMState := { s with merges := s.merges.map fun m => { m with time := m.time + a } }

theorem processChild_later (c : TrackCfg n) (t a : Nat) (prev cur : Frame n) (s : SMState) (ovs : List Ov) (child : Nat) :
    processChild c (t + a) prev (cur, later a s, ovs) child =
      ((processChild c t prev (cur, s, ovs) child).1, later a (processChild c t prev (cur, s, ovs) child).2.1,
        (processChild c t prev (cur, s, ovs) child).2.2) := by
  simp [processChild, later]

theorem foldl_processChild_later (c : TrackCfg n) (t a : Nat) (prev : Frame n) (l : List Nat) : ∀ (cur : Frame n) (s : SMState) (ovs : List Ov),
    l.foldl (processChild c (t + a) prev) (cur, later a s, ovs) =
      ((l.foldl (processChild c t prev) (cur, s, ovs)).1, later a (l.foldl (processChild c t prev) (cur, s, ovs)).2.1,
        (l.foldl (processChild c t prev) (cur, s, ovs)).2.2) := by
  induction l with
  | nil => intro cur s ovs; rfl
  | cons k l ih =>
    intro cur s ovs
    rw [List.foldl_cons, List.foldl_cons, processChild_later, ih]

theorem resolveMerges_later (c : TrackCfg n) (t a : Nat) (prev : Frame n) (fuel : Nat) : ∀ (cur : Frame n) (s : SMState),
    resolveMerges c (t + a) prev fuel (cur, later a s) =
      ((resolveMerges c t prev fuel (cur, s)).1, later a (resolveMerges c t prev fuel (cur, s)).2) := by
  induction fuel with
  | zero => intro cur s; rfl
  | succ fuel ih =>
    intro cur s
    rw [resolveMerges, resolveMerges]
    have hp : (later a s).props = s.props := rfl
    dsimp only
    rw [hp]
    split
    · rfl
    · rw [foldl_processChild_later, ih]

theorem processStep_later (c : TrackCfg n) (t a : Nat) (prev cur : Frame n) (s : SMState) :
    processStep c (t + a) prev cur (later a s) = ((processStep c t prev cur s).1, later a (processStep c t prev cur s).2) :=
  resolveMerges_later c t a prev 10 cur s

theorem later_props (a : Nat) (s : SMState) (p : List Obj) : { later a s with props := p } = later a { s with props := p } := rfl

theorem chunkLoop_later (c : TrackCfg n) (a : Nat) (rest : List (Frame n)) : ∀ (t : Nat) (l2 l1 : Frame n) (d : List (Frame n)) (s : SMState),
    chunkLoop c (t + a) l2 l1 d false rest (later a s) = ((chunkLoop c t l2 l1 d false rest s).1, later a (chunkLoop c t l2 l1 d false rest s).2) := by
  induction rest with
  | nil =>
    intro t l2 l1 d s
    rw [chunkLoop, chunkLoop]
    have hp : (later a s).props = s.props := rfl
    simp only [Bool.false_eq_true, if_false, hp, later_props]
    split <;> rfl
  | cons cur rest ih =>
    intro t l2 l1 d s
    have hp : (later a s).props = s.props := rfl
    rw [chunkLoop_cons_false, chunkLoop_cons_false, hp, later_props, processStep_later, Nat.add_right_comm, ih]

theorem chunkLoop_lead (c : TrackCfg n) (rest : List (Frame n)) (a : Nat) : ∀ (t : Nat) (d : List (Frame n)) (s : SMState),
    chunkLoop c t zeroFrame zeroFrame d false (List.replicate a zeroFrame ++ rest) s =
      chunkLoop c (t + a) zeroFrame zeroFrame (List.replicate a zeroFrame ++ d) false rest s := by
  induction a with
  | zero => intro t d s; rfl
  | succ a ih =>
    intro t d s
    rw [List.replicate_succ, List.cons_append, chunkLoop_cons_false, consolidate_zero, processStep_zero, ih, Nat.add_right_comm]
    have : List.replicate a zeroFrame ++ zeroFrame :: d = zeroFrame :: List.replicate a zeroFrame ++ d := by
      rw [← List.replicate_succ, List.replicate_succ', List.append_assoc]; rfl
    rw [this, Nat.add_assoc]

/-- The frames before the current one in the chunk do not matter, if there are none or the one before the last is empty. -/
theorem chunkLoop_done_zero (c : TrackCfg n) (rest : List (Frame n)) (t : Nat) (l1 : Frame n) (d : List (Frame n)) (s : SMState) :
    chunkLoop c t zeroFrame l1 d false rest s =
      (d.reverse ++ (chunkLoop c t zeroFrame l1 [] false rest s).1, (chunkLoop c t zeroFrame l1 [] false rest s).2) := by
  cases rest with
  | nil =>
    rw [chunkLoop, chunkLoop]
    simp only [Bool.false_eq_true, if_false, consolidate_zero, List.isEmpty_nil, if_true]
    split
    · rename_i h
      rw [List.isEmpty_iff.1 h]; rfl
    · simp
  | cons cur rest =>
    have := chunkLoop_done c (cur :: rest) t zeroFrame l1 [] d s (Or.inl (by simp))
    rwa [List.nil_append] at this

theorem chunkLoop_first_lead (c : TrackCfg n) (a : Nat) (y y' : Frame n) (fs : List (Frame n)) (hne : fs ≠ []) (t : Nat) (s : SMState) :
    chunkLoop c t y zeroFrame [] true (List.replicate a zeroFrame ++ fs) (later a s) =
      (List.replicate a zeroFrame ++ (chunkLoop c t y' zeroFrame [] true fs s).1, later a (chunkLoop c t y' zeroFrame [] true fs s).2) := by
  obtain ⟨cur, rest, rfl⟩ : ∃ cur rest, fs = cur :: rest := by
    cases fs with
    | nil => exact absurd rfl hne
    | cons a b => exact ⟨a, b, rfl⟩
  cases a with
  | zero =>
    have hl : later 0 s = s := by simp [later]
    have hl' : ∀ s, later 0 s = s := by intro s; simp [later]
    rw [hl, hl']
    simp only [List.replicate_zero, List.nil_append]
    rw [chunkLoop_cons_true, chunkLoop_cons_true]
  | succ a =>
    rw [List.replicate_succ, List.cons_append, chunkLoop_cons_true, processStep_zero, chunkLoop_lead, List.append_nil, chunkLoop_cons_false, consolidate_zero]
    have hp : { later (a + 1) s with props := (later (a + 1) s).props } = later (a + 1) s := rfl
    dsimp only at hp ⊢
    rw [show t + 1 + a = t + (a + 1) by omega, processStep_later, show t + (a + 1) + 1 = t + 1 + (a + 1) by omega, chunkLoop_later, chunkLoop_done_zero,
      chunkLoop_cons_true, ← List.replicate_succ, List.reverse_replicate]

theorem chunkLoop_only_zero (c : TrackCfg n) (b : Nat) : ∀ (t : Nat) (l2 : Frame n) (d : List (Frame n)) (s : SMState), d ≠ [] →
    chunkLoop c t l2 zeroFrame d false (List.replicate b zeroFrame) s = (d.reverse ++ List.replicate (b + 1) zeroFrame, s) := by
  induction b with
  | zero =>
    intro t l2 d s hd
    rw [List.replicate_zero, chunkLoop]
    have : d.isEmpty = false := by simpa using hd
    simp [consolidate_to_zero, this]
  | succ b ih =>
    intro t l2 d s hd
    rw [List.replicate_succ, chunkLoop_cons_false, consolidate_to_zero, processStep_zero, ih _ _ _ _ (by simp)]
    simp [List.replicate_succ]

theorem chunkLoop_trail (c : TrackCfg n) (b : Nat) (rest : List (Frame n)) : ∀ (t : Nat) (l2 l1 : Frame n) (d : List (Frame n)) (s : SMState),
    (d ≠ [] ∨ l2 = zeroFrame) → chunkLoop c t l2 l1 d false (rest ++ List.replicate b zeroFrame) s =
      ((chunkLoop c t l2 l1 d false rest s).1 ++ List.replicate b zeroFrame, (chunkLoop c t l2 l1 d false rest s).2) := by
  induction rest with
  | nil =>
    intro t l2 l1 d s h
    cases b with
    | zero => simp
    | succ b =>
      rw [List.nil_append, List.replicate_succ, chunkLoop_cons_false, processStep_zero, chunkLoop_only_zero _ _ _ _ _ _ (by simp), chunkLoop]
      by_cases hd : d = []
      · subst hd
        obtain rfl := h.resolve_left (by simp)
        simp [consolidate_zero, List.replicate_succ]
      · have : d.isEmpty = false := by simpa using hd
        simp [this, List.replicate_succ]
  | cons cur rest ih =>
    intro t l2 l1 d s _
    rw [List.cons_append, chunkLoop_cons_false, chunkLoop_cons_false, ih _ _ _ _ _ (Or.inl (by simp))]

theorem chunkLoop_around (c : TrackCfg n) (a b : Nat) (y y' : Frame n) (fs : List (Frame n)) (hne : fs ≠ []) (t : Nat) (s : SMState) :
    chunkLoop c t y zeroFrame [] true (around noEvents a b fs) (later a s) =
      (around noEvents a b (chunkLoop c t y' zeroFrame [] true fs s).1, later a (chunkLoop c t y' zeroFrame [] true fs s).2) := by
  have hz : (noEvents : Fin n → Nat) = zeroFrame := rfl
  obtain ⟨cur, rest, rfl⟩ : ∃ cur rest, fs = cur :: rest := by
    cases fs with
    | nil => exact absurd rfl hne
    | cons a b => exact ⟨a, b, rfl⟩
  unfold around
  rw [hz, List.append_assoc, chunkLoop_first_lead c a y y' _ (by simp), List.cons_append, chunkLoop_cons_true, chunkLoop_cons_true,
    chunkLoop_trail _ _ _ _ _ _ _ _ (Or.inr rfl), List.append_assoc]

theorem allOverlaps_around (w : Fin n → ℚ) (a b : Nat) (fs : List (Frame n)) : allOverlaps w (around noEvents a b fs) = allOverlaps w fs := by
  have hz : (noEvents : Fin n → Nat) = zeroFrame := rfl
  have hlead : ∀ (l : List (Frame n)), allOverlaps w (zeroFrame :: l) = allOverlaps w l := by
    intro l
    cases l with
    | nil => rw [allOverlaps, allOverlaps]; exact overlap_from_zero w _
    | cons g l => rw [allOverlaps, overlap_from_zero, List.nil_append]
  have hl : ∀ (k : Nat) (l : List (Frame n)), allOverlaps w (List.replicate k zeroFrame ++ l) = allOverlaps w l := by
    intro k l
    induction k with
    | zero => rfl
    | succ k ih => rw [List.replicate_succ, List.cons_append, hlead, ih]
  have hzeros : ∀ k : Nat, allOverlaps w (List.replicate k (zeroFrame : Frame n)) = [] := by
    intro k
    have := hl k []
    rw [List.append_nil] at this
    rw [this, allOverlaps]
  have ht : ∀ (l : List (Frame n)), allOverlaps w (l ++ List.replicate b zeroFrame) = allOverlaps w l := by
    intro l
    induction l with
    | nil => rw [List.nil_append, hzeros, allOverlaps]
    | cons f l ih =>
      cases l with
      | nil =>
        cases b with
        | zero => rfl
        | succ b =>
          have h2 : allOverlaps w (f :: zeroFrame :: List.replicate b zeroFrame) =
              checkOverlapSlice w f zeroFrame ++ allOverlaps w (zeroFrame :: List.replicate b zeroFrame) := rfl
          have h3 : allOverlaps w [f] = checkOverlapSlice w f zeroFrame := rfl
          rw [List.replicate_succ, List.cons_append, List.nil_append, h2, h3, overlap_to_zero, List.nil_append, ← List.replicate_succ, hzeros]
      | cons g l =>
        rw [List.cons_append, List.cons_append, allOverlaps, allOverlaps, ← List.cons_append, ih]
  unfold around
  rw [hz, List.append_assoc, hl, ht]

theorem findOverlaps_around (w : Fin n → ℚ) (a b : Nat) (fs : List (Frame n)) : findOverlaps w (around noEvents a b fs) = findOverlaps w fs := by
  unfold findOverlaps
  rw [allOverlaps_around]

theorem fieldIds_around (a b : Nat) (fs : List (Frame n)) : fieldIds (around noEvents a b fs) = fieldIds fs := by
  unfold fieldIds
  apply List.Pairwise.eq_of_mem_iff (r := (· < ·)) ((sorted_npUnique _).filter _) ((sorted_npUnique _).filter _)
  intro k
  simp only [List.mem_filter, mem_npUnique, List.mem_flatMap, decide_eq_true_eq, List.mem_map, List.mem_finRange, true_and]
  constructor
  · rintro ⟨⟨f, hf, i, hi⟩, hk⟩
    refine ⟨⟨f, ?_, i, hi⟩, hk⟩
    unfold around at hf
    rw [List.mem_append, List.mem_append] at hf
    rcases hf with (h | h) | h
    · rw [(List.mem_replicate.1 h).2] at hi; simp only [noEvents] at hi; omega
    · exact h
    · rw [(List.mem_replicate.1 h).2] at hi; simp only [noEvents] at hi; omega
  · rintro ⟨⟨f, hf, i, hi⟩, hk⟩
    exact ⟨⟨f, by simp [around, hf], i, hi⟩, hk⟩

theorem renameField_around (cc : Labeller) (a b : Nat) (fs : List (Frame n)) (pairs : List (Nat × Nat)) :
    renameField cc (around noEvents a b fs) pairs = around noEvents a b (renameField cc fs pairs) := by
  unfold renameField eventOf allValidIds
  rw [map_around, fieldIds_around]
  congr 1

theorem splitAndMerge_around (c : TrackCfg n) (a b : Nat) (chunks chunks' : List (List (Frame n))) (props : List Obj)
    (h : ChunksOfTwo chunks) (h' : ChunksOfTwo chunks') (hne : chunks.flatten ≠ []) (hsame : chunks'.flatten = around noEvents a b chunks.flatten) :
    let r := splitAndMerge c chunks props
    let r' := splitAndMerge c chunks' props
    r'.field = around noEvents a b r.field ∧ r'.props = r.props ∧ r'.links = r.links ∧
      r'.merges = r.merges.map fun m => { m with time := m.time + a } := by
  have h1 : ∀ ch : List (List (Frame n)), ChunksOfTwo ch → ch.flatten ≠ [] → splitAndMerge c ch props = splitAndMerge c [ch.flatten] props := by
    intro ch hc hn
    exact C19_chunking_irrelevant_partial c ch _ props hc ⟨hn, by simp⟩ (by simp)
  have hne' : chunks'.flatten ≠ [] := by
    rw [hsame]; intro e; apply hne
    rw [← List.length_eq_zero_iff] at e ⊢
    rw [length_around] at e; omega
  dsimp only
  rw [h1 chunks h hne, h1 chunks' h' hne', hsame]
  have hrun : chunksLoop c 0 [] [around noEvents a b chunks.flatten] ⟨props, firstNewId props, []⟩ =
      (around noEvents a b (chunksLoop c 0 [] [chunks.flatten] ⟨props, firstNewId props, []⟩).1,
        later a (chunksLoop c 0 [] [chunks.flatten] ⟨props, firstNewId props, []⟩).2) := by
    have := chunkLoop_around c a b zeroFrame zeroFrame chunks.flatten hne 0 ⟨props, firstNewId props, []⟩
    simp only [chunksLoop, List.append_nil]
    exact this
  unfold splitAndMerge
  dsimp only
  rw [hrun]
  refine ⟨rfl, rfl, ?_, rfl⟩
  dsimp only
  rw [findOverlaps_around]
  rfl

/-- **C190**, merging: the record of the objects, cut into time chunks in any two ways with chunks of at least two steps, with `a` empty steps before it and
`b` after it. The events, their number, the object table and the links are the same, merge records are `a` steps later.  Missing: chunks of one step
(`C19_fails`). -/
theorem C190_objects_partial (cc : Labeller) (c : TrackCfg n) (a b : Nat) (chunks chunks' : List (List (Frame n)))
    (h : ChunksOfTwo chunks) (h' : ChunksOfTwo chunks') (hne : chunks.flatten ≠ []) (hsame : chunks'.flatten = around noEvents a b chunks.flatten) :
    (trackGrid cc c chunks').idField = around noEvents a b (trackGrid cc c chunks).idField ∧
    (trackGrid cc c chunks').count = (trackGrid cc c chunks).count ∧
    (trackGrid cc c chunks').objects.props = (trackGrid cc c chunks).objects.props ∧
    (trackGrid cc c chunks').objects.links = (trackGrid cc c chunks).objects.links ∧
    (trackGrid cc c chunks').objects.merges = (trackGrid cc c chunks).objects.merges.map fun m => { m with time := m.time + a } := by
  have hp : chunks'.flatten.flatMap (calcProps c) = chunks.flatten.flatMap (calcProps c) := by
    rw [hsame]; exact flatMap_around _ _ (by rw [calcProps, idsOf_noEvents]; rfl) a b _
  unfold trackGrid
  dsimp only
  rw [hp]
  obtain ⟨e1, e2, e3, e4⟩ := splitAndMerge_around c a b chunks chunks' (chunks.flatten.flatMap (calcProps c)) h h' hne hsame
  refine ⟨?_, ?_, e2, e3, e4⟩
  · rw [e1, e3, renameField_around]
  · rw [e1, e3]
    unfold numEvents allValidIds
    rw [fieldIds_around]

theorem chunksOf_lengths {α : Type} (chunks : List Nat) : ∀ l : List α, chunks.sum = l.length → (chunksOf chunks l).map List.length = chunks := by
  induction chunks with
  | nil => intro l h; have : l = [] := List.length_eq_zero_iff.1 h.symm; subst this; rfl
  | cons k ks ih =>
    intro l h
    rw [List.sum_cons] at h
    rw [chunksOf, List.map_cons, ih _ (by rw [List.length_drop]; omega), List.length_take, min_eq_left (by omega)]

theorem chunksOf_two {α : Type} {chunks : List Nat} {l : List α} (h : ChunkLengths chunks l.length) : ChunksOfTwo (chunksOf chunks l) := by
  have hl := chunksOf_lengths chunks l h.cover
  cases hc : chunksOf chunks l with
  | nil => trivial
  | cons c cs =>
    rw [hc, List.map_cons] at hl
    subst hl
    constructor
    · rintro rfl
      have := h.positive 0 (by simp)
      omega
    · intro x hx
      exact h.two x.length (List.mem_map_of_mem hx)

theorem fillFrameGrid_noExtremes {ny nx : Nat} (regional : Bool) (mask : Fin (ny * nx) → Bool) (R : Nat) :
    fillFrameGrid regional ny nx mask R noExtremes = noExtremes := by
  funext i
  rw [noExtremes, ← Bool.not_eq_true]
  intro h
  obtain ⟨j, -, hj⟩ := fillFrameGrid_within h
  simp [noExtremes] at hj

theorem preprocessGrid_around {ny nx : Nat} (cc : Labeller) (p : GridRun ny nx) (hT : p.T % 2 = 0) (a b : Nat) (data : List (Fin (ny * nx) → Bool))
    (r : FilterResult (ny * nx)) (h : preprocessGrid cc p data = .ok r) :
    preprocessGrid cc p (around noExtremes a b data) = .ok { r with field := around noExtremes a b r.field } := by
  unfold preprocessGrid at h ⊢
  have : fillStagesGrid p (around noExtremes a b data) = around noExtremes a b (fillStagesGrid p data) := by
    unfold fillStagesGrid
    rw [map_around, fillFrameGrid_noExtremes]
    exact fillTimeGaps_around _ (fun R => fillFrameGrid_noExtremes p.regional p.mask R) p.T p.R hT a b _
  rw [this, identifyObjectsGrid_around]
  exact filterGrid_around p.criterion a b _ r h

/-- **C190**: with `a` steps without extremes put before a record and `b` after it, `run()` gives the same preprocessed field and the same events at the
steps of the record, and nothing at the new steps, whatever the mask, `R_fill`, even `T_fill`, area criterion and partition method.  With merging, both
records are cut into time chunks of at least two steps.  Missing: chunks of one step (`C19_fails`). -/
theorem C190_empty_steps_partial {ny nx : Nat} (cc : Labeller) (p : GridRun ny nx) (hT : p.T % 2 = 0) (a b : Nat) (chunks chunks' : List Nat)
    (data : List (Fin (ny * nx) → Bool)) (pre : List (Fin (ny * nx) → Bool)) (ids : List (Frame (ny * nx)))
    (hc : p.allowMerging = true → ChunkLengths chunks data.length ∧ ChunkLengths chunks' (a + data.length + b))
    (h : runGrid cc p chunks data = .ok (pre, ids)) :
    runGrid cc p chunks' (around noExtremes a b data) = .ok (around noExtremes a b pre, around noEvents a b ids) := by
  unfold runGrid at h ⊢
  split at h
  · cases h
  rename_i r hr
  rw [preprocessGrid_around cc p hT a b data r hr]
  simp only [Except.ok.injEq, Prod.mk.injEq] at h ⊢
  obtain ⟨rfl, rfl⟩ := h
  refine ⟨rfl, ?_⟩
  unfold trackingGrid
  split
  · rename_i hm
    have hlen : r.field.length = data.length := by
      unfold preprocessGrid filterGrid at hr
      dsimp only at hr
      split at hr
      · cases hr
      simp only [Except.ok.injEq] at hr
      subst hr
      simp [identifyObjectsGrid, fillStagesGrid, fillTimeGaps]
      split
      · simp
      · simp [length_closeTimeGaps]
    have hne : data ≠ [] := by
      rintro rfl
      unfold preprocessGrid filterGrid at hr
      dsimp only at hr
      split at hr
      · cases hr
      rename_i h0
      apply h0
      rw [List.length_eq_zero_iff, objectTable, List.flatMap_eq_nil_iff]
      intro x hx
      have : (fillStagesGrid p []).length = 0 := by
        simp only [fillStagesGrid, fillTimeGaps, List.map_nil]
        split
        · rfl
        · rw [List.length_map, length_closeTimeGaps]; rfl
      rw [identifyObjectsGrid, this] at hx
      simp at hx
    rw [identifyObjectsGrid_around]
    have hl1 : (identifyObjectsGrid cc false p.regional nx r.field).length = data.length := by simp [identifyObjectsGrid, hlen]
    obtain ⟨hc1, hc2⟩ := hc hm
    have h1 := chunksOf_two (l := identifyObjectsGrid cc false p.regional nx r.field) (by rwa [hl1])
    have h2 := chunksOf_two (l := around noEvents a b (identifyObjectsGrid cc false p.regional nx r.field)) (by rwa [length_around, hl1])
    exact (C190_objects_partial cc p.track a b _ _ h1 h2 (by
      rw [flatten_chunksOf]; intro e; rw [e] at hl1; apply hne; rw [← List.length_eq_zero_iff, ← hl1]; rfl) (by
      rw [flatten_chunksOf, flatten_chunksOf])).1
  · rw [identifyObjectsGrid_around]

/-! ### Meshes -/

theorem identifyObjectsMesh_land (cc : Labeller) (nbr : NbrTable n) (mask f : Fin n → Bool) (h : ∀ i, mask i = true → f i = false) :
    identifyObjectsMesh cc nbr mask f = noEvents := by
  funext i
  simp only [identifyObjectsMesh]
  split
  · rename_i hm
    have := (clusterTrueValues_pos (cc := cc) (nbr := nbr) (arr := fun i => mask i && f i) (i := i)).not
    simp only [hm, h i hm, Bool.and_false, Bool.false_eq_true, not_false_eq_true, iff_true, Nat.not_lt, Nat.le_zero_eq] at this
    exact this
  · rfl

theorem fillHolesMesh_noExtremes (nbr : NbrTable n) (hs : SymmetricTable nbr) (mask : Fin n → Bool) (R : Nat) (i : Fin n) (hm : mask i = true) :
    fillHolesMesh (dilationRow nbr) mask R noExtremes i = false := by
  rw [← Bool.not_eq_true]
  intro h
  obtain ⟨s, k, ⟨f, hf, hk⟩, -⟩ := C53_filling_invents_nothing_partial nbr hs mask R 0 rfl (Or.inl rfl) [noExtremes] 0 i hm
    ⟨_, by simp [fillStagesMesh, fillTimeGaps], h⟩
  have hmem := List.mem_of_getElem? hf
  rw [List.mem_singleton] at hmem
  rw [hmem] at hk
  simp [noExtremes] at hk

theorem filterMesh_around (c : AreaCriterion) (a b : Nat) (labels : List (Fin n → Nat)) (r : FilterResult n) (h : filterMesh c labels = .ok r) :
    filterMesh c (around noEvents a b labels) = .ok { r with field := around noExtremes a b r.field } := by
  unfold filterMesh at h ⊢
  dsimp only at h ⊢
  rw [objectTable_around]
  split at h
  · cases h
  rename_i hne
  rw [if_neg hne]
  simp only [Except.ok.injEq] at h ⊢
  subst h
  rw [FilterResult.mk.injEq]
  refine ⟨?_, rfl, rfl, rfl⟩
  rw [map_around]
  congr 1
  funext i
  simp [stepTable, idsOf_noEvents, noExtremes]

theorem preprocessMesh_around (cc : Labeller) (p : MeshRun n) (hs : SymmetricTable p.nbr)
    (hT : p.T = 0 ∨ p.T % 2 = 0 ∧ ∀ i, p.mask i = true) (a b : Nat) (data : List (Fin n → Bool))
    (r : FilterResult n) (h : preprocessMesh cc p data = .ok r) :
    preprocessMesh cc p (around noExtremes a b data) = .ok { r with field := around noExtremes a b r.field } := by
  unfold preprocessMesh at h ⊢
  rcases hT with hT | ⟨hT, hm⟩
  rotate_left
  · have hF : ∀ R, fillHolesMesh (dilationRow p.nbr) p.mask R noExtremes = noExtremes := fun R =>
      funext fun i => fillHolesMesh_noExtremes p.nbr hs p.mask R i (hm i)
    rw [map_around, hF, fillTimeGaps_around _ hF p.T p.R hT, map_around, identifyObjectsMesh_land cc p.nbr p.mask noExtremes fun i _ => rfl]
    exact filterMesh_around p.criterion a b _ r h
  simp only [hT, fillTimeGaps, if_true] at h ⊢
  rw [map_around, map_around, identifyObjectsMesh_land cc p.nbr p.mask _ fun i hm => fillHolesMesh_noExtremes p.nbr hs p.mask p.R i hm]
  exact filterMesh_around p.criterion a b _ r h

theorem fieldMax_noEvents : fieldMax (noEvents : Fin n → Nat) = 0 := by
  unfold fieldMax
  have : ∀ l : List (Fin n), l.foldl (fun m i => max m (noEvents i)) 0 = 0 := by
    intro l
    induction l with
    | nil => rfl
    | cons x l ih => rw [List.foldl_cons]; exact ih
  exact this _

theorem uniqueAcrossTime_zeros (k : Nat) : ∀ s : Nat, uniqueAcrossTime s (List.replicate k (noEvents : Fin n → Nat)) = List.replicate k noEvents := by
  induction k with
  | zero => intro s; rfl
  | succ k ih =>
    intro s
    rw [List.replicate_succ, uniqueAcrossTime, ih]
    congr 1

theorem uniqueAcrossTime_lead (k : Nat) (l : List (Fin n → Nat)) : ∀ s : Nat,
    uniqueAcrossTime s (List.replicate k (noEvents : Fin n → Nat) ++ l) = List.replicate k noEvents ++ uniqueAcrossTime s l := by
  induction k with
  | zero => intro s; rfl
  | succ k ih =>
    intro s
    rw [List.replicate_succ, List.cons_append, uniqueAcrossTime, fieldMax_noEvents, Nat.add_zero, ih, List.cons_append]
    congr 1

theorem uniqueAcrossTime_trail (k : Nat) (l : List (Fin n → Nat)) : ∀ s : Nat,
    uniqueAcrossTime s (l ++ List.replicate k (noEvents : Fin n → Nat)) = uniqueAcrossTime s l ++ List.replicate k noEvents := by
  induction l with
  | nil => intro s; exact uniqueAcrossTime_zeros k s
  | cons f l ih => intro s; rw [List.cons_append, uniqueAcrossTime, uniqueAcrossTime, ih, List.cons_append]

theorem objectFieldMesh_around (cc : Labeller) (nbr : NbrTable n) (mask : Fin n → Bool) (a b : Nat) (data : List (Fin n → Bool)) :
    objectFieldMesh cc nbr mask (around noExtremes a b data) = around noEvents a b (objectFieldMesh cc nbr mask data) := by
  unfold objectFieldMesh
  rw [map_around, identifyObjectsMesh_land cc nbr mask noExtremes fun i _ => rfl]
  unfold around
  rw [uniqueAcrossTime_trail, uniqueAcrossTime_lead]

/-- **C190** on meshes without time-gap filling (`T_fill = 0`) or without land, for every `R_fill`, area criterion and time chunk length: if no object is linked to two objects
of the step before, empty steps before and after the record change nothing.  Missing: records with merges, where the result depends on the chunks
(`C59_result_depends_on_chunks_fails`), and `T_fill > 0` beside land,
where empty steps can get extremes (`C53_filling_invents_nothing_fails`). -/
theorem C190_mesh_partial (cc : Labeller) (p : MeshRun n) (hs : SymmetricTable p.nbr)
    (hT : p.T = 0 ∨ p.T % 2 = 0 ∧ ∀ i, p.mask i = true) (a b : Nat) (data pre : List (Fin n → Bool))
    (ids : List (Frame n)) (h : runMesh cc p data = .ok (pre, ids))
    (hone : ∀ objs, objs = objectFieldMesh cc p.nbr p.mask pre →
      ((enforceOverlap p.track.thr (objs.flatMap (calcProps ⟨p.track.w, p.track.thr, p.cen, fun _ _ _ _ _ _ _ => 0⟩))
        (findOverlaps p.track.w objs)).map (·.b)).Nodup) :
    runMesh cc p (around noExtremes a b data) = .ok (around noExtremes a b pre, around noEvents a b ids) := by
  unfold runMesh at h ⊢
  split at h
  · cases h
  rename_i r hr
  rw [preprocessMesh_around cc p hs hT a b data r hr]
  split at h
  · cases h
  rename_i ids' hids
  simp only [Except.ok.injEq, Prod.mk.injEq] at h
  obtain ⟨rfl, rfl⟩ := h
  have hone := hone _ rfl
  have hne : r.field ≠ [] := by
    intro he
    unfold preprocessMesh filterMesh at hr
    dsimp only at hr
    split at hr
    · cases hr
    rename_i h0
    simp only [Except.ok.injEq] at hr
    subst hr
    rw [List.map_eq_nil_iff] at he
    apply h0
    rw [he]
    rfl
  suffices trackingMesh cc p (around noExtremes a b r.field) = .ok (around noEvents a b ids') by
    dsimp only
    rw [this]
  unfold trackingMesh at hids ⊢
  split at hids
  · cases hids
  rename_i hlen
  rw [if_neg (by
    rintro ⟨h1, h2⟩
    apply hlen
    refine ⟨?_, h2⟩
    rw [length_around] at h1
    have := List.length_pos_iff.2 hne
    omega)]
  dsimp only at hids ⊢
  have hp : (around noEvents a b (objectFieldMesh cc p.nbr p.mask r.field)).flatMap (calcProps ⟨p.track.w, p.track.thr, p.cen, fun _ _ _ _ _ _ _ => 0⟩) =
      (objectFieldMesh cc p.nbr p.mask r.field).flatMap (calcProps ⟨p.track.w, p.track.thr, p.cen, fun _ _ _ _ _ _ _ => 0⟩) :=
    flatMap_around _ _ (by rw [calcProps, idsOf_noEvents]; rfl) a b _
  rw [objectFieldMesh_around, hp]
  generalize hobj : objectFieldMesh cc p.nbr p.mask r.field = objs at hids hone hp ⊢
  generalize hprops : objs.flatMap (calcProps ⟨p.track.w, p.track.thr, p.cen, fun _ _ _ _ _ _ _ => 0⟩) = props at hids hone hp ⊢
  have hm : repeated ((enforceOverlap p.track.thr props (findOverlaps p.track.w objs)).map (·.b)) = [] := by
    rw [List.eq_nil_iff_forall_not_mem]
    intro x hx
    have := List.nodup_iff_count_le_one.mp hone x
    have := mem_repeated.mp hx
    omega
  obtain ⟨m, hmi⟩ : ∃ m, p.track.maxIter = m + 1 := by
    cases hk : p.track.maxIter with
    | zero => rw [splitAndMergeParallel, hk, parLoop] at hids; cases hids
    | succ m => exact ⟨m, rfl⟩
  unfold splitAndMergeParallel at hids ⊢
  simp only [hmi, parLoop, parInit, findOverlaps_around, hm, List.isEmpty_nil, if_true, hp, hprops] at hids ⊢
  simp only [Except.ok.injEq] at hids ⊢
  rw [renameField_around, hids]

/-- **C190 fails** with a chunk of one step: both records are cut into chunks of two steps. One empty step more in front leaves a last chunk of one
step, whose objects are not consolidated. -/
theorem C190_one_step_chunk_fails (cc : Labeller) :
    let c := gridCfg (n := 4) true false 1 4 (1/2) (fun _ _ => (0, 0))
    let f : Frame 4 := fun _ => 1
    let g : Frame 4 := fun i => if i.val < 2 then 2 else if i.val = 3 then 3 else 0
    (trackGrid cc c (chunksOf [2] [f, g])).objects.field.map (fun h => (List.finRange 4).map h) = [[1, 1, 1, 1], [2, 2, 0, 2]] ∧
    (trackGrid cc c (chunksOf [2, 1] (around noEvents 1 0 [f, g]))).objects.field.map (fun h => (List.finRange 4).map h) =
      [[0, 0, 0, 0], [1, 1, 1, 1], [2, 2, 0, 3]] := by
  intro c f g
  have h : ∀ ch, (trackGrid cc c ch).objects = splitAndMerge c ch (ch.flatten.flatMap (calcProps c)) := fun _ => rfl
  rw [h, h]
  decide +kernel

/-! The hypotheses are met by runs that succeed. -/

example : (match runGrid quickFind (cellsRun (.absolute 1)) [2, 2] fewSmall with
    | .ok (_, ids) => ids.length == 4 && ids.any fun g => decide (0 < g 0) | .error _ => false) = true := by decide +kernel

example : ChunkLengths [2, 2] 4 ∧ ChunkLengths [1, 4, 2] (1 + 4 + 2) := by
  refine ⟨⟨rfl, by simp, by simp⟩, ⟨rfl, by simp, by simp⟩⟩

example : SymmetricTable (lineRun true).nbr ∧ (match runMesh quickFind (lineRun true) lineData with
    | .ok (pre, ids) => decide (0 < ids.length) && decide (((enforceOverlap (lineRun true).track.thr
        ((objectFieldMesh quickFind (lineRun true).nbr (lineRun true).mask pre).flatMap
          (calcProps ⟨(lineRun true).track.w, (lineRun true).track.thr, (lineRun true).cen, fun _ _ _ _ _ _ _ => 0⟩))
        (findOverlaps (lineRun true).track.w (objectFieldMesh quickFind (lineRun true).nbr (lineRun true).mask pre))).map (·.b)).Nodup)
    | .error _ => false) = true := by
  exact ⟨strip_symmetric 14, by decide +kernel⟩

end MarEx.Props
