import Verif.Props.Separate
import Verif.Props.Numbering
/-! C198 on meshes: parts of a record that are separated by more than `T_fill` steps without extremes do not influence each other. -/
namespace MarEx.Props
open MarEx Spec

variable {n : Nat}

/-! ### Preprocessing -/

theorem filterMesh_gap (a : ℚ) (g : Nat) (X Y : List (Fin n → Nat)) (rX rY : FilterResult n) (hX : filterMesh (.absolute a) X = .ok rX)
    (hY : filterMesh (.absolute a) Y = .ok rY) :
    ∃ r, filterMesh (.absolute a) (X ++ (List.replicate g noEvents ++ Y)) = .ok r ∧ r.field = withGap g rX.field rY.field ∧
      r.threshold = a ∧ r.nBefore = rX.nBefore + rY.nBefore ∧ r.nAfter = rX.nAfter + rY.nAfter := by
  have hz : objectTable (List.replicate g (noEvents : Fin n → Nat)) = [] := by
    unfold objectTable
    induction g with
    | zero => rfl
    | succ g ih => rw [List.replicate_succ, List.flatMap_cons, ih, stepTable, idsOf_noEvents]; rfl
  have ht : objectTable (X ++ (List.replicate g noEvents ++ Y)) = objectTable X ++ objectTable Y := by
    have : ∀ l l' : List (Fin n → Nat), objectTable (l ++ l') = objectTable l ++ objectTable l' := fun l l' => by
      unfold objectTable; exact List.flatMap_append
    rw [this, this, hz, List.nil_append]
  unfold filterMesh at hX hY ⊢
  dsimp only at hX hY ⊢
  rw [ht]
  split at hX
  · cases hX
  rename_i h1
  split at hY
  · cases hY
  simp only [Except.ok.injEq] at hX hY
  subst hX hY
  rw [if_neg (by rw [List.map_append, List.filter_append, List.length_append]; omega)]
  refine ⟨_, rfl, ?_, rfl, ?_, ?_⟩
  · simp only [areaThreshold, List.map_append, List.map_replicate, withGap]
    congr 3
    funext i
    simp [stepTable, idsOf_noEvents, noExtremes]
  · simp only [List.map_append, List.filter_append, List.length_append]
  · simp only [List.map_append, List.filter_append, List.length_append, areaThreshold]
    rfl

/-- **C198** on meshes without time-gap filling (`T_fill = 0`) or without land, with an absolute area threshold: two parts that are accepted by themselves,
with more than `T_fill` steps without extremes between them, are preprocessed as if each were alone, and the counts add up.  Missing: the quartile
criterion, whose threshold is that of the whole record, parts that are refused alone because their objects are all small (`C182_small_objects_fails`) and
`T_fill > 0` beside land (`C53_filling_invents_nothing_fails`). -/
theorem C198_mesh_preprocessing_partial (cc : Labeller) (p : MeshRun n) (hs : SymmetricTable p.nbr)
    (hT : p.T = 0 ∨ p.T % 2 = 0 ∧ ∀ i, p.mask i = true) (a : ℚ) (hc : p.criterion = .absolute a) (A B : List (Fin n → Bool)) (g : Nat) (hg : p.T < g)
    (rA rB : FilterResult n) (hA : preprocessMesh cc p A = .ok rA) (hB : preprocessMesh cc p B = .ok rB) :
    ∃ r, preprocessMesh cc p (withGap g A B) = .ok r ∧ r.field = withGap g rA.field rB.field ∧ r.threshold = a ∧
      r.nBefore = rA.nBefore + rB.nBefore ∧ r.nAfter = rA.nAfter + rB.nAfter := by
  unfold preprocessMesh at hA hB ⊢
  rw [hc] at hA hB ⊢
  rcases hT with hT | ⟨hT, hm⟩
  · simp only [hT, fillTimeGaps, if_true] at hA hB ⊢
    unfold withGap
    rw [List.map_append, List.map_append, List.map_append, List.map_append, List.map_replicate, List.map_replicate,
      identifyObjectsMesh_land cc p.nbr p.mask _ fun i hm => fillHolesMesh_noExtremes p.nbr hs p.mask p.R i hm]
    exact filterMesh_gap a g _ _ rA rB hA hB
  · have hF : ∀ R, fillHolesMesh (dilationRow p.nbr) p.mask R noExtremes = noExtremes := fun R =>
      funext fun i => fillHolesMesh_noExtremes p.nbr hs p.mask R i (hm i)
    rw [map_withGap _ (hF _), fillTimeGaps_withGap _ hF p.T p.R hT g hg]
    unfold withGap
    rw [List.map_append, List.map_append, List.map_replicate, identifyObjectsMesh_land cc p.nbr p.mask noExtremes fun i _ => rfl]
    exact filterMesh_gap a g _ _ rA rB hA hB

/-! ### Objects of a part -/

theorem uniqueAcrossTime_append (l l' : List (Fin n → Nat)) : ∀ s, ∃ s', uniqueAcrossTime s (l ++ l') = uniqueAcrossTime s l ++ uniqueAcrossTime s' l' := by
  induction l with
  | nil => exact fun s => ⟨s, rfl⟩
  | cons f l ih =>
    intro s
    obtain ⟨s', h⟩ := ih (s + fieldMax f)
    exact ⟨s', by rw [List.cons_append, uniqueAcrossTime, h, uniqueAcrossTime, List.cons_append]⟩

theorem stepGroups_refl (f : Fin n → Nat) : StepGroups (Equiv.refl _) f f := ⟨fun _ => Iff.rfl, fun _ _ _ => Iff.rfl⟩

theorem forall₂_refl (l : List (Fin n → Nat)) : List.Forall₂ (StepGroups (Equiv.refl _)) l l := by
  induction l with
  | nil => exact .nil
  | cons f l ih => exact .cons (stepGroups_refl f) ih

/-- The steps `s, …, s + len - 1` of `fs` have the objects of the steps `s', …` of `fs'`, under other IDs, and no object lies in the step before and after. -/
structure Window (fs fs' : List (Fin n → Nat)) (s s' len : Nat) : Prop where
  same : ∀ k, k < len → ∃ f f', fs[s + k]? = some f ∧ fs'[s' + k]? = some f' ∧ StepGroups (Equiv.refl _) f f'
  before : ∀ t f, t + 1 = s → fs[t]? = some f → ∀ i, f i = 0
  after : ∀ f, fs[s + len]? = some f → ∀ i, f i = 0

theorem overlap_moves {w : Fin n → ℚ} {thr : ℚ} {f g f' g' : Fin n → Nat} (hF : StepGroups (Equiv.refl _) f f') (hG : StepGroups (Equiv.refl _) g g')
    {a b : Nat} (hb : 0 < b) (h : OverlapEnough w thr f a g b) :
    ∃ x, f x = a ∧ g x = b ∧ 0 < g' x ∧ OverlapEnough w thr f' (f' x) g' (g' x) := by
  obtain ⟨ha, ⟨x, rfl, rfl⟩, hle⟩ := h
  refine ⟨x, rfl, rfl, (hG.1 x).2 hb, (hF.1 x).2 ha, ⟨x, rfl, rfl⟩, ?_⟩
  have e1 := objectArea_groups w hF x ha
  have e2 := objectArea_groups w hG x hb
  have e3 := commonArea_groups w hF hG x x ha hb
  have er : renumber (Equiv.refl (Fin n)) w = w := by funext i; rfl
  rw [er] at e1 e2 e3
  simp only [Equiv.refl_apply] at e1 e2 e3
  rw [e1, e2, e3]
  exact hle

/-- Objects joined by a chain to an object of the window lie in the window and are joined there in the other record. -/
theorem linked_window {w : Fin n → ℚ} {thr : ℚ} {fs fs' : List (Fin n → Nat)} (hu : TimeUnique fs) {s s' len : Nat} (hW : Window fs fs' s s' len)
    {k : Nat} (hk : k < len) {f f' : Fin n → Nat} (hf : fs[s + k]? = some f) (hf' : fs'[s' + k]? = some f') {i : Fin n} (hi : 0 < f i) {b : Nat}
    (h : Linked (Follows w thr fs) (f i) b) :
    ∃ l g g' x, l < len ∧ fs[s + l]? = some g ∧ fs'[s' + l]? = some g' ∧ 0 < g x ∧ g x = b ∧ Linked (Follows w thr fs') (f' i) (g' x) := by
  induction h with
  | refl => exact ⟨k, f, f', i, hk, hf, hf', hi, rfl, .refl _⟩
  | fwd _ he ih =>
    obtain ⟨l, g, g', x, hl, hg, hg', hx, rfl, hL⟩ := ih
    obtain ⟨t, F, G, hF, hG, hb, hov⟩ := he
    obtain ⟨y, hy⟩ := hov.2.1
    have ht : t = s + l := timeUnique_step hu hF hg (i := y) (j := x) (by rw [hy.1]; exact hx) hy.1
    subst ht
    rw [hg] at hF
    cases hF
    have hl' : l + 1 < len := by
      by_contra hcon
      have : s + l + 1 = s + len := by omega
      have := hW.after G (by rw [← this]; exact hG) y
      omega
    obtain ⟨G0, G', hG0, hG', hSG⟩ := hW.same (l + 1) hl'
    rw [show s + (l + 1) = s + l + 1 by omega, hG] at hG0
    cases hG0
    obtain ⟨g0, g0', hg0, hg0', hSg⟩ := hW.same l hl
    rw [hg] at hg0
    rw [hg'] at hg0'
    cases hg0
    cases hg0'
    obtain ⟨z, hz1, hz2, hz3, hz4⟩ := overlap_moves hSg hSG hb hov
    refine ⟨l + 1, G, G', z, hl', hG, hG', by rw [hz2]; exact hb, hz2, .fwd hL ⟨s' + l, g', G', hg', hG', hz3, ?_⟩⟩
    have : g' x = g' z := (hSg.2 x z hx).2 hz1.symm
    rwa [this]
  | bwd _ he ih =>
    obtain ⟨l, g, g', x, hl, hg, hg', hx, rfl, hL⟩ := ih
    obtain ⟨t, F, G, hF, hG, hb, hov⟩ := he
    obtain ⟨y, hy⟩ := hov.2.1
    have hFy : 0 < F y := by rw [hy.1]; exact hov.1
    have ht : t + 1 = s + l := timeUnique_step hu hG hg (i := y) (j := x) (by rw [hy.2]; exact hx) hy.2
    rw [ht, hg] at hG
    cases hG
    have hl' : 0 < l := by
      by_contra hcon
      have := hW.before t F (by omega) hF y
      omega
    obtain ⟨F0, F', hF0, hF', hSF⟩ := hW.same (l - 1) (by omega)
    rw [show s + (l - 1) = t by omega, hF] at hF0
    cases hF0
    obtain ⟨g0, g0', hg0, hg0', hSg⟩ := hW.same l hl
    rw [hg] at hg0
    rw [hg'] at hg0'
    cases hg0
    cases hg0'
    obtain ⟨z, hz1, hz2, hz3, hz4⟩ := overlap_moves hSF hSg hb hov
    refine ⟨l - 1, F, F', z, by omega, by rw [show s + (l - 1) = t by omega]; exact hF, hF', by rw [hz1]; exact hov.1, hz1,
      .bwd hL ⟨s' + (l - 1), F', g', hF', by rw [show s' + (l - 1) + 1 = s' + l by omega]; exact hg', (hSg.1 x).2 hx, ?_⟩⟩
    have : g' z = g' x := ((hSg.2 x z hx).2 hz2.symm).symm
    rwa [this] at hz4

theorem window_symm {fs fs' : List (Fin n → Nat)} {s s' len : Nat} (hW : Window fs fs' s s' len)
    (hb : ∀ t f, t + 1 = s' → fs'[t]? = some f → ∀ i, f i = 0) (ha : ∀ f, fs'[s' + len]? = some f → ∀ i, f i = 0) : Window fs' fs s' s len :=
  ⟨fun k hk => by obtain ⟨f, f', h1, h2, h3⟩ := hW.same k hk; exact ⟨f', f, h2, h1, h3.symm⟩, hb, ha⟩

/-- No merges among the objects of a window if there are none in the other record. -/
theorem noMerges_window {w : Fin n → ℚ} {thr : ℚ} {fs fs' : List (Fin n → Nat)} (hu : TimeUnique fs) {s s' len : Nat} (hW : Window fs fs' s s' len)
    (hm : NoMerges w thr fs') {a b k t : Nat} (ha : Follows w thr fs a k) (hb : Follows w thr fs b k) {F : Fin n → Nat} (hF : fs[t]? = some F)
    (hk : ∃ x, F x = k) (h1 : s ≤ t) (h2 : t < s + len) : a = b := by
  obtain ⟨x, hx⟩ := hk
  have key : ∀ a, Follows w thr fs a k → ∃ (f f' F' : Fin n → Nat) (z : Fin n), fs[t - 1]? = some f ∧ fs'[s' + (t - 1 - s)]? = some f' ∧
      StepGroups (Equiv.refl _) f f' ∧ 0 < a ∧ f z = a ∧ fs'[s' + (t - s)]? = some F' ∧ F' z = F' x ∧ Follows w thr fs' (f' z) (F' x) := by
    rintro a ⟨u, f, G, hf, hG, hpos, hov⟩
    obtain ⟨y, hy⟩ := hov.2.1
    have hut : u + 1 = t := timeUnique_step hu hG hF (i := y) (j := x) (by rw [hy.2]; exact hpos) (by rw [hy.2, hx])
    rw [hut, hF] at hG
    cases hG
    have hst : s < t := by
      by_contra hcon
      have := hW.before u f (by omega) hf y
      have := hov.1
      omega
    obtain ⟨f0, f', hf0, hf', hSf⟩ := hW.same (t - 1 - s) (by omega)
    rw [show s + (t - 1 - s) = u by omega, hf] at hf0
    cases hf0
    obtain ⟨F0, F', hF0, hF', hSF⟩ := hW.same (t - s) (by omega)
    rw [show s + (t - s) = t by omega, hF] at hF0
    cases hF0
    obtain ⟨z, hz1, hz2, hz3, hz4⟩ := overlap_moves hSf hSF hpos hov
    have hzx : F' z = F' x := ((hSF.2 x z (by omega)).2 (by rw [hx, hz2])).symm
    refine ⟨f, f', F', z, by rw [show t - 1 = u by omega]; exact hf, hf', hSf, hov.1, hz1, hF', hzx, ⟨s' + (t - 1 - s), f', F', hf', ?_, ?_, ?_⟩⟩
    · rw [show s' + (t - 1 - s) + 1 = s' + (t - s) by omega]; exact hF'
    · rw [← hzx]; exact hz3
    · rwa [← hzx]
  obtain ⟨f, f', F', z, hf, hf', hS, hpa, hz, hF', -, hfo⟩ := key a ha
  obtain ⟨f2, f2', F2', z2, hf2, hf2', -, hpb, hz2, hF2', -, hfo2⟩ := key b hb
  rw [hf] at hf2
  rw [hf'] at hf2'
  rw [hF'] at hF2'
  cases hf2
  cases hf2'
  cases hF2'
  have := hm _ _ _ hfo hfo2
  rw [← hz, ← hz2]
  exact (hS.2 z z2 (by omega)).1 this

/-! ### Events of the parts -/

/-- What a run on a mesh without merges gives. -/
theorem runMesh_noMerges (cc : Labeller) (hcc : CorrectLabeller cc) (p : MeshRun n) (hw : ∀ i, 0 < p.track.w i) (hmax : 0 < p.track.maxIter)
    (pre : List (Fin n → Bool)) (hlen : ¬ (pre.length = 1 ∧ n ≠ 1)) (hm : NoMerges p.track.w p.track.thr (objectFieldMesh cc p.nbr p.mask pre)) :
    ∃ ids, trackingMesh cc p pre = .ok ids ∧ ids.length = pre.length ∧ ∀ t u i j, SameEvent ids t i u j ↔
      ∃ f g, (objectFieldMesh cc p.nbr p.mask pre)[t]? = some f ∧ (objectFieldMesh cc p.nbr p.mask pre)[u]? = some g ∧ 0 < f i ∧ 0 < g j ∧
        Linked (Follows p.track.w p.track.thr (objectFieldMesh cc p.nbr p.mask pre)) (f i) (g j) := by
  refine ⟨_, trackingMesh_noMerges cc p pre hmax hlen hw hm, ?_, ?_⟩
  all_goals
    have hu := timeUnique_objectFieldMesh cc p.nbr p.mask pre
    have hol : (objectFieldMesh cc p.nbr p.mask pre).length = pre.length := by
      unfold objectFieldMesh; rw [length_uniqueAcrossTime, List.length_map]
    generalize objectFieldMesh cc p.nbr p.mask pre = objs at hm hu hol ⊢
    have ht := tableExact_calcProps ⟨p.track.w, p.track.thr, p.cen, fun _ _ _ _ _ _ _ => 0⟩ objs hu
    obtain ⟨l1, s1, z1, -⟩ := C22_events_are_linked_groups cc hcc p.track.w p.track.thr
      (objs.flatMap (calcProps ⟨p.track.w, p.track.thr, p.cen, fun _ _ _ _ _ _ _ => 0⟩)) objs
    have r1 : (fun a b => LinkedTo (enforceOverlap p.track.thr (objs.flatMap (calcProps ⟨p.track.w, p.track.thr, p.cen, fun _ _ _ _ _ _ _ => 0⟩))
        (findOverlaps p.track.w objs)) a b) = Follows p.track.w p.track.thr objs := by
      funext a b; exact propext (links_iff_follows hw hu ht)
    rw [r1] at s1
  · rw [l1, hol]
  · intro t u i j
    generalize renameField cc objs _ = ids at l1 s1 z1 ⊢
    constructor
    · rintro ⟨f', g', hf', hg', h0, heq⟩
      have lt : t < objs.length := by rw [← l1]; exact (List.getElem?_eq_some_iff.1 hf').1
      have lu : u < objs.length := by rw [← l1]; exact (List.getElem?_eq_some_iff.1 hg').1
      have q1 := (z1 t _ f' (List.getElem?_eq_getElem lt) hf' i).1 h0
      have q2 := (z1 u _ g' (List.getElem?_eq_getElem lu) hg' j).1 (heq ▸ h0)
      exact ⟨_, _, List.getElem?_eq_getElem lt, List.getElem?_eq_getElem lu, q1, q2,
        (s1 t u _ _ f' g' (List.getElem?_eq_getElem lt) (List.getElem?_eq_getElem lu) hf' hg' i j q1 q2).1 heq⟩
    · rintro ⟨f, g, hf, hg, h1, h2, hl⟩
      have lt : t < ids.length := by rw [l1]; exact (List.getElem?_eq_some_iff.1 hf).1
      have lu : u < ids.length := by rw [l1]; exact (List.getElem?_eq_some_iff.1 hg).1
      exact ⟨_, _, List.getElem?_eq_getElem lt, List.getElem?_eq_getElem lu, (z1 t f _ hf (List.getElem?_eq_getElem lt) i).2 h1,
        (s1 t u f g _ _ hf hg (List.getElem?_eq_getElem lt) (List.getElem?_eq_getElem lu) i j h1 h2).2 hl⟩

/-- The objects of two parts with a gap: the same groups as alone, no objects in the gap. -/
theorem objectFieldMesh_gap (cc : Labeller) (nbr : NbrTable n) (mask : Fin n → Bool) (g : Nat) (hg : 0 < g) (A B : List (Fin n → Bool)) :
    Window (objectFieldMesh cc nbr mask (withGap g A B)) (objectFieldMesh cc nbr mask A) 0 0 A.length ∧
    Window (objectFieldMesh cc nbr mask (withGap g A B)) (objectFieldMesh cc nbr mask B) (A.length + g) 0 B.length ∧
    ∀ t, A.length ≤ t → t < A.length + g → (objectFieldMesh cc nbr mask (withGap g A B))[t]? = some noEvents := by
  have hl : ∀ l : List (Fin n → Bool), (objectFieldMesh cc nbr mask l).length = l.length := by
    intro l; unfold objectFieldMesh; rw [length_uniqueAcrossTime, List.length_map]
  obtain ⟨s, hs⟩ : ∃ s, objectFieldMesh cc nbr mask (withGap g A B) = objectFieldMesh cc nbr mask A ++ (List.replicate g noEvents ++
      uniqueAcrossTime s (B.map (identifyObjectsMesh cc nbr mask))) := by
    unfold objectFieldMesh withGap
    rw [List.map_append, List.map_append, List.map_replicate, identifyObjectsMesh_land cc nbr mask noExtremes fun i _ => rfl]
    obtain ⟨s, h⟩ := uniqueAcrossTime_append (A.map (identifyObjectsMesh cc nbr mask))
      (List.replicate g noEvents ++ B.map (identifyObjectsMesh cc nbr mask)) 0
    exact ⟨s, by rw [h, uniqueAcrossTime_lead]⟩
  have hB := uniqueAcrossTime_groups (forall₂_refl (B.map (identifyObjectsMesh cc nbr mask))) s 0
  have hlB : (uniqueAcrossTime s (B.map (identifyObjectsMesh cc nbr mask))).length = B.length := by rw [length_uniqueAcrossTime, List.length_map]
  have hgap : ∀ t, A.length ≤ t → t < A.length + g → (objectFieldMesh cc nbr mask (withGap g A B))[t]? = some noEvents := by
    intro t h1 h2
    rw [hs, List.getElem?_append_right (by rw [hl]; exact h1), List.getElem?_append_left (by simp [hl]; omega),
      List.getElem?_replicate_of_lt (by rw [hl]; omega)]
  refine ⟨⟨fun k hk => ?_, fun t f ht => by omega, fun f hf i => ?_⟩, ⟨fun k hk => ?_, fun t f ht hf i => ?_, fun f hf i => ?_⟩, hgap⟩
  · rw [Nat.zero_add]
    have hk' : k < (objectFieldMesh cc nbr mask A).length := by rw [hl]; exact hk
    exact ⟨_, _, by rw [hs, List.getElem?_append_left hk']; exact List.getElem?_eq_getElem hk', List.getElem?_eq_getElem hk', stepGroups_refl _⟩
  · rw [Nat.zero_add, hgap A.length le_rfl (by omega)] at hf
    cases hf
    rfl
  · have hk' : k < (uniqueAcrossTime s (B.map (identifyObjectsMesh cc nbr mask))).length := by rw [hlB]; exact hk
    obtain ⟨b, hb, hS⟩ := forall₂_get hB (List.getElem?_eq_getElem hk')
    refine ⟨_, b, ?_, by rw [Nat.zero_add]; exact hb, hS⟩
    rw [hs, List.getElem?_append_right (by rw [hl]; omega), List.getElem?_append_right (by simp [hl]; omega), ← List.getElem?_eq_getElem hk']
    congr 1
    simp [hl]
    omega
  · rw [hgap t (by omega) (by omega)] at hf
    cases hf
    rfl
  · have := (List.getElem?_eq_some_iff.1 hf).1
    rw [hl, length_withGap] at this
    omega

theorem maxIter_pos {cc : Labeller} {p : MeshRun n} {pre : List (Fin n → Bool)} {ids : List (Frame n)} (h : trackingMesh cc p pre = .ok ids) :
    0 < p.track.maxIter := by
  by_contra hc
  obtain ⟨r, hr, -⟩ := trackingMesh_objects h
  rw [splitAndMergeParallel, show p.track.maxIter = 0 by omega, parLoop] at hr
  cases hr

/-- **C198** on meshes without time-gap filling (`T_fill = 0`) or without land, with an absolute area threshold: two parts that are accepted by themselves
and have no merges, with more than `T_fill` steps without extremes between them, give the extremes and the events that each gives alone, for every
overlap threshold, cell areas and time chunks, and no event has cells in both.  Missing: as for the preprocessing above, and records with merges, where
IDs can be given twice (`C110_mesh_gap_fails`: one event before and after an empty step). -/
theorem C198_mesh_parts_partial (cc : Labeller) (hcc : CorrectLabeller cc) (p : MeshRun n) (hs : SymmetricTable p.nbr)
    (hT : p.T = 0 ∨ p.T % 2 = 0 ∧ ∀ i, p.mask i = true) (hw : ∀ i, 0 < p.track.w i) (a : ℚ) (hc : p.criterion = .absolute a)
    (A B : List (Fin n → Bool)) (g : Nat) (hg : p.T < g) (preA preB : List (Fin n → Bool)) (idsA idsB : List (Frame n))
    (hA : runMesh cc p A = .ok (preA, idsA)) (hB : runMesh cc p B = .ok (preB, idsB))
    (hmA : NoMerges p.track.w p.track.thr (objectFieldMesh cc p.nbr p.mask preA))
    (hmB : NoMerges p.track.w p.track.thr (objectFieldMesh cc p.nbr p.mask preB)) :
    ∃ ids, runMesh cc p (withGap g A B) = .ok (withGap g preA preB, ids) ∧
      (∀ t u i j, t < A.length → u < A.length → (SameEvent ids t i u j ↔ SameEvent idsA t i u j)) ∧
      (∀ t u i j, t < B.length → u < B.length → (SameEvent ids (A.length + g + t) i (A.length + g + u) j ↔ SameEvent idsB t i u j)) ∧
      (∀ t u i j, t < A.length → A.length + g ≤ u → ¬ SameEvent ids t i u j) ∧
      ∀ t f, A.length ≤ t → t < A.length + g → ids[t]? = some f → ∀ i, f i = 0 := by
  have split : ∀ D pre ids, runMesh cc p D = .ok (pre, ids) → ∃ r, preprocessMesh cc p D = .ok r ∧ r.field = pre ∧ trackingMesh cc p pre = .ok ids := by
    intro D pre ids h
    unfold runMesh at h
    split at h
    · cases h
    rename_i r hr
    split at h
    · cases h
    rename_i ids' hids
    simp only [Except.ok.injEq, Prod.mk.injEq] at h
    obtain ⟨rfl, rfl⟩ := h
    exact ⟨r, hr, rfl, hids⟩
  obtain ⟨rA, hrA, rfl, htA⟩ := split A preA idsA hA
  obtain ⟨rB, hrB, rfl, htB⟩ := split B preB idsB hB
  have len : ∀ D r, preprocessMesh cc p D = .ok r → r.field.length = D.length := by
    intro D r hr
    unfold preprocessMesh at hr
    rw [(filterMesh_sub hr).1, List.length_map]
    unfold fillTimeGaps
    split
    · rw [List.length_map]
    · rw [List.length_map, length_closeTimeGaps, List.length_map]
  have hlA := len A rA hrA
  have hlB := len B rB hrB
  obtain ⟨r, hr, hfield, -⟩ := C198_mesh_preprocessing_partial cc p hs hT a hc A B g hg rA rB hrA hrB
  have hmax := maxIter_pos htA
  have one : ∀ D r ids, preprocessMesh cc p D = .ok r → trackingMesh cc p r.field = .ok ids → ¬ (r.field.length = 1 ∧ n ≠ 1) := by
    intro D r ids _ ht hcon
    unfold trackingMesh at ht
    rw [if_pos hcon] at ht
    cases ht
  have ne : ∀ D r, preprocessMesh cc p D = .ok r → 0 < r.field.length := by
    intro D r hr
    rw [Nat.pos_iff_ne_zero]
    intro h0
    unfold preprocessMesh filterMesh at hr
    dsimp only at hr
    split at hr
    · cases hr
    rename_i h1
    simp only [Except.ok.injEq] at hr
    subst hr
    rw [List.length_map, List.length_eq_zero_iff] at h0
    apply h1
    rw [h0]
    rfl
  have hnA := ne A rA hrA
  have hnB := ne B rB hrB
  obtain ⟨WA, WB, hgap⟩ := objectFieldMesh_gap cc p.nbr p.mask g (by omega) rA.field rB.field
  have hu := timeUnique_objectFieldMesh cc p.nbr p.mask (withGap g rA.field rB.field)
  have huA := timeUnique_objectFieldMesh cc p.nbr p.mask rA.field
  have huB := timeUnique_objectFieldMesh cc p.nbr p.mask rB.field
  have hol : ∀ l : List (Fin n → Bool), (objectFieldMesh cc p.nbr p.mask l).length = l.length := by
    intro l; unfold objectFieldMesh; rw [length_uniqueAcrossTime, List.length_map]
  have hm : NoMerges p.track.w p.track.thr (objectFieldMesh cc p.nbr p.mask (withGap g rA.field rB.field)) := by
    intro x y k hx hy
    obtain ⟨t, f, F, hf, hF, hk, hov⟩ := id hx
    obtain ⟨z, hz1, hz2⟩ := hov.2.1
    have hlt := (List.getElem?_eq_some_iff.1 hF).1
    rw [hol, length_withGap] at hlt
    rcases Nat.lt_or_ge (t + 1) rA.field.length with h1 | h1
    · exact noMerges_window hu WA hmA hx hy hF ⟨z, hz2⟩ (by omega) (by omega)
    · rcases Nat.lt_or_ge (t + 1) (rA.field.length + g) with h2 | h2
      · rw [hgap _ h1 h2] at hF
        cases hF
        rw [← hz2] at hk
        exact absurd hk (lt_irrefl 0)
      · exact noMerges_window hu WB hmB hx hy hF ⟨z, hz2⟩ h2 (by omega)
  obtain ⟨ids, hids, hidl, hev⟩ := runMesh_noMerges cc hcc p hw hmax (withGap g rA.field rB.field) (by rw [length_withGap]; omega) hm
  obtain ⟨idsA', hA', -, hevA⟩ := runMesh_noMerges cc hcc p hw hmax rA.field (one A rA idsA hrA htA) hmA
  obtain ⟨idsB', hB', -, hevB⟩ := runMesh_noMerges cc hcc p hw hmax rB.field (one B rB idsB hrB htB) hmB
  rw [htA] at hA'
  rw [htB] at hB'
  cases hA'
  cases hB'
  have part : ∀ (fs fs' : List (Frame n)) (s len : Nat), TimeUnique fs → TimeUnique fs' → fs'.length = len → Window fs fs' s 0 len →
      ∀ t u i j, t < len → u < len →
      ((∃ f g, fs[s + t]? = some f ∧ fs[s + u]? = some g ∧ 0 < f i ∧ 0 < g j ∧ Linked (Follows p.track.w p.track.thr fs) (f i) (g j)) ↔
       (∃ f g, fs'[t]? = some f ∧ fs'[u]? = some g ∧ 0 < f i ∧ 0 < g j ∧ Linked (Follows p.track.w p.track.thr fs') (f i) (g j))) := by
    have dir : ∀ (fs fs' : List (Frame n)) (s s' len : Nat), TimeUnique fs → TimeUnique fs' → Window fs fs' s s' len → ∀ t u i j, t < len → u < len →
      (∃ f g, fs[s + t]? = some f ∧ fs[s + u]? = some g ∧ 0 < f i ∧ 0 < g j ∧ Linked (Follows p.track.w p.track.thr fs) (f i) (g j)) →
       (∃ f g, fs'[s' + t]? = some f ∧ fs'[s' + u]? = some g ∧ 0 < f i ∧ 0 < g j ∧ Linked (Follows p.track.w p.track.thr fs') (f i) (g j)) := by
      rintro fs fs' s s' len h1 h2 W t u i j ht hu ⟨f, g, hf, hg, hi, hj, hL⟩
      obtain ⟨f0, f', hf0, hf', hSf⟩ := W.same t ht
      rw [hf] at hf0
      cases hf0
      obtain ⟨g0, g', hg0, hg', hSg⟩ := W.same u hu
      rw [hg] at hg0
      cases hg0
      obtain ⟨l, q, q', x, hl, hq, hq', hx, hqx, hL'⟩ := linked_window h1 W ht hf hf' hi hL
      have := timeUnique_step h1 hq hg hx hqx
      have : l = u := by omega
      subst this
      rw [hg] at hq
      rw [hg'] at hq'
      cases hq
      cases hq'
      refine ⟨f', g', hf', hg', (hSf.1 i).2 hi, (hSg.1 j).2 hj, ?_⟩
      have : g' x = g' j := (hSg.2 x j hx).2 hqx
      rwa [this] at hL'
    intro fs fs' s len h1 h2 hl W t u i j ht hu
    have Ws : Window fs' fs 0 s len := window_symm W (fun t f h => by omega) fun f hf => by
      have := (List.getElem?_eq_some_iff.1 hf).1
      omega
    have e1 := dir fs fs' s 0 len h1 h2 W t u i j ht hu
    have e2 := dir fs' fs 0 s len h2 h1 Ws t u i j ht hu
    simp only [Nat.zero_add] at e1 e2
    exact ⟨e1, e2⟩
  refine ⟨ids, ?_, ?_, ?_, ?_, ?_⟩
  · unfold runMesh
    rw [hr]
    dsimp only
    rw [hfield, hids]
  · intro t u i j ht hu'
    rw [hev, hevA]
    have := part _ _ 0 rA.field.length hu huA (hol _) WA t u i j (by omega) (by omega)
    simpa only [Nat.zero_add] using this
  · intro t u i j ht hu'
    rw [hev, hevB, ← hlA]
    exact part _ _ (rA.field.length + g) rB.field.length hu huB (hol _) WB t u i j (by omega) (by omega)
  · intro t u i j ht hu' hse
    obtain ⟨f, q, hf, hq, hi, hj, hL⟩ := (hev t u i j).1 hse
    obtain ⟨f0, f', hf0, hf', -⟩ := WA.same t (by omega)
    obtain ⟨l, q', -, x, hl, hq', -, hx, hqx, -⟩ := linked_window hu WA (by omega : t < rA.field.length) (by rw [Nat.zero_add]; exact hf) hf' hi hL
    have := timeUnique_step hu hq' hq hx hqx
    omega
  · intro t f h1 h2 hf i
    by_contra hne
    obtain ⟨q, -, hq, -, hi, -⟩ := (hev t t i i).1 ⟨f, f, hf, hf, Nat.pos_of_ne_zero hne, rfl⟩
    rw [hgap t (by omega) (by omega)] at hq
    cases hq
    exact absurd hi (lt_irrefl 0)

-- the hypotheses are met by the record on a line of cells, followed by itself after one empty step
example : ∃ pre idsA ids, runMesh quickFind (lineRun true) lineData = .ok (pre, idsA) ∧
    runMesh quickFind (lineRun true) (withGap 1 lineData lineData) = .ok (withGap 1 pre pre, ids) ∧
    ∀ t u i j, t < lineData.length → u < lineData.length → (SameEvent ids (4 + t) i (4 + u) j ↔ SameEvent idsA t i u j) := by
  have h : (match runMesh quickFind (lineRun true) lineData with
      | .ok (pre, _) => decide (((enforceOverlap (lineRun true).track.thr
          ((objectFieldMesh quickFind (lineRun true).nbr (lineRun true).mask pre).flatMap
            (calcProps ⟨(lineRun true).track.w, (lineRun true).track.thr, (lineRun true).cen, fun _ _ _ _ _ _ _ => 0⟩))
          (findOverlaps (lineRun true).track.w (objectFieldMesh quickFind (lineRun true).nbr (lineRun true).mask pre))).map (·.b)).Nodup)
      | .error _ => false) = true := by decide +kernel
  cases hr : runMesh quickFind (lineRun true) lineData with
  | error e => rw [hr] at h; cases h
  | ok q =>
    rw [hr] at h
    obtain ⟨pre, ids⟩ := q
    have hu := timeUnique_objectFieldMesh quickFind (lineRun true).nbr (lineRun true).mask pre
    have hm := noMerges_of_nodup (fun _ => one_pos) hu
      (tableExact_calcProps ⟨(lineRun true).track.w, _, (lineRun true).cen, fun _ _ _ _ _ _ _ => 0⟩ _ hu) (of_decide_eq_true h)
    obtain ⟨ids', h1, -, h2, -⟩ := C198_mesh_parts_partial quickFind quickFind_correct (lineRun true) (strip_symmetric 14) (Or.inl rfl)
      (fun _ => one_pos) 1 rfl lineData lineData 1 one_pos pre pre ids ids hr hr hm hm
    exact ⟨pre, ids, ids', rfl, h1, h2⟩

end MarEx.Props
