import Verif.Lemmas.Prefix
import Verif.Props.SeparateMerging
import Verif.Props.FarAwayMesh
/-! C206: steps appended to a record leave the events that are over alone. -/
namespace MarEx.Props
open MarEx Spec

variable {n : Nat}

/-! ### Events and links -/

/-- The events of `ids` are the groups of linked objects of `fs`. -/
def EventsOf (w : Fin n → ℚ) (thr : ℚ) (fs : List (Fin n → Nat)) (ids : List (Frame n)) : Prop :=
  ∀ t u i j, SameEvent ids t i u j ↔
    ∃ f g, fs[t]? = some f ∧ fs[u]? = some g ∧ 0 < f i ∧ 0 < g j ∧ Linked (Follows w thr fs) (f i) (g j)

/-- The first steps of `fs` have the objects of `fs'`, under other IDs. -/
def Begins (fs fs' : List (Fin n → Nat)) : Prop :=
  ∀ t, t < fs'.length → ∃ f f', fs[t]? = some f ∧ fs'[t]? = some f' ∧ StepGroups (Equiv.refl _) f f'

theorem Begins.at {fs fs' : List (Fin n → Nat)} (h : Begins fs fs') {t : Nat} {f' : Fin n → Nat} (hf : fs'[t]? = some f') :
    ∃ f, fs[t]? = some f ∧ StepGroups (Equiv.refl _) f f' := by
  obtain ⟨f, g, h1, h2, h3⟩ := h t (List.getElem?_eq_some_iff.1 hf).1
  rw [hf] at h2; cases h2
  exact ⟨f, h1, h3⟩

/-- Events never fall apart when steps are added. -/
theorem begins_grows {w : Fin n → ℚ} {thr : ℚ} {fs fs' : List (Fin n → Nat)} {ids ids' : List (Frame n)} (hu' : TimeUnique fs') (hb : Begins fs fs')
    (h : EventsOf w thr fs ids) (h' : EventsOf w thr fs' ids') {t u : Nat} {i j : Fin n} (hs : SameEvent ids' t i u j) : SameEvent ids t i u j := by
  obtain ⟨f', g', hf', hg', hi, hj, hl⟩ := (h' t u i j).1 hs
  have W : Window fs' fs 0 0 fs'.length := by
    refine ⟨fun k hk => ?_, fun t f ht => by omega, fun f hf => ?_⟩
    · obtain ⟨a, b, h1, h2, h3⟩ := hb k hk
      exact ⟨b, a, by rw [Nat.zero_add]; exact h2, by rw [Nat.zero_add]; exact h1, h3.symm⟩
    · rw [Nat.zero_add, List.getElem?_eq_none (le_refl _)] at hf
      cases hf
  obtain ⟨f, hf, hSf⟩ := hb.at hf'
  obtain ⟨g, hg, hSg⟩ := hb.at hg'
  obtain ⟨l, q', q, x, hlt, hq', hq, hx, hqx, hL⟩ := linked_window hu' W (List.getElem?_eq_some_iff.1 hf').1 (by rw [Nat.zero_add]; exact hf')
    (by rw [Nat.zero_add]; exact hf) hi hl
  rw [Nat.zero_add] at hq' hq
  have e : l = u := timeUnique_step hu' hq' hg' (i := x) (j := j) hx hqx
  subst e
  rw [hg'] at hq'; rw [hg] at hq; cases hq'; cases hq
  have : g x = g j := (hSg.2 x j ((hSg.1 x).1 hx)).1 hqx
  rw [this] at hL
  exact (h t l i j).2 ⟨f, g, hf, hg, (hSf.1 i).1 hi, (hSg.1 j).1 hj, hL⟩

/-- Events without cells at the last step stay as they are when steps are added. -/
theorem begins_over {w : Fin n → ℚ} {thr : ℚ} {fs fs' : List (Fin n → Nat)} {ids ids' : List (Frame n)} (hu : TimeUnique fs) (hb : Begins fs fs')
    (h : EventsOf w thr fs ids) (h' : EventsOf w thr fs' ids') {t : Nat} {i : Fin n} (ht : t < fs'.length)
    (hend : ∀ u j, SameEvent ids' t i u j → u + 1 < fs'.length) {u : Nat} {j : Fin n} (hs : SameEvent ids t i u j) : SameEvent ids' t i u j := by
  obtain ⟨f, g, hf, hg, hi, hj, hl⟩ := (h t u i j).1 hs
  obtain ⟨f0, f', e0, hf', hSf⟩ := hb t ht
  rw [hf] at e0; cases e0
  have key : ∀ b, Linked (Follows w thr fs) (f i) b →
      ∃ (v : Nat) (q q' : Fin n → Nat) (x : Fin n), fs[v]? = some q ∧ fs'[v]? = some q' ∧ StepGroups (Equiv.refl _) q q' ∧ 0 < q x ∧ q x = b ∧ Linked (Follows w thr fs') (f' i) (q' x) := by
    intro b hl
    induction hl with
    | refl => exact ⟨t, f, f', i, hf, hf', hSf, hi, rfl, .refl _⟩
    | fwd _ he ih =>
      obtain ⟨v, q, q', x, hq, hq', hS, hx, rfl, hL⟩ := ih
      obtain ⟨v2, F, G, hF, hG, hb2, hov⟩ := he
      obtain ⟨y, hy⟩ := hov.2.1
      have hv : v2 = v := timeUnique_step hu hF hq (i := y) (j := x) (by rw [hy.1]; exact hx) hy.1
      subst hv
      rw [hq] at hF; cases hF
      have := hend v2 x ((h' _ _ _ _).2 ⟨f', q', hf', hq', (hSf.1 i).2 hi, (hS.1 x).2 hx, hL⟩)
      obtain ⟨G0, G', e, hG', hSG⟩ := hb (v2 + 1) this
      rw [hG] at e; cases e
      obtain ⟨z, hz1, hz2, hz3, hz4⟩ := overlap_moves hS hSG hb2 hov
      refine ⟨v2 + 1, G, G', z, hG, hG', hSG, by rw [hz2]; exact hb2, hz2, .fwd hL ⟨v2, q', G', hq', hG', hz3, ?_⟩⟩
      have : q' x = q' z := (hS.2 x z hx).2 hz1.symm
      rwa [this]
    | bwd _ he ih =>
      obtain ⟨v, q, q', x, hq, hq', hS, hx, rfl, hL⟩ := ih
      obtain ⟨v2, F, G, hF, hG, hb2, hov⟩ := he
      obtain ⟨y, hy⟩ := hov.2.1
      have hv : v2 + 1 = v := timeUnique_step hu hG hq (i := y) (j := x) (by rw [hy.2]; exact hx) hy.2
      subst hv
      rw [hq] at hG; cases hG
      have := (List.getElem?_eq_some_iff.1 hq').1
      obtain ⟨F0, F', e, hF', hSF⟩ := hb v2 (by omega)
      rw [hF] at e; cases e
      obtain ⟨z, hz1, hz2, hz3, hz4⟩ := overlap_moves hSF hS hb2 hov
      refine ⟨v2, F, F', z, hF, hF', hSF, by rw [hz1]; exact hov.1, hz1, .bwd hL ⟨v2, F', q', hF', hq', (hS.1 x).2 hx, ?_⟩⟩
      have : q' z = q' x := ((hS.2 x z hx).2 hz2.symm).symm
      rwa [this] at hz4
  obtain ⟨v, q, q', x, hq, hq', hS, hx, hqx, hL⟩ := key _ hl
  have e : v = u := timeUnique_step hu hq hg (i := x) (j := j) hx hqx
  subst e
  rw [hg] at hq; cases hq
  have : q' x = q' j := (hS.2 x j hx).2 hqx
  rw [this] at hL
  exact (h' t v i j).2 ⟨f', q', hf', hq', (hSf.1 i).2 hi, (hS.1 j).2 hj, hL⟩

/-- Two records with the same first steps: the events that are over by then are the same. -/
theorem begins_both {w : Fin n → ℚ} {thr : ℚ} {fs fs2 fs' : List (Fin n → Nat)} {ids ids2 ids' : List (Frame n)} (hu : TimeUnique fs) (hu2 : TimeUnique fs2)
    (hu' : TimeUnique fs') (hb : Begins fs fs') (hb2 : Begins fs2 fs') (h : EventsOf w thr fs ids) (h2 : EventsOf w thr fs2 ids2) (h' : EventsOf w thr fs' ids')
    {t : Nat} {i : Fin n} (ht : t < fs'.length) (hend : ∀ u j, SameEvent ids t i u j → u + 1 < fs'.length) (u : Nat) (j : Fin n) :
    SameEvent ids t i u j ↔ SameEvent ids2 t i u j := by
  have hend' : ∀ u j, SameEvent ids' t i u j → u + 1 < fs'.length := fun u j hs => hend u j (begins_grows hu' hb h h' hs)
  exact ⟨fun hs => begins_grows hu' hb2 h2 h' (begins_over hu hb h h' ht hend' hs), fun hs => begins_grows hu' hb h h' (begins_over hu2 hb2 h2 h' ht hend' hs)⟩

theorem eventsOf_intro {w : Fin n → ℚ} {thr : ℚ} {objs ids : List (Frame n)} (l1 : ids.length = objs.length)
    (s1 : ∀ (t u : Nat) (f g f' g' : Frame n), objs[t]? = some f → objs[u]? = some g → ids[t]? = some f' → ids[u]? = some g' → ∀ i j, 0 < f i → 0 < g j →
      (f' i = g' j ↔ Linked (Follows w thr objs) (f i) (g j)))
    (z1 : ∀ (t : Nat) (f f' : Frame n), objs[t]? = some f → ids[t]? = some f' → ∀ i, 0 < f' i ↔ 0 < f i) : EventsOf w thr objs ids := by
  intro t u i j
  constructor
  · rintro ⟨f', g', hf', hg', h0, heq⟩
    have lt : t < objs.length := by rw [← l1]; exact (List.getElem?_eq_some_iff.1 hf').1
    have lu : u < objs.length := by rw [← l1]; exact (List.getElem?_eq_some_iff.1 hg').1
    have q1 := (z1 t _ f' (List.getElem?_eq_getElem lt) hf' i).1 h0
    have q2 := (z1 u _ g' (List.getElem?_eq_getElem lu) hg' j).1 (heq ▸ h0)
    exact ⟨_, _, List.getElem?_eq_getElem lt, List.getElem?_eq_getElem lu, q1, q2,
      (s1 t u _ _ f' g' (List.getElem?_eq_getElem lt) (List.getElem?_eq_getElem lu) hf' hg' i j q1 q2).1 heq⟩
  · rintro ⟨f, g, hf, hg, h1, h2, hl⟩
    have lt : t < ids.length := by rw [l1]; exact (List.getElem?_eq_some_iff.1 hf).1
    have lu : u < ids.length := by rw [l1]; exact (List.getElem?_eq_some_iff.1 hg).1
    exact ⟨_, _, List.getElem?_eq_getElem lt, List.getElem?_eq_getElem lu, (z1 t f _ hf (List.getElem?_eq_getElem lt) i).2 h1,
      (s1 t u f g _ _ hf hg (List.getElem?_eq_getElem lt) (List.getElem?_eq_getElem lu) i j h1 h2).2 hl⟩

theorem eventsOf_trackGrid (cc : Labeller) (hcc : CorrectLabeller cc) (wrap nn : Bool) (ny nx : Nat) (thr : ℚ)
    (cen : Frame n → Nat → ℚ × ℚ) (chunks : List (List (Frame n))) (hu : TimeUnique chunks.flatten) :
    EventsOf (fun _ => 1) thr (trackGrid cc (gridCfg wrap nn ny nx thr cen) chunks).objects.field (trackGrid cc (gridCfg wrap nn ny nx thr cen) chunks).idField := by
  obtain ⟨-, l1, s1, z1⟩ := C22_tracked_events cc hcc wrap nn ny nx thr cen chunks hu
  exact eventsOf_intro l1 s1 z1

/-! ### Structured grids with merging -/

/-- The first steps of a record, with nothing after. -/
theorem prefix_ownObjects {regional : Bool} {nx : Nat} (old rest : List (Fin n → Bool)) :
    OwnObjects regional nx (old ++ rest) (around noExtremes 0 rest.length old) := by
  have hx : ∀ t i, IsExtreme (around noExtremes 0 rest.length old) t i ↔ IsExtreme (old ++ rest) t i ∧ t < old.length := by
    intro t i
    by_cases h1 : t < old.length
    · have e : (around noExtremes 0 rest.length old)[t]? = (old ++ rest)[t]? := by
        have := getElem?_around_mid (noExtremes : Fin n → Bool) 0 rest.length old t h1
        rw [Nat.zero_add] at this
        rw [this, List.getElem?_append_left h1]
      unfold IsExtreme
      rw [e]
      exact ⟨fun h => ⟨h, h1⟩, fun h => h.1⟩
    · constructor
      · rintro ⟨d, hd, hi⟩
        exfalso
        have hl := (List.getElem?_eq_some_iff.mp hd).1
        rw [length_around] at hl
        rw [getElem?_around_out _ 0 rest.length old t (by omega) hl] at hd
        cases hd
        simp [noExtremes] at hi
      · rintro ⟨_, h⟩
        exact absurd h h1
  refine ⟨fun t i h => ((hx t i).mp h).1, fun t i j _ hi hj => ?_⟩
  rw [hx, hx]
  exact and_congr (iff_of_true hi hj) Iff.rfl

/-- At the first `L` steps, object `a` of the field `F` and object `b` of the field `F'` have the same cells. -/
def SameCellsUntil (L : Nat) (F F' : List (Frame n)) (a b : Nat) : Prop :=
  ∀ t < L, ∀ i, (∃ f, F[t]? = some f ∧ f i = a) ↔ ∃ f, F'[t]? = some f ∧ f i = b

/-- Two records, one from a run with object field `F` and one from a run with object field `F'`, report the same merge: the same step, the same overlap
areas, and one by one the same parents and the same children. -/
def SameMerge (L : Nat) (F F' : List (Frame n)) (q r : MergeRec) : Prop :=
  q.time = r.time ∧ q.areas = r.areas ∧ List.Forall₂ (SameCellsUntil L F F') q.parents r.parents ∧ List.Forall₂ (SameCellsUntil L F F') q.children r.children

theorem begins_tracked {ny nx : Nat} (cc : Labeller) (hcc : CorrectLabeller cc) (hord : NumbersInOrder cc) (hnx : 0 < nx) (regional wrap nn : Bool)
    (thr : ℚ) (cen : Frame (ny * nx) → Nat → ℚ × ℚ) (hcen : OfCells cen) (chunks : List Nat) (old rest : List (Fin (ny * nx) → Bool)) (hne : old ≠ [])
    (hch : ChunkLengths chunks (old ++ rest).length) :
    Begins (trackGrid cc (gridCfg wrap nn ny nx thr cen) (chunksOf chunks (identifyObjectsGrid cc false regional nx (old ++ rest)))).objects.field
      (trackGrid cc (gridCfg wrap nn ny nx thr cen) [identifyObjectsGrid cc false regional nx old]).objects.field ∧
    (trackGrid cc (gridCfg wrap nn ny nx thr cen) [identifyObjectsGrid cc false regional nx old]).objects.field.length = old.length ∧
    (∀ r ∈ (trackGrid cc (gridCfg wrap nn ny nx thr cen) [identifyObjectsGrid cc false regional nx old]).objects.merges, r.time < old.length ∧
      ∃ q ∈ (trackGrid cc (gridCfg wrap nn ny nx thr cen) (chunksOf chunks (identifyObjectsGrid cc false regional nx (old ++ rest)))).objects.merges,
        q.time = r.time) ∧
    List.Forall₂ (SameMerge old.length
        (trackGrid cc (gridCfg wrap nn ny nx thr cen) (chunksOf chunks (identifyObjectsGrid cc false regional nx (old ++ rest)))).objects.field
        (trackGrid cc (gridCfg wrap nn ny nx thr cen) [identifyObjectsGrid cc false regional nx old]).objects.field)
      ((trackGrid cc (gridCfg wrap nn ny nx thr cen) (chunksOf chunks (identifyObjectsGrid cc false regional nx (old ++ rest)))).objects.merges.filter
        fun q => decide (q.time < old.length))
      (trackGrid cc (gridCfg wrap nn ny nx thr cen) [identifyObjectsGrid cc false regional nx old]).objects.merges := by
  obtain ⟨ρ, h0, hmono, hin, hval⟩ := group_cut (cc := cc) hcc hord hnx (prefix_ownObjects (regional := regional) (nx := nx) old rest)
  set c := gridCfg wrap nn ny nx thr cen with hc
  have hfaith : Faithful c := faithful_gridCfg wrap nn ny nx thr hcen
  have hpos : ∀ (data : List (Fin (ny * nx) → Bool)) v, 0 < objectAt cc regional nx data v ↔ IsExtreme data v.1 v.2 := by
    intro data v; unfold objectAt; rw [labelGraph_pos, mem_extremeVoxels]
  set obj := identifyObjectsGrid cc false regional nx (old ++ rest) with hobj
  set objO := identifyObjectsGrid cc false regional nx old with hobjO
  have hlenO : objO.length = old.length := length_identify
  have hlenW : obj.length = old.length + rest.length := by rw [hobj, length_identify, List.length_append]
  have hpart : around noEvents 0 rest.length objO = obj.map (cutFrame ρ) := by
    rw [hobjO, ← identifyObjectsGrid_around, hobj, identify_eq, identify_eq, List.map_map, length_around, List.length_append, Nat.zero_add]
    refine List.map_congr_left fun t _ => ?_
    funext i
    exact (hval (t, i)).symm
  have hA : (obj.take old.length).map (cutFrame ρ) = objO := by
    rw [← List.map_take.symm, ← hpart, ← hlenO]
    unfold around
    simp
  have hget : ∀ (t : Nat) (f : Frame (ny * nx)), obj[t]? = some f → ∀ i, f i = objectAt cc regional nx (old ++ rest) (t, i) :=
    fun t f hf i => (identify_get hf).2 i
  -- every object of the first steps is kept
  have hkeep : ∀ (t : Nat) (f : Frame (ny * nx)), (obj.take old.length)[t]? = some f → ∀ i, f i ≠ 0 → ρ (f i) ≠ 0 := by
    intro t f hf i hi
    have ht : t < old.length := by
      have := (List.getElem?_eq_some_iff.1 hf).1
      rw [List.length_take] at this
      omega
    rw [List.getElem?_take_of_lt ht] at hf
    have e : objO[t]? = some (cutFrame ρ f) := by
      rw [← hA, List.getElem?_map, List.getElem?_take_of_lt ht, hf]; rfl
    rw [hget t f hf i] at hi
    have he := (hpos (old ++ rest) (t, i)).mp (by omega)
    have he2 : IsExtreme old t i := by
      obtain ⟨d, hd, h1⟩ := he
      rw [List.getElem?_append_left ht] at hd
      exact ⟨d, hd, h1⟩
    have := (hpos old (t, i)).mpr he2
    have e3 := (identify_get e).2 i
    have e4 : cutFrame ρ f i = ρ (f i) := rfl
    change cutFrame ρ f i = objectAt cc regional nx old (t, i) at e3
    omega
  set props := obj.flatMap (calcProps c) with hprops
  have hmem : ∀ f ∈ obj, ∀ i, 0 < f i → ∃ o ∈ props, o.id = f i := by
    intro f hf i hi
    refine ⟨objOf c f (f i), List.mem_flatMap.mpr ⟨f, hf, List.mem_map.mpr ⟨f i, mem_idsOf'.mpr ⟨hi, i, rfl⟩, rfl⟩⟩, rfl⟩
  have hprop : ∀ k, ρ k ≠ 0 → ∃ o ∈ props, o.id = k := by
    intro k hk
    obtain ⟨v, hv, rfl⟩ := hin k hk
    have hw := (prefix_ownObjects (regional := regional) (nx := nx) old rest).sub _ _ hv
    have hlt : v.1 < obj.length := by
      obtain ⟨d, hd, -⟩ := hw
      have := (List.getElem?_eq_some_iff.1 hd).1
      rw [List.length_append] at this
      omega
    have hg := List.getElem?_eq_getElem hlt
    have e := hget v.1 _ hg v.2
    obtain ⟨o, ho, e2⟩ := hmem _ (List.mem_of_getElem? hg) v.2 (by rw [e]; exact (hpos _ _).mpr hw)
    exact ⟨o, ho, by rw [e2, e]⟩
  have hcut : Cut ρ (firstNewId props) (firstNewId (cutProps ρ props)) := by
    refine ⟨h0, hmono, fun k hk => ?_, fun k => ?_⟩
    · by_contra h
      obtain ⟨o, ho, rfl⟩ := hprop k h
      have := firstNewId_gt props o ho
      omega
    · by_cases h : ρ k = 0
      · rw [h]; unfold firstNewId; omega
      · obtain ⟨o, ho, rfl⟩ := hprop k h
        refine firstNewId_gt (cutProps ρ props) { o with id := ρ o.id } (List.mem_filterMap.mpr ⟨o, ho, ?_⟩)
        unfold cutObj
        rw [if_neg h]
  have hprops' : objO.flatMap (calcProps c) = cutProps ρ props := by
    have e : (obj.map (cutFrame ρ)).flatMap (calcProps c) = cutProps ρ props := by
      rw [hprops, List.flatMap_map]
      unfold cutProps
      rw [List.filterMap_flatMap]
      exact List.flatMap_congr fun f _ => calcProps_cut hcut hfaith f
    rw [← e, ← hpart]
    exact (flatMap_around _ _ (by rw [calcProps, idsOf_noEvents]; rfl) 0 rest.length _).symm
  have hlt : ∀ f ∈ obj, ∀ i, f i < firstNewId props := by
    intro f hf i
    rcases Nat.eq_zero_or_pos (f i) with e | e
    · rw [e]; unfold firstNewId; omega
    · obtain ⟨o, ho, e⟩ := hmem f hf i e
      rw [← e]
      exact firstNewId_gt props o ho
  have htab : Tab ρ ⟨props, firstNewId props, []⟩ ⟨cutProps ρ props, firstNewId (cutProps ρ props), []⟩ :=
    ⟨hcut, by dsimp only; unfold firstNewId; omega, rfl, rfl, firstNewId_gt props, fun r hr => (by cases hr), fun r hr => (by cases hr)⟩
  have hapart : List.IsChain Apart ((obj.take old.length).map (side ρ)) := by
    refine List.isChain_iff_getElem.mpr fun t ht => ?_
    rw [List.length_map] at ht
    rw [List.getElem_map, List.getElem_map]
    have one : ∀ (s : Nat) (hs : s < (obj.take old.length).length) i a, side ρ (obj.take old.length)[s] i = some a → a = true := by
      intro s hs i a ha
      unfold side at ha
      split at ha
      · cases ha
      · rename_i hne
        rw [Option.some.injEq] at ha
        rw [← ha, decide_eq_true_eq]
        exact hkeep s _ (List.getElem?_eq_getElem hs) i hne
    intro i a b ha hb
    rw [one t _ i a ha, one (t + 1) _ i b hb]
  have z := cutFrame_zero (n := ny * nx) h0
  obtain ⟨ρ₁, Q⟩ := chunkLoop_cut hfaith (obj.take old.length) ρ 0 zeroFrame zeroFrame [] true _ _ htab (fun _ => rfl)
    (by
      intro f hf
      rcases List.mem_cons.mp hf with rfl | hf
      · intro i; exact htab.pos
      · rcases List.mem_cons.mp hf with rfl | hf
        · intro i; exact htab.pos
        · exact hlt f (List.mem_of_mem_take (by simpa using hf)))
    (by
      cases hh : (obj.take old.length).map (side ρ) with
      | nil => exact .cons_cons (apart_zero ρ _) (.singleton _)
      | cons a l => exact .cons_cons (apart_zero ρ _) (.cons_cons (apart_zero ρ _) (hh ▸ hapart)))
  rw [z, hA, List.map_nil] at Q
  have hne1 : obj.take old.length ≠ [] := by
    intro e
    have := congrArg List.length e
    rw [List.length_take, hlenW, List.length_nil] at this
    have := List.length_pos_of_ne_nil hne
    omega
  obtain ⟨R, hR⟩ := chunkLoop_prefix c (obj.take old.length) (obj.drop old.length) hne1 0 zeroFrame ⟨props, firstNewId props, []⟩
  rw [List.take_append_drop] at hR
  have eW : (trackGrid cc c (chunksOf chunks obj)).objects.field = (chunkLoop c 0 zeroFrame zeroFrame [] true obj ⟨props, firstNewId props, []⟩).1 ∧
      (trackGrid cc c (chunksOf chunks obj)).objects.merges = (chunkLoop c 0 zeroFrame zeroFrame [] true obj ⟨props, firstNewId props, []⟩).2.merges := by
    have hne2 : obj ≠ [] := fun e => hne1 (by rw [e, List.take_nil])
    have : (trackGrid cc c (chunksOf chunks obj)).objects = splitAndMerge c (chunksOf chunks obj) props := by
      unfold trackGrid
      dsimp only
      rw [flatten_chunksOf]
    rw [this, C19_chunking_irrelevant_partial c (chunksOf chunks obj) [obj] props
      (chunksOf_two (by rw [hlenW, ← List.length_append]; exact hch)) ⟨hne2, by simp⟩ (by rw [flatten_chunksOf]; simp)]
    unfold splitAndMerge
    dsimp only
    rw [chunksLoop, chunksLoop]
    simp
  have eO : (trackGrid cc c [objO]).objects.field = (chunkLoop c 0 zeroFrame zeroFrame [] true objO ⟨cutProps ρ props, firstNewId (cutProps ρ props), []⟩).1 ∧
      (trackGrid cc c [objO]).objects.merges =
        (chunkLoop c 0 zeroFrame zeroFrame [] true objO ⟨cutProps ρ props, firstNewId (cutProps ρ props), []⟩).2.merges := by
    unfold trackGrid splitAndMerge
    dsimp only
    rw [chunksLoop, chunksLoop]
    simp [hprops']
  obtain ⟨M, hM, hlater⟩ := chunkLoop_records_aux c (obj.take old.length) (obj.drop old.length) 0 zeroFrame zeroFrame [] true ⟨props, firstNewId props, []⟩
  obtain ⟨M0, hM0, hlate⟩ := chunkLoop_records c (obj.take old.length) 0 zeroFrame zeroFrame [] true ⟨props, firstNewId props, []⟩
  rw [List.take_append_drop] at hM
  have h27 : ∀ x ∈ (trackGrid cc c (chunksOf chunks obj)).objects.merges, x.time < old.length → ∃ (t : Nat) (f : Frame (ny * nx)) (i : Fin (ny * nx)),
      t < old.length ∧ (trackGrid cc c (chunksOf chunks obj)).objects.field[t]? = some f ∧ f i ≠ 0 ∧ f i ∈ x.parents := by
    intro x hx hxt
    have hu : TimeUnique (chunksOf chunks obj).flatten := by
      rw [flatten_chunksOf]
      exact (C63_grid_ids_unique cc hcc regional nx hnx (old ++ rest)).1
    obtain ⟨t, f, _, g, child, e1, e2, _, _, e5, _, _, _, _, _, e11, _⟩ :=
      C27_merge_records wrap nn ny nx thr cen (chunksOf chunks obj) _ hu (tableExact_calcProps c _ hu) x hx
    obtain ⟨p, hp⟩ := List.exists_mem_of_length_pos (lt_of_lt_of_le Nat.zero_lt_two e5)
    obtain ⟨hp0, i, hi, _⟩ := e11 p hp
    exact ⟨t, f, i, by omega, e2, by omega, by rw [hi]; exact hp⟩
  rw [eW.1, eW.2, hM, hR] at h27
  rw [eW.1, eO.1, eW.2, eO.2, hM, hR, Q.frames, Q.tab.merges]
  generalize chunkLoop c 0 zeroFrame zeroFrame [] true (obj.take old.length) ⟨props, firstNewId props, []⟩ = r at Q hM0 h27 ⊢
  have hsides := Q.sides
  simp only [List.reverse_nil, List.nil_append, if_true] at hsides
  have hrl : r.1.length = old.length := by
    have := congrArg List.length hsides
    rw [List.length_map, List.length_map, List.length_take, hlenW] at this
    omega
  have hkept : ∀ (t : Nat) (f : Frame (ny * nx)), r.1[t]? = some f → ∀ i, f i ≠ 0 → ρ₁ (f i) ≠ 0 := by
    intro t f hg i hi
    have ht2 : t < (obj.take old.length).length := by
      have := (List.getElem?_eq_some_iff.1 hg).1
      rw [List.length_take, hlenW]; omega
    have e := congrArg (fun l => l[t]?) hsides
    simp only [List.getElem?_map, hg, List.getElem?_eq_getElem ht2, Option.map_some, Option.some.injEq] at e
    have e := congrFun e i
    unfold side at e
    rw [if_neg hi] at e
    split at e
    · cases e
    · rename_i hne
      rw [Option.some.injEq, decide_eq_decide] at e
      exact e.mpr (hkeep t _ (List.getElem?_eq_getElem ht2) i hne)
  refine ⟨fun t ht => ?_, by rw [List.length_map, hrl], fun x hx => ?_, ?_⟩
  rotate_left
  · obtain ⟨q, hq, e⟩ := List.mem_filterMap.mp hx
    have hqt : q.time = x.time := by
      unfold cutRec at e
      split at e
      · cases e
      · rw [Option.some.injEq] at e; rw [← e]
    rw [hM0, List.nil_append] at hq
    have := (hlate q hq).2
    rw [List.length_take, hlenW] at this
    exact ⟨by omega, q, List.mem_append_left _ (by rw [hM0]; exact hq), hqt⟩
  · have hlen : (obj.take old.length).length = old.length := by rw [List.length_take, hlenW]; omega
    have htime : ∀ q ∈ r.2.merges, q.time < old.length := by
      intro q hq
      rw [hM0, List.nil_append] at hq
      have := (hlate q hq).2
      omega
    rw [List.filter_append, List.filter_eq_self.mpr fun q hq => decide_eq_true (htime q hq),
      List.filter_eq_nil_iff.mpr fun q hq => by have := hlater q hq; simp only [decide_eq_true_eq]; omega, List.append_nil]
    have hall : ∀ q ∈ r.2.merges, ∀ k ∈ q.children ++ q.parents, ρ₁ k ≠ 0 := by
      intro q hq k hk
      obtain ⟨t, f, i, h1, h2, h3, h4⟩ := h27 q (List.mem_append_left _ hq) (htime q hq)
      rw [List.getElem?_append_left (by omega)] at h2
      rw [Ne, Q.tab.msd q hq k hk, ← Q.tab.msd q hq (f i) (List.mem_append_right _ h4)]
      exact hkept t f h2 i h3
    have hhead : ∀ q ∈ r.2.merges, ρ₁ (q.children.headD 0) ≠ 0 := by
      intro q hq
      obtain ⟨t, f, i, h1, h2, h3, h4⟩ := h27 q (List.mem_append_left _ hq) (htime q hq)
      rw [Ne, ← Q.tab.msd q hq (f i) (List.mem_append_right _ h4)]
      exact hall q hq _ (List.mem_append_right _ h4)
    have hcells : ∀ k, ρ₁ k ≠ 0 → SameCellsUntil old.length (r.1 ++ R) (r.1.map (cutFrame ρ₁)) k (ρ₁ k) := by
      intro k hk t ht i
      have hg := List.getElem?_eq_getElem (show t < r.1.length by omega)
      rw [List.getElem?_append_left (by omega), List.getElem?_map, hg]
      simp only [Option.map_some, Option.some.injEq, exists_eq_left']
      exact ⟨fun e => congrArg ρ₁ e, fun e => Q.tab.cut.inj hk e⟩
    have hlist : ∀ l : List Nat, (∀ k ∈ l, ρ₁ k ≠ 0) → List.Forall₂ (SameCellsUntil old.length (r.1 ++ R) (r.1.map (cutFrame ρ₁))) l (l.map ρ₁) := by
      intro l hl
      rw [List.forall₂_map_right_iff, List.forall₂_same]
      exact fun k hk => hcells k (hl k hk)
    have e : cutRecs ρ₁ r.2.merges = r.2.merges.map fun q => { q with children := q.children.map ρ₁, parents := q.parents.map ρ₁ } := by
      unfold cutRecs
      rw [← List.filterMap_eq_map]
      refine List.filterMap_congr fun q hq => ?_
      unfold cutRec
      rw [if_neg (hhead q hq)]
      rfl
    rw [e, List.forall₂_map_right_iff, List.forall₂_same]
    exact fun q hq => ⟨rfl, rfl, hlist _ fun k hk => hall q hq k (List.mem_append_right _ hk), hlist _ fun k hk => hall q hq k (List.mem_append_left _ hk)⟩
  rw [List.length_map] at ht
  have hg := List.getElem?_eq_getElem ht
  refine ⟨r.1[t], cutFrame ρ₁ r.1[t], by rw [List.getElem?_append_left ht]; exact hg, by rw [List.getElem?_map, hg]; rfl, ?_⟩
  have keep : ∀ i, r.1[t] i ≠ 0 → ρ₁ (r.1[t] i) ≠ 0 := hkept t _ hg
  have k0 := Q.tab.cut.zero
  constructor
  · intro i
    change 0 < ρ₁ (r.1[t] i) ↔ _
    constructor
    · intro h
      by_contra hc
      rw [show r.1[t] i = 0 by omega, k0] at h
      omega
    · intro h
      exact Nat.pos_of_ne_zero (keep i (by omega))
  · intro i j hi
    change ρ₁ (r.1[t] i) = ρ₁ (r.1[t] j) ↔ _
    exact ⟨fun e => (Q.tab.cut.inj (keep i (by omega)) e.symm).symm, fun e => by rw [e]⟩

/-- **C206**: structured grids, `allow_merging = True`. Two preprocessed fields agree on their first `L` steps. An event of the first that is over by then
(no cell at step `L - 1` or later) is an event of the second too: the same cells at the same steps and none besides — whatever comes later in either record,
through all splits and merges, for every chunking into chunks of at least two steps (the first may be shorter), overlap threshold and either partition
method. Missing: chunks of one step (`C206_one_step_chunk_fails`). -/
theorem C206_over_merging_partial {ny nx : Nat} (cc : Labeller) (hcc : CorrectLabeller cc) (hord : NumbersInOrder cc) (hnx : 0 < nx) (p : GridRun ny nx)
    (hm : p.allowMerging = true) (wrap nn : Bool) (thr : ℚ) (cen : Frame (ny * nx) → Nat → ℚ × ℚ) (hcen : OfCells cen)
    (ht : p.track = gridCfg wrap nn ny nx thr cen) (pre pre' : List (Fin (ny * nx) → Bool)) (chunks chunks' : List Nat) (hch : ChunkLengths chunks pre.length)
    (hch' : ChunkLengths chunks' pre'.length) (L : Nat) (hL : L ≤ pre.length) (hsame : pre.take L = pre'.take L) (t : Nat) (i : Fin (ny * nx)) (htL : t < L)
    (hend : ∀ u j, SameEvent (trackingGrid cc p chunks pre) t i u j → u + 1 < L) (u : Nat) (j : Fin (ny * nx)) :
    SameEvent (trackingGrid cc p chunks pre) t i u j ↔ SameEvent (trackingGrid cc p chunks' pre') t i u j := by
  have hll : (pre.take L).length = L := by rw [List.length_take]; omega
  have hne : pre.take L ≠ [] := by intro e; rw [e, List.length_nil] at hll; omega
  have e1 : pre = pre.take L ++ pre.drop L := (List.take_append_drop L pre).symm
  have e2 : pre' = pre.take L ++ pre'.drop L := by rw [hsame]; exact (List.take_append_drop L pre').symm
  obtain ⟨b1, l1, -⟩ := begins_tracked cc hcc hord hnx p.regional wrap nn thr cen hcen chunks (pre.take L) (pre.drop L) hne (by rw [← e1]; exact hch)
  obtain ⟨b2, -⟩ := begins_tracked cc hcc hord hnx p.regional wrap nn thr cen hcen chunks' (pre.take L) (pre'.drop L) hne (by rw [← e2]; exact hch')
  rw [← e1] at b1
  rw [← e2] at b2
  have hu : ∀ (data : List (Fin (ny * nx) → Bool)) (ks : List Nat), TimeUnique (chunksOf ks (identifyObjectsGrid cc false p.regional nx data)).flatten := by
    intro data ks
    rw [flatten_chunksOf]
    exact (C63_grid_ids_unique cc hcc p.regional nx hnx data).1
  have huO : TimeUnique [identifyObjectsGrid cc false p.regional nx (pre.take L)].flatten := by
    simpa using (C63_grid_ids_unique cc hcc p.regional nx hnx (pre.take L)).1
  unfold trackingGrid at hend ⊢
  rw [if_pos hm, ht] at hend ⊢
  rw [if_pos hm]
  rw [hll] at l1
  refine begins_both (C22_tracked_events cc hcc wrap nn ny nx thr cen _ (hu pre chunks)).1 (C22_tracked_events cc hcc wrap nn ny nx thr cen _ (hu pre' chunks')).1
    (C22_tracked_events cc hcc wrap nn ny nx thr cen _ huO).1 b1 b2 (eventsOf_trackGrid cc hcc wrap nn ny nx thr cen _ (hu pre chunks))
    (eventsOf_trackGrid cc hcc wrap nn ny nx thr cen _ (hu pre' chunks')) (eventsOf_trackGrid cc hcc wrap nn ny nx thr cen _ huO) (by rw [l1]; exact htL)
    (by rw [l1]; exact hend) u j

/-- **C206**: structured grids, `allow_merging = True`: cells of one event stay in one event when steps are added at the end. Missing: chunks of one step
(`C206_one_step_chunk_fails`). -/
theorem C206_never_separated_merging_partial {ny nx : Nat} (cc : Labeller) (hcc : CorrectLabeller cc) (hord : NumbersInOrder cc) (hnx : 0 < nx)
    (p : GridRun ny nx) (hm : p.allowMerging = true) (wrap nn : Bool) (thr : ℚ) (cen : Frame (ny * nx) → Nat → ℚ × ℚ) (hcen : OfCells cen)
    (ht : p.track = gridCfg wrap nn ny nx thr cen) (pre more : List (Fin (ny * nx) → Bool)) (chunks chunks' : List Nat) (hch : ChunkLengths chunks pre.length)
    (hch' : ChunkLengths chunks' (pre ++ more).length) (t u : Nat) (i j : Fin (ny * nx)) (hs : SameEvent (trackingGrid cc p chunks pre) t i u j) :
    SameEvent (trackingGrid cc p chunks' (pre ++ more)) t i u j := by
  have hu : ∀ (data : List (Fin (ny * nx) → Bool)) (ks : List Nat), TimeUnique (chunksOf ks (identifyObjectsGrid cc false p.regional nx data)).flatten := by
    intro data ks
    rw [flatten_chunksOf]
    exact (C63_grid_ids_unique cc hcc p.regional nx hnx data).1
  have hne : pre ≠ [] := by
    rintro rfl
    obtain ⟨f, g, hf, -⟩ := hs
    unfold trackingGrid at hf
    rw [if_pos hm, ht] at hf
    have l1 := (C21_tracking_keeps_support cc wrap nn ny nx thr cen (chunksOf chunks (identifyObjectsGrid cc false p.regional nx [])) (hu [] chunks)).1
    rw [flatten_chunksOf, length_identify] at l1
    have := (List.getElem?_eq_some_iff.1 hf).1
    rw [l1] at this
    simp at this
  have e : trackingGrid cc p chunks pre = (trackGrid cc (gridCfg wrap nn ny nx thr cen) [identifyObjectsGrid cc false p.regional nx pre]).idField := by
    unfold trackingGrid
    rw [if_pos hm, ht]
    unfold trackGrid
    dsimp only
    rw [flatten_chunksOf, C19_chunking_irrelevant_partial _ (chunksOf chunks (identifyObjectsGrid cc false p.regional nx pre))
      [identifyObjectsGrid cc false p.regional nx pre] _ (chunksOf_two (by rw [length_identify]; exact hch))
      ⟨fun e => hne (List.length_eq_zero_iff.mp (by rw [← length_identify (cc := cc) (regional := p.regional) (nx := nx) (tc := false), e]; rfl)), by simp⟩
      (by rw [flatten_chunksOf]; simp)]
    simp
  rw [e] at hs
  obtain ⟨b1, -⟩ := begins_tracked cc hcc hord hnx p.regional wrap nn thr cen hcen chunks' pre more hne hch'
  have huO : TimeUnique [identifyObjectsGrid cc false p.regional nx pre].flatten := by
    simpa using (C63_grid_ids_unique cc hcc p.regional nx hnx pre).1
  unfold trackingGrid
  rw [if_pos hm, ht]
  exact begins_grows (C22_tracked_events cc hcc wrap nn ny nx thr cen _ huO).1 b1 (eventsOf_trackGrid cc hcc wrap nn ny nx thr cen _ (hu (pre ++ more) chunks'))
    (eventsOf_trackGrid cc hcc wrap nn ny nx thr cen _ huO) hs

/-! ### Structured grids without merging -/

theorem isExtreme_take {pre pre' : List (Fin n → Bool)} {L : Nat} (h : pre.take L = pre'.take L) {t : Nat} (ht : t < L) (i : Fin n) :
    IsExtreme pre t i ↔ IsExtreme pre' t i := by
  unfold IsExtreme
  rw [← List.getElem?_take_of_lt ht, h, List.getElem?_take_of_lt ht]

theorem sameEvent_clusters {ny nx : Nat} (cc : Labeller) (hcc : CorrectLabeller cc) (hnx : 0 < nx) (p : GridRun ny nx) (hm : p.allowMerging = false)
    (chunks : List Nat) (pre : List (Fin (ny * nx) → Bool)) (t u : Nat) (i j : Fin (ny * nx)) : SameEvent (trackingGrid cc p chunks pre) t i u j ↔
      IsExtreme pre t i ∧ IsExtreme pre u j ∧ Linked (JoinedInTime p.regional nx pre) (t, i) (u, j) := by
  have key := (C64_no_merging_events cc hcc hnx p hm chunks pre).1
  have hlen : (trackingGrid cc p chunks pre).length = pre.length := by
    unfold trackingGrid
    rw [hm]
    exact length_identify ..
  constructor
  · rintro ⟨f, g, hf, hg, h0, he⟩
    exact ((key t u f g hf hg i j).2).1 ⟨h0, he⟩
  · intro hl
    have h1 := extremeAt_lt hl.1
    have h2 := extremeAt_lt hl.2.1
    rw [← hlen] at h1 h2
    obtain ⟨h3, h4⟩ := ((key t u _ _ (List.getElem?_eq_getElem h1) (List.getElem?_eq_getElem h2) i j).2).2 hl
    exact ⟨_, _, List.getElem?_eq_getElem h1, List.getElem?_eq_getElem h2, h3, h4⟩

/-- **C206**: the same with `allow_merging = False`, for every chunking. -/
theorem C206_over_without_merging {ny nx : Nat} (cc : Labeller) (hcc : CorrectLabeller cc) (hnx : 0 < nx) (p : GridRun ny nx)
    (hm : p.allowMerging = false) (pre pre' : List (Fin (ny * nx) → Bool)) (chunks chunks' : List Nat) (L : Nat)
    (hsame : pre.take L = pre'.take L) (t : Nat) (i : Fin (ny * nx)) (htL : t < L)
    (hend : ∀ u j, SameEvent (trackingGrid cc p chunks pre) t i u j → u + 1 < L) (u : Nat) (j : Fin (ny * nx)) :
    SameEvent (trackingGrid cc p chunks pre) t i u j ↔ SameEvent (trackingGrid cc p chunks' pre') t i u j := by
  have hx := fun {v : Nat} (hv : v < L) k => isExtreme_take hsame hv k
  rw [sameEvent_clusters cc hcc hnx p hm, sameEvent_clusters cc hcc hnx p hm]
  have hend : IsExtreme pre t i → ∀ b, Linked (JoinedInTime p.regional nx pre) (t, i) b → b.1 + 1 < L := by
    intro hi b hb
    exact hend b.1 b.2 ((sameEvent_clusters cc hcc hnx p hm _ _ _ _ _ _).2 ⟨hi, by
      induction hb with
      | refl => exact hi
      | fwd _ e _ => exact e.2.2.2
      | bwd _ e _ => exact e.2.2.1, hb⟩)
  constructor
  · rintro ⟨h1, h2, hl⟩
    have := hend h1 _ hl
    refine ⟨(hx htL i).1 h1, (hx (by omega) j).1 h2, ?_⟩
    clear this h2
    have all : ∀ b, Linked (JoinedInTime p.regional nx pre) (t, i) b → Linked (JoinedInTime p.regional nx pre') (t, i) b := by
      intro b hb
      induction hb with
      | refl => exact .refl _
      | fwd h3 e ih =>
        have q1 := hend h1 _ h3
        have q2 := hend h1 _ (.fwd h3 e)
        exact .fwd ih ⟨e.1, e.2.1, (hx (by omega) _).1 e.2.2.1, (hx (by omega) _).1 e.2.2.2⟩
      | bwd h3 e ih =>
        have q1 := hend h1 _ h3
        have q2 := hend h1 _ (.bwd h3 e)
        exact .bwd ih ⟨e.1, e.2.1, (hx (by omega) _).1 e.2.2.1, (hx (by omega) _).1 e.2.2.2⟩
    exact all _ hl
  · rintro ⟨h1, h2, hl⟩
    have h1 := (hx htL i).2 h1
    have all : ∀ b, Linked (JoinedInTime p.regional nx pre') (t, i) b → Linked (JoinedInTime p.regional nx pre) (t, i) b := by
      intro b hb
      induction hb with
      | refl => exact .refl _
      | fwd h3 e ih =>
        have q1 := hend h1 _ ih
        have := e.1
        exact .fwd ih ⟨e.1, e.2.1, (hx (by omega) _).2 e.2.2.1, (hx (by omega) _).2 e.2.2.2⟩
      | bwd h3 e ih =>
        have q1 := hend h1 _ ih
        have := e.1
        exact .bwd ih ⟨e.1, e.2.1, (hx (by omega) _).2 e.2.2.1, (hx (by omega) _).2 e.2.2.2⟩
    have hl := all _ hl
    have := hend h1 _ hl
    exact ⟨h1, (hx (by omega) j).2 h2, hl⟩

/-- **C206**: with `allow_merging = False` too, cells of one event stay in one event when steps are added at the end. -/
theorem C206_never_separated_without_merging {ny nx : Nat} (cc : Labeller) (hcc : CorrectLabeller cc) (hnx : 0 < nx) (p : GridRun ny nx)
    (hm : p.allowMerging = false) (pre more : List (Fin (ny * nx) → Bool)) (chunks chunks' : List Nat) (t u : Nat) (i j : Fin (ny * nx))
    (hs : SameEvent (trackingGrid cc p chunks pre) t i u j) : SameEvent (trackingGrid cc p chunks' (pre ++ more)) t i u j := by
  have up : ∀ t i, IsExtreme pre t i → IsExtreme (pre ++ more) t i := by
    rintro t i ⟨d, hd, h⟩
    exact ⟨d, by rw [List.getElem?_append_left (List.getElem?_eq_some_iff.1 hd).1]; exact hd, h⟩
  rw [sameEvent_clusters cc hcc hnx p hm] at hs ⊢
  exact ⟨up _ _ hs.1, up _ _ hs.2.1, hs.2.2.mono fun a b e => ⟨e.1, e.2.1, up _ _ e.2.2.1, up _ _ e.2.2.2⟩⟩

/-! ### Meshes -/

theorem begins_objects (cc : Labeller) (nbr : NbrTable n) (mask : Fin n → Bool) (old rest : List (Fin n → Bool)) :
    Begins (objectFieldMesh cc nbr mask (old ++ rest)) (objectFieldMesh cc nbr mask old) ∧ (objectFieldMesh cc nbr mask old).length = old.length := by
  refine ⟨fun t ht => ?_, by unfold objectFieldMesh; rw [length_uniqueAcrossTime, List.length_map]⟩
  refine ⟨_, _, ?_, List.getElem?_eq_getElem ht, stepGroups_refl _⟩
  unfold objectFieldMesh at ht ⊢
  rw [List.map_append]
  obtain ⟨s', h⟩ := uniqueAcrossTime_append (old.map (identifyObjectsMesh cc nbr mask)) (rest.map (identifyObjectsMesh cc nbr mask)) 0
  rw [h, List.getElem?_append_left ht, List.getElem?_eq_getElem ht]

theorem eventsOf_rename (cc : Labeller) (hcc : CorrectLabeller cc) {w : Fin n → ℚ} (hw : ∀ i, 0 < w i) (thr : ℚ) (objs : List (Frame n)) (hu : TimeUnique objs) :
    ∃ ids, EventsOf w thr objs ids := by
  have ht := tableExact_calcProps ⟨w, thr, fun _ _ => (0, 0), fun _ _ _ _ _ _ _ => 0⟩ objs hu
  obtain ⟨l1, s1, z1, -⟩ := C22_events_are_linked_groups cc hcc w thr (objs.flatMap (calcProps ⟨w, thr, fun _ _ => (0, 0), fun _ _ _ _ _ _ _ => 0⟩)) objs
  have r1 : (fun a b => LinkedTo (enforceOverlap thr (objs.flatMap (calcProps ⟨w, thr, fun _ _ => (0, 0), fun _ _ _ _ _ _ _ => 0⟩))
      (findOverlaps w objs)) a b) = Follows w thr objs := by
    funext a b; exact propext (links_iff_follows hw hu ht)
  rw [r1] at s1
  exact ⟨_, eventsOf_intro l1 s1 z1⟩

/-- **C206** on meshes (partial): two preprocessed fields that agree on their first `L` steps, without merges in either. An event of the first that is over by
then is an event of the second too, on the same cells at the same steps. Missing: records with merges (`C206_mesh_merges_fails`). -/
theorem C206_over_mesh_partial (cc : Labeller) (hcc : CorrectLabeller cc) (p : MeshRun n) (hw : ∀ i, 0 < p.track.w i) (pre pre' : List (Fin n → Bool))
    (ids ids' : List (Frame n)) (hids : trackingMesh cc p pre = .ok ids) (hids' : trackingMesh cc p pre' = .ok ids')
    (hm : NoMerges p.track.w p.track.thr (objectFieldMesh cc p.nbr p.mask pre)) (hm' : NoMerges p.track.w p.track.thr (objectFieldMesh cc p.nbr p.mask pre'))
    (L : Nat) (hL : L ≤ pre.length) (hsame : pre.take L = pre'.take L) (t : Nat) (i : Fin n) (htL : t < L)
    (hend : ∀ u j, SameEvent ids t i u j → u + 1 < L) (u : Nat) (j : Fin n) : SameEvent ids t i u j ↔ SameEvent ids' t i u j := by
  have ev : ∀ {pre : List (Fin n → Bool)} {ids : List (Frame n)}, trackingMesh cc p pre = .ok ids →
      NoMerges p.track.w p.track.thr (objectFieldMesh cc p.nbr p.mask pre) → EventsOf p.track.w p.track.thr (objectFieldMesh cc p.nbr p.mask pre) ids := by
    intro pre ids h hm
    have hlen : ¬ (pre.length = 1 ∧ n ≠ 1) := by
      intro hc
      unfold trackingMesh at h
      rw [if_pos hc] at h
      cases h
    obtain ⟨ids2, h2, -, h3⟩ := runMesh_noMerges cc hcc p hw (maxIter_pos h) pre hlen hm
    rw [h] at h2
    cases h2
    exact h3
  have hll : (pre.take L).length = L := by rw [List.length_take]; omega
  have e1 : pre = pre.take L ++ pre.drop L := (List.take_append_drop L pre).symm
  have e2 : pre' = pre.take L ++ pre'.drop L := by rw [hsame]; exact (List.take_append_drop L pre').symm
  obtain ⟨b1, l1⟩ := begins_objects cc p.nbr p.mask (pre.take L) (pre.drop L)
  obtain ⟨b2, -⟩ := begins_objects cc p.nbr p.mask (pre.take L) (pre'.drop L)
  rw [← e1] at b1
  rw [← e2] at b2
  rw [hll] at l1
  obtain ⟨ids0, h0⟩ := eventsOf_rename cc hcc hw p.track.thr _ (timeUnique_objectFieldMesh cc p.nbr p.mask (pre.take L))
  exact begins_both (timeUnique_objectFieldMesh cc p.nbr p.mask pre) (timeUnique_objectFieldMesh cc p.nbr p.mask pre')
    (timeUnique_objectFieldMesh cc p.nbr p.mask (pre.take L)) b1 b2 (ev hids hm) (ev hids' hm') h0 (by rw [l1]; exact htL) (by rw [l1]; exact hend) u j

/-! ### Whole runs -/

theorem take_of_extremes {F F' : List (Fin n → Bool)} {L : Nat} (hL : L ≤ F.length) (hL' : L ≤ F'.length)
    (h : ∀ t i, t < L → (IsExtreme F t i ↔ IsExtreme F' t i)) : F.take L = F'.take L := by
  refine List.ext_getElem? fun t => ?_
  by_cases ht : t < L
  · rw [List.getElem?_take_of_lt ht, List.getElem?_take_of_lt ht, List.getElem?_eq_getElem (by omega), List.getElem?_eq_getElem (by omega)]
    congr 1
    funext i
    have := h t i ht
    unfold IsExtreme at this
    rw [List.getElem?_eq_getElem (by omega : t < F.length), List.getElem?_eq_getElem (by omega : t < F'.length)] at this
    simp only [Option.some.injEq, exists_eq_left'] at this
    exact Bool.eq_iff_iff.2 this
  · rw [List.getElem?_eq_none (by rw [List.length_take]; omega), List.getElem?_eq_none (by rw [List.length_take]; omega)]

theorem closeTimeGaps_prefix (T : Nat) (hT : T % 2 = 0) (fs fs' : List (Fin n → Bool)) (M : Nat) (hM : M ≤ fs.length) (h : fs.take M = fs'.take M) :
    (closeTimeGaps T fs).take (M - T) = (closeTimeGaps T fs').take (M - T) := by
  have hM' : M ≤ fs'.length := by
    have := congrArg List.length h
    rw [List.length_take, List.length_take] at this
    omega
  have one : ∀ (fs fs' : List (Fin n → Bool)), fs.take M = fs'.take M → ∀ t i, t < M - T →
      ExtremeAt fs t i ∨ InGap fs T t i → ExtremeAt fs' t i ∨ InGap fs' T t i := by
    intro fs fs' h t i ht
    have e : ∀ {s}, s < M → (ExtremeAt fs s i ↔ ExtremeAt fs' s i) := fun hs => isExtreme_take h hs i
    rintro (h1 | ⟨a, b, h1, h2, h3, h4, h5, h6⟩)
    · exact .inl ((e (by omega)).1 h1)
    · exact .inr ⟨a, b, h1, h2, (e (by omega)).1 h3, (e (by omega)).1 h4, fun s q1 q2 q3 => h5 s q1 q2 ((e (by omega)).2 q3), h6⟩
  obtain ⟨l1, x1⟩ := C01_time_gaps_filled_exactly T hT fs
  obtain ⟨l2, x2⟩ := C01_time_gaps_filled_exactly T hT fs'
  refine take_of_extremes (by omega) (by omega) fun t i ht => ?_
  change ExtremeAt _ t i ↔ ExtremeAt _ t i
  rw [x1, x2]
  exact ⟨one fs fs' h t i ht, one fs' fs h.symm t i ht⟩

theorem fillTimeGaps_prefix (G : Nat → (Fin n → Bool) → Fin n → Bool) (T R : Nat) (hT : T % 2 = 0) (data data' : List (Fin n → Bool)) (M : Nat)
    (hM : M ≤ data.length) (h : data.take M = data'.take M) :
    (fillTimeGaps G T R (data.map (G R))).take (M - T) = (fillTimeGaps G T R (data'.map (G R))).take (M - T) := by
  have hm : (data.map (G R)).take M = (data'.map (G R)).take M := by rw [← List.map_take, ← List.map_take, h]
  unfold fillTimeGaps
  split
  · rename_i h0
    rw [h0, Nat.sub_zero]
    exact hm
  · rw [← List.map_take, ← List.map_take, closeTimeGaps_prefix T hT _ _ M (by rw [List.length_map]; exact hM) hm]

/-- The order of the object numbers of the first steps does not depend on what comes later. -/
theorem objectAt_prefix {cc : Labeller} (hcc : CorrectLabeller cc) (hord : NumbersInOrder cc) {regional : Bool} {nx : Nat} (hnx : 0 < nx)
    (old rest : List (Fin n → Bool)) {v w : Nat × Fin n} (hv : IsExtreme old v.1 v.2) (hw : IsExtreme old w.1 w.2) :
    objectAt cc regional nx (old ++ rest) v ≤ objectAt cc regional nx (old ++ rest) w ↔
      objectAt cc regional nx (around noExtremes 0 rest.length old) v ≤ objectAt cc regional nx (around noExtremes 0 rest.length old) w := by
  have hO := prefix_ownObjects (regional := regional) (nx := nx) old rest
  have up : ∀ v : Nat × Fin n, IsExtreme old v.1 v.2 → IsExtreme (around noExtremes 0 rest.length old) v.1 v.2 := by
    rintro ⟨t, i⟩ ⟨d, hd, h⟩
    refine ⟨d, ?_, h⟩
    have := getElem?_around_mid (noExtremes : Fin n → Bool) 0 rest.length old t (List.getElem?_eq_some_iff.1 hd).1
    rw [Nat.zero_add] at this
    rw [this]
    exact hd
  constructor
  · intro h
    rcases Nat.lt_or_eq_of_le h with h | h
    · exact le_of_lt (group_order hcc hord hnx hO (up v hv) (up w hw) h)
    · exact le_of_eq (group_closed hcc hnx hO (up v hv) (hO.sub _ _ (up w hw)) h).2
  · intro h
    by_contra hc
    have := group_order hcc hord hnx hO (up w hw) (up v hv) (not_le.1 hc)
    omega

open Classical in
/-- What the absolute area filter keeps: cells of clusters of at least `a` cells but the first object. -/
theorem kept_iff_first (cc : Labeller) (hcc : CorrectLabeller cc) {nx : Nat} (hnx : 0 < nx) (regional : Bool) (a : ℚ)
    (F : List (Fin n → Bool)) (r : FilterResult n) (hr : filterGrid (.absolute a) (identifyObjectsGrid cc false regional nx F) = .ok r) (t : Nat) (i : Fin n) :
    IsExtreme r.field t i ↔ IsExtreme F t i ∧ a ≤ ((Finset.univ.filter fun j => Linked (JoinedInStep regional nx F t) i j).card : ℚ) ∧
      ¬ ((∀ s, s < t → ∀ j, ¬ IsExtreme F s j) ∧ ∀ j, IsExtreme F t j → objectAt cc regional nx F (t, i) ≤ objectAt cc regional nx F (t, j)) := by
  set labels := identifyObjectsGrid cc false regional nx F with hlab
  have hll : labels.length = F.length := by rw [hlab, length_identify]
  have hlen := (filterGrid_sub hr).1
  by_cases ht : t < F.length
  · have hu : UniqueLabels labels := by
      intro t u f f' hf hf' i j h0 he
      exact ((C63_grid_objects_are_components cc hcc regional nx hnx F t u f f' hf hf' i j).2.mp ⟨h0, he⟩).1
    have hft := List.getElem?_eq_getElem (hll.symm ▸ ht : t < labels.length)
    generalize labels[t] = f at hft
    obtain ⟨k, hk, hki⟩ := C07_keeps_exactly_large_partial labels hu _ r hr t f hft
    have cf := fun i j => C63_grid_objects_are_components cc hcc regional nx hnx F t t f f hft hft i j
    have hval : ∀ i, f i = objectAt cc regional nx F (t, i) := fun i => (identify_get hft).2 i
    have hfirst : 0 < f i → (IsFirst labels t (f i) ↔
        ((∀ s, s < t → ∀ j, ¬ IsExtreme F s j) ∧ ∀ j, IsExtreme F t j → objectAt cc regional nx F (t, i) ≤ objectAt cc regional nx F (t, j))) := by
      intro h0
      unfold IsFirst
      refine and_congr ⟨fun h s hs j hj => ?_, fun h s g hs hg j => ?_⟩ ⟨fun h j hj => ?_, fun h g hg j hj => ?_⟩
      · have hsl : s < labels.length := by rw [hll]; omega
        have := ((C63_grid_objects_are_components cc hcc regional nx hnx F s s _ _ (List.getElem?_eq_getElem hsl) (List.getElem?_eq_getElem hsl) j j).1).2 hj
        rw [h s _ hs (List.getElem?_eq_getElem hsl) j] at this
        exact absurd this (lt_irrefl 0)
      · by_contra hc
        exact h s hs j (((C63_grid_objects_are_components cc hcc regional nx hnx F s s g g hg hg j j).1).1 (Nat.pos_of_ne_zero hc))
      · rw [← hval, ← hval]
        exact h f hft j (((cf j j).1).2 hj)
      · rw [hft] at hg
        cases hg
        rw [hval i, hval j]
        exact h j (((cf j j).1).1 hj)
    have hsize : 0 < f i → size f (f i) = (Finset.univ.filter fun j => Linked (JoinedInStep regional nx F t) i j).card := by
      intro h0
      unfold size
      congr 1
      refine Finset.filter_congr fun j _ => ?_
      constructor
      · exact fun hj => ((cf i j).2.mp ⟨h0, hj.symm⟩).2.2.2
      · intro hl
        have hj := linked_last (P := IsExtreme F t) (fun x y hxy => hxy.2) ((cf i i).1.mp h0) hl
        exact ((cf i j).2.mpr ⟨rfl, (cf i i).1.mp h0, hj, hl⟩).2.symm
    have : IsExtreme r.field t i ↔ k i = true := by
      unfold IsExtreme
      rw [hk]
      simp
    rw [this, hki, absolute_threshold_grid hr, ← (cf i i).1]
    refine and_congr_right fun h0 => ?_
    rw [hsize h0, hfirst h0]
  · constructor
    · rintro ⟨d, hd, -⟩
      have := (List.getElem?_eq_some_iff.1 hd).1
      omega
    · rintro ⟨⟨d, hd, -⟩, -⟩
      have := (List.getElem?_eq_some_iff.1 hd).1
      omega

/-- Preprocessed fields of records that agree on their first `M` steps agree on the first `M - T_fill` steps. -/
theorem preprocessGrid_prefix {ny nx : Nat} (cc : Labeller) (hcc : CorrectLabeller cc) (hord : NumbersInOrder cc) (hnx : 0 < nx) (p : GridRun ny nx)
    (hT : p.T % 2 = 0) (a : ℚ) (hc : p.criterion = .absolute a) (data data' : List (Fin (ny * nx) → Bool)) (M : Nat) (hM : M ≤ data.length)
    (h : data.take M = data'.take M) (r r' : FilterResult (ny * nx)) (hr : preprocessGrid cc p data = .ok r) (hr' : preprocessGrid cc p data' = .ok r') :
    r.field.take (M - p.T) = r'.field.take (M - p.T) ∧ r.field.length = data.length ∧ r'.field.length = data'.length := by
  classical
  have hM' : M ≤ data'.length := by
    have := congrArg List.length h
    rw [List.length_take, List.length_take] at this
    omega
  unfold preprocessGrid at hr hr'
  rw [hc] at hr hr'
  have hF := fillTimeGaps_prefix (fillFrameGrid p.regional ny nx p.mask) p.T p.R hT data data' M hM h
  have l1 : (fillStagesGrid p data).length = data.length := by unfold fillStagesGrid; rw [length_fillTimeGaps, List.length_map]
  have l2 : (fillStagesGrid p data').length = data'.length := by unfold fillStagesGrid; rw [length_fillTimeGaps, List.length_map]
  change (fillStagesGrid p data).take _ = (fillStagesGrid p data').take _ at hF
  generalize fillStagesGrid p data = F at hr hF l1
  generalize fillStagesGrid p data' = F' at hr' hF l2
  have k1 := (filterGrid_sub hr).1
  have k2 := (filterGrid_sub hr').1
  rw [length_identify] at k1 k2
  refine ⟨take_of_extremes (by omega) (by omega) fun t i ht => ?_, by omega, by omega⟩
  have ex : ∀ {s}, s ≤ t → ∀ j, (IsExtreme F s j ↔ IsExtreme F' s j) := fun hs j => isExtreme_take hF (by omega) j
  rw [kept_iff_first cc hcc hnx p.regional a F r hr, kept_iff_first cc hcc hnx p.regional a F' r' hr', ex (le_refl t)]
  refine and_congr_right fun hi => ?_
  have hlink : ∀ j, Linked (JoinedInStep p.regional nx F t) i j ↔ Linked (JoinedInStep p.regional nx F' t) i j := by
    intro j
    have : JoinedInStep p.regional nx F t = JoinedInStep p.regional nx F' t := by
      funext x y
      unfold JoinedInStep
      rw [ex (le_refl t), ex (le_refl t)]
    rw [this]
  simp only [hlink]
  refine and_congr_right fun _ => not_congr (and_congr ?_ ?_)
  · exact ⟨fun q s hs j hj => q s hs j ((ex (by omega) j).2 hj), fun q s hs j hj => q s hs j ((ex (by omega) j).1 hj)⟩
  · have e1 : F = F.take (M - p.T) ++ F.drop (M - p.T) := (List.take_append_drop _ F).symm
    have e2 : F' = F.take (M - p.T) ++ F'.drop (M - p.T) := by rw [hF]; exact (List.take_append_drop _ F').symm
    have old : ∀ j, IsExtreme F t j → IsExtreme (F.take (M - p.T)) t j := by
      rintro j ⟨d, hd, hj⟩
      exact ⟨d, by rw [List.getElem?_take_of_lt ht]; exact hd, hj⟩
    have hi' := old i ((ex (le_refl t) i).2 hi)
    have ord : ∀ rest j, IsExtreme F t j → (objectAt cc p.regional nx (F.take (M - p.T) ++ rest) (t, i) ≤ objectAt cc p.regional nx (F.take (M - p.T) ++ rest) (t, j) ↔
        objectAt cc p.regional nx (F.take (M - p.T)) (t, i) ≤ objectAt cc p.regional nx (F.take (M - p.T)) (t, j)) := by
      intro rest j hj
      rw [objectAt_prefix hcc hord hnx (F.take (M - p.T)) rest (v := (t, i)) (w := (t, j)) hi' (old j hj)]
      have := objectAt_prefix hcc hord (regional := p.regional) hnx (F.take (M - p.T)) [] (v := (t, i)) (w := (t, j)) hi' (old j hj)
      have ea : ∀ b, ∀ j, objectAt cc p.regional nx (around noExtremes 0 b (F.take (M - p.T))) (t, j) = objectAt cc p.regional nx (F.take (M - p.T)) (t, j) := by
        intro b j
        have hlt : t < (F.take (M - p.T)).length := by rw [List.length_take]; omega
        have e := identifyObjectsGrid_around cc false p.regional nx 0 b (F.take (M - p.T))
        have g := congrArg (fun l => l[t]?) e
        have hmid := getElem?_around_mid (noEvents : Fin (ny * nx) → Nat) 0 b (identifyObjectsGrid cc false p.regional nx (F.take (M - p.T))) t
          (by rw [length_identify]; exact hlt)
        rw [Nat.zero_add] at hmid
        rw [hmid, identify_eq, identify_eq, List.getElem?_map, List.getElem?_map, List.getElem?_range (by rw [length_around]; omega), List.getElem?_range hlt,
          Option.map_some, Option.map_some, Option.some.injEq] at g
        exact congrFun g j
      rw [ea, ea]
    constructor
    · intro q j hj
      have hj := (ex (le_refl t) j).2 hj
      rw [e2, ord _ j hj]
      have := q j hj
      rw [e1, ord _ j hj] at this
      exact this
    · intro q j hj
      have := q j ((ex (le_refl t) j).1 hj)
      rw [e2, ord _ j hj] at this
      rw [e1, ord _ j hj]
      exact this

theorem runGrid_ok {ny nx : Nat} {cc : Labeller} {p : GridRun ny nx} {chunks : List Nat} {data pre : List (Fin (ny * nx) → Bool)} {ids : List (Frame (ny * nx))}
    (h : runGrid cc p chunks data = .ok (pre, ids)) : ∃ r, preprocessGrid cc p data = .ok r ∧ r.field = pre ∧ ids = trackingGrid cc p chunks pre := by
  unfold runGrid at h
  split at h
  · cases h
  · rename_i r hr
    simp only [Except.ok.injEq, Prod.mk.injEq] at h
    obtain ⟨rfl, rfl⟩ := h
    exact ⟨r, hr, rfl, rfl⟩

/-- **C206** for whole runs, structured grids, `allow_merging = True`, absolute area criterion, even `T_fill`: two records that agree on their first `M` steps.
An event of the first run whose last step is more than `T_fill + 1` steps before step `M` is an event of the second run too, on the same cells at the same
steps, whatever follows. Missing: chunks of one step (`C206_one_step_chunk_fails`), and the quartile criterion (`C206_quartile_fails`). -/
theorem C206_run_merging_partial {ny nx : Nat} (cc : Labeller) (hcc : CorrectLabeller cc) (hord : NumbersInOrder cc) (hnx : 0 < nx) (p : GridRun ny nx)
    (hm : p.allowMerging = true) (hT : p.T % 2 = 0) (a : ℚ) (hc : p.criterion = .absolute a) (wrap nn : Bool) (thr : ℚ) (cen : Frame (ny * nx) → Nat → ℚ × ℚ)
    (hcen : OfCells cen) (ht : p.track = gridCfg wrap nn ny nx thr cen) (data data' : List (Fin (ny * nx) → Bool)) (chunks chunks' : List Nat)
    (hch : ChunkLengths chunks data.length) (hch' : ChunkLengths chunks' data'.length) (M : Nat) (hM : M ≤ data.length) (hsame : data.take M = data'.take M)
    (pre pre' : List (Fin (ny * nx) → Bool)) (ids ids' : List (Frame (ny * nx))) (hr : runGrid cc p chunks data = .ok (pre, ids))
    (hr' : runGrid cc p chunks' data' = .ok (pre', ids')) (t : Nat) (i : Fin (ny * nx)) (htM : t + p.T < M)
    (hend : ∀ u j, SameEvent ids t i u j → u + 1 + p.T < M) (u : Nat) (j : Fin (ny * nx)) : SameEvent ids t i u j ↔ SameEvent ids' t i u j := by
  obtain ⟨r, q1, rfl, rfl⟩ := runGrid_ok hr
  obtain ⟨r', q1', rfl, rfl⟩ := runGrid_ok hr'
  obtain ⟨k1, k2, k3⟩ := preprocessGrid_prefix cc hcc hord hnx p hT a hc data data' M hM hsame r r' q1 q1'
  exact C206_over_merging_partial cc hcc hord hnx p hm wrap nn thr cen hcen ht r.field r'.field chunks chunks' (by rw [k2]; exact hch) (by rw [k3]; exact hch')
    (M - p.T) (by omega) k1 t i (by omega) (fun u j h => by have := hend u j h; omega) u j

/-- **C206** for whole runs, structured grids, `allow_merging = False`, absolute area criterion, even `T_fill`, every chunking. Missing: the quartile criterion
(`C206_quartile_fails`). -/
theorem C206_run_without_merging_partial {ny nx : Nat} (cc : Labeller) (hcc : CorrectLabeller cc) (hord : NumbersInOrder cc) (hnx : 0 < nx) (p : GridRun ny nx)
    (hm : p.allowMerging = false) (hT : p.T % 2 = 0) (a : ℚ) (hc : p.criterion = .absolute a) (data data' : List (Fin (ny * nx) → Bool))
    (chunks chunks' : List Nat) (M : Nat) (hM : M ≤ data.length) (hsame : data.take M = data'.take M)
    (pre pre' : List (Fin (ny * nx) → Bool)) (ids ids' : List (Frame (ny * nx))) (hr : runGrid cc p chunks data = .ok (pre, ids))
    (hr' : runGrid cc p chunks' data' = .ok (pre', ids')) (t : Nat) (i : Fin (ny * nx)) (htM : t + p.T < M)
    (hend : ∀ u j, SameEvent ids t i u j → u + 1 + p.T < M) (u : Nat) (j : Fin (ny * nx)) : SameEvent ids t i u j ↔ SameEvent ids' t i u j := by
  obtain ⟨r, q1, rfl, rfl⟩ := runGrid_ok hr
  obtain ⟨r', q1', rfl, rfl⟩ := runGrid_ok hr'
  obtain ⟨k1, k2, k3⟩ := preprocessGrid_prefix cc hcc hord hnx p hT a hc data data' M hM hsame r r' q1 q1'
  exact C206_over_without_merging cc hcc hnx p hm r.field r'.field chunks chunks'
    (M - p.T) k1 t i (by omega) (fun u j h => by have := hend u j h; omega) u j

theorem preprocessMesh_prefix (cc : Labeller) (hcc : CorrectLabeller cc) (p : MeshRun n) (hT : p.T % 2 = 0) (a : ℚ) (hc : p.criterion = .absolute a)
    (data data' : List (Fin n → Bool)) (M : Nat) (hM : M ≤ data.length) (h : data.take M = data'.take M) (r r' : FilterResult n)
    (hr : preprocessMesh cc p data = .ok r) (hr' : preprocessMesh cc p data' = .ok r') :
    r.field.take (M - p.T) = r'.field.take (M - p.T) ∧ r.field.length = data.length ∧ r'.field.length = data'.length := by
  classical
  have hM' : M ≤ data'.length := by
    have := congrArg List.length h
    rw [List.length_take, List.length_take] at this
    omega
  have hF := fillTimeGaps_prefix (fillHolesMesh (dilationRow p.nbr) p.mask) p.T p.R hT data data' M hM h
  change (filledMesh p data).take _ = (filledMesh p data').take _ at hF
  have len : ∀ {data : List (Fin n → Bool)} {r : FilterResult n}, preprocessMesh cc p data = .ok r → r.field.length = data.length := by
    intro data r hr
    unfold preprocessMesh at hr
    have := (filterMesh_sub hr).1
    rw [List.length_map, length_fillTimeGaps, List.length_map] at this
    exact this
  have k1 := len hr
  have k2 := len hr'
  refine ⟨take_of_extremes (by omega) (by omega) fun t i ht => ?_, k1, k2⟩
  rw [kept_iff_mesh cc hcc p a hc data r hr, kept_iff_mesh cc hcc p a hc data' r' hr']
  have ex : ∀ j, (IsExtreme (filledMesh p data) t j ↔ IsExtreme (filledMesh p data') t j) := fun j => isExtreme_take hF ht j
  have hlink : MeshJoined p.nbr p.mask (filledMesh p data) t = MeshJoined p.nbr p.mask (filledMesh p data') t := by
    funext x y
    unfold MeshJoined
    simp only [ex]
  rw [ex, hlink]

/-- **C206** for whole runs on meshes (partial): absolute area criterion, even `T_fill`, no merges in either run. Missing: runs with merges
(`C206_mesh_merges_fails`) and the quartile criterion (`C206_quartile_fails`). -/
theorem C206_run_mesh_partial (cc : Labeller) (hcc : CorrectLabeller cc) (p : MeshRun n) (hw : ∀ i, 0 < p.track.w i) (hT : p.T % 2 = 0) (a : ℚ)
    (hc : p.criterion = .absolute a) (data data' pre pre' : List (Fin n → Bool)) (ids ids' : List (Frame n)) (hr : runMesh cc p data = .ok (pre, ids))
    (hr' : runMesh cc p data' = .ok (pre', ids')) (hm : NoMerges p.track.w p.track.thr (objectFieldMesh cc p.nbr p.mask pre))
    (hm' : NoMerges p.track.w p.track.thr (objectFieldMesh cc p.nbr p.mask pre')) (M : Nat) (hM : M ≤ data.length) (hsame : data.take M = data'.take M)
    (t : Nat) (i : Fin n) (htM : t + p.T < M) (hend : ∀ u j, SameEvent ids t i u j → u + 1 + p.T < M) (u : Nat) (j : Fin n) :
    SameEvent ids t i u j ↔ SameEvent ids' t i u j := by
  have ok : ∀ {data pre : List (Fin n → Bool)} {ids : List (Frame n)}, runMesh cc p data = .ok (pre, ids) →
      ∃ r, preprocessMesh cc p data = .ok r ∧ r.field = pre ∧ trackingMesh cc p pre = .ok ids := by
    intro data pre ids h
    unfold runMesh at h
    split at h
    · cases h
    · rename_i r hr
      split at h
      · cases h
      · rename_i ids2 h2
        simp only [Except.ok.injEq, Prod.mk.injEq] at h
        obtain ⟨rfl, rfl⟩ := h
        exact ⟨r, hr, rfl, h2⟩
  obtain ⟨r, q1, rfl, t1⟩ := ok hr
  obtain ⟨r', q1', rfl, t1'⟩ := ok hr'
  obtain ⟨k1, k2, k3⟩ := preprocessMesh_prefix cc hcc p hT a hc data data' M hM hsame r r' q1 q1'
  exact C206_over_mesh_partial cc hcc p hw r.field r'.field ids ids' t1 t1' hm hm' (M - p.T) (by omega) k1 t i (by omega)
    (fun u j h => by have := hend u j h; omega) u j

/-! ### Witnesses -/

/-- Cells 0–3, then 0–1 and 3, then 3–5, then nothing. -/
def shedRow : List (Fin (1 * 6) → Bool) := [cellsFrom 0 3, fun i => decide (i.val ≤ 1 ∨ i.val = 3), cellsFrom 3 5, noExtremes]

/-- **C206** negative: with chunks of one step the events of a record already over depend on the chunks: cells 0–1 and 3 of step 1, which follow one object of
step 0, are one object for the next step when step 1 shares its chunk with step 0, and the object of step 2 does not follow it; alone, cell 3 is followed. -/
theorem C206_one_step_chunk_fails :
    (∀ u j, SameEvent (trackingGrid quickFind (rowRun 6 true (1 / 2)) [4] shedRow) 0 0 u j → u + 1 < 4) ∧
    SameEvent (trackingGrid quickFind (rowRun 6 true (1 / 2)) [1, 1, 1, 1] shedRow) 0 0 2 5 ∧
    ¬ SameEvent (trackingGrid quickFind (rowRun 6 true (1 / 2)) [4] shedRow) 0 0 2 5 := by
  have h1 : (match trackingGrid quickFind (rowRun 6 true (1 / 2)) [4] shedRow with
    | [a, _, c, d] => decide (c 5 ≠ a 0 ∧ ∀ j, d j ≠ a 0) | _ => false) = true := by decide +kernel
  have h2 : (match trackingGrid quickFind (rowRun 6 true (1 / 2)) [1, 1, 1, 1] shedRow with
    | [a, _, c, _] => decide (0 < a 0 ∧ a 0 = c 5) | _ => false) = true := by decide +kernel
  split at h1
  · rename_i a b c d e1
    split at h2
    · rename_i a' b' c' d' e2
      rw [e1, e2]
      have k := of_decide_eq_true h1
      have k' := of_decide_eq_true h2
      refine ⟨?_, ⟨a', c', rfl, rfl, k'.1, k'.2⟩, ?_⟩
      · rintro u j ⟨x, y, hx, hy, -, he⟩
        cases hx
        match u with
        | 0 | 1 | 2 => omega
        | 3 => cases hy; exact absurd he.symm (k.2 j)
        | u + 4 => cases hy
      · rintro ⟨x, y, hx, hy, -, he⟩
        cases hx
        cases hy
        exact k.1 he.symm
    · cases h2
  · cases h1

/-- **C206** negative, on meshes with merges: eight objects have merged and are gone after step 1; when two more merge at step 4, one of them gets the ID of a
past event, which from then on has cells at step 3 as well. -/
theorem C206_mesh_merges_fails : gapWhole.take 3 = (gapWhole.take 3 ++ [noExtremes, noExtremes, noExtremes]).take 3 ∧
    ∃ ids ids', trackingMesh quickFind gapRun (gapWhole.take 3 ++ [noExtremes, noExtremes, noExtremes]) = .ok ids ∧ trackingMesh quickFind gapRun gapWhole = .ok ids' ∧
      (∀ u j, SameEvent ids 0 14 u j → u + 1 < 3) ∧ SameEvent ids 0 14 0 14 ∧ SameEvent ids' 0 14 3 2 := by
  refine ⟨rfl, ?_⟩
  have h1 : (match trackingMesh quickFind gapRun (gapWhole.take 3 ++ [noExtremes, noExtremes, noExtremes]) with
    | .ok [f, _, c, d, e, g] => decide (0 < f 14 ∧ ∀ j, c j ≠ f 14 ∧ d j ≠ f 14 ∧ e j ≠ f 14 ∧ g j ≠ f 14) | _ => false) = true := by decide +kernel
  have h2 : (match trackingMesh quickFind gapRun gapWhole with
    | .ok (f :: _ :: _ :: g :: _) => decide (0 < f 14 ∧ f 14 = g 2) | _ => false) = true := by decide +kernel
  split at h1
  · rename_i f b c d e g hr
    split at h2
    · rename_i f' _ _ g' _ hr'
      have k := of_decide_eq_true h1
      have k' := of_decide_eq_true h2
      refine ⟨_, _, hr, hr', ?_, ⟨f, f, rfl, rfl, k.1, rfl⟩, ⟨f', g', rfl, rfl, k'.1, k'.2⟩⟩
      rintro u j ⟨x, y, hx, hy, -, he⟩
      cases hx
      obtain ⟨n2, n3, n4, n5⟩ := k.2 j
      match u with
      | 0 | 1 => omega
      | 2 => cases hy; exact absurd he.symm n2
      | 3 => cases hy; exact absurd he.symm n3
      | 4 => cases hy; exact absurd he.symm n4
      | 5 => cases hy; exact absurd he.symm n5
      | u + 6 => cases hy
    · cases h2
  · cases h1

/-- Two extreme cells three columns away at three more steps. -/
def laterCells : List (Fin (1 * 5) → Bool) := [fun i => decide (3 ≤ i.val), fun i => decide (3 ≤ i.val), fun i => decide (3 ≤ i.val)]

/-- **C206** negative: with the default `area_filter_quartile = 0.5`, three steps added at the end of a record take an event away that had been over for two
steps. -/
theorem C206_quartile_fails : ∃ pre ids pre' ids' f',
    runGrid quickFind (cellsRun (.quartile (1 / 2))) [6] loneCell = .ok (pre, ids) ∧
    runGrid quickFind (cellsRun (.quartile (1 / 2))) [9] (loneCell ++ laterCells) = .ok (pre', ids') ∧
    SameEvent ids 3 0 3 0 ∧ (∀ u j, SameEvent ids 3 0 u j → u = 3) ∧ ids'[3]? = some f' ∧ f' 0 = 0 := by
  have e1 : runGrid quickFind (cellsRun (.quartile (1 / 2))) [6] loneCell = runGrid quickFind (cellsRun (.absolute 1)) [6] loneCell :=
    runGrid_quartile _ _ _ _ [1, 1, 1] (by decide +kernel) (by
      unfold percentile
      rw [List.mergeSort_of_pairwise (by decide +kernel)]
      decide +kernel)
  have e2 : runGrid quickFind (cellsRun (.quartile (1 / 2))) [9] (loneCell ++ laterCells) =
      runGrid quickFind (cellsRun (.absolute (3 / 2))) [9] (loneCell ++ laterCells) :=
    runGrid_quartile _ _ _ _ [1, 1, 1, 2, 2, 2] (by decide +kernel) (by
      unfold percentile
      rw [List.mergeSort_of_pairwise (by decide +kernel)]
      decide +kernel)
  have h1 : (match runGrid quickFind (cellsRun (.absolute 1)) [6] loneCell with
    | .ok (_, [a, b, c, g, d, e]) => decide (0 < g 0 ∧ ∀ j, a j ≠ g 0 ∧ b j ≠ g 0 ∧ c j ≠ g 0 ∧ d j ≠ g 0 ∧ e j ≠ g 0) | _ => false) = true := by decide +kernel
  have h2 : (match runGrid quickFind (cellsRun (.absolute (3 / 2))) [9] (loneCell ++ laterCells) with
    | .ok (_, _ :: _ :: _ :: g :: _) => decide (g 0 = 0) | _ => false) = true := by decide +kernel
  rw [e1, e2]
  split at h1
  · rename_i pre a b c g d e hr
    split at h2
    · rename_i pre' a' b' c' g' l' hr'
      have k := of_decide_eq_true h1
      refine ⟨_, _, _, _, g', hr, hr', ⟨g, g, rfl, rfl, k.1, rfl⟩, ?_, rfl, of_decide_eq_true h2⟩
      rintro u j ⟨x, y, hx, hy, -, he⟩
      cases hx
      obtain ⟨n0, n1, n2, n4, n5⟩ := k.2 j
      match u with
      | 0 => cases hy; exact absurd he.symm n0
      | 1 => cases hy; exact absurd he.symm n1
      | 2 => cases hy; exact absurd he.symm n2
      | 3 => rfl
      | 4 => cases hy; exact absurd he.symm n4
      | 5 => cases hy; exact absurd he.symm n5
      | u + 6 => cases hy
    · cases h2
  · cases h1

/-- A step to be dropped, then cells 0 and 2 that merge, cell 2 that stays, and nothing. -/
def pastMerge : List (Fin (1 * 3) → Bool) := [cellsFrom 1 1, noExtremes, fun i => i.val != 1, fun _ => true, cellsFrom 2 2, noExtremes]

-- non-vacuity of the theorems with merging: the event of cell 2 is over at step 4; the second record goes on with three more steps and other chunks
example : OfCells (rowCen 3) ∧ ChunkLengths [2, 4] pastMerge.length ∧ ChunkLengths [1, 2, 3, 3] (pastMerge ++ [cellsFrom 0 2, cellsFrom 0 0, cellsFrom 2 2]).length ∧
    (match runGrid quickFind (rowRun 3 true (1 / 3)) [2, 4] pastMerge with
      | .ok (_, [_, _, a, b, c, d]) => decide (a 0 ≠ a 2 ∧ b 0 = a 0 ∧ b 2 = a 2 ∧ c 2 = a 2 ∧ 0 < c 2 ∧ ∀ j, d j = 0) | _ => false) = true ∧
    (match runGrid quickFind (rowRun 3 true (1 / 3)) [1, 2, 3, 3] (pastMerge ++ [cellsFrom 0 2, cellsFrom 0 0, cellsFrom 2 2]) with
      | .ok (_, [_, _, a, b, c, d, e, _, _]) => decide (a 0 ≠ a 2 ∧ b 0 = a 0 ∧ b 2 = a 2 ∧ c 2 = a 2 ∧ 0 < c 2 ∧ (∀ j, d j = 0) ∧ 0 < e 0) | _ => false) = true := by
  refine ⟨rowCen_ofCells 3, ?_, ?_, by decide +kernel, by decide +kernel⟩
  · refine ⟨rfl, by decide, by decide⟩
  · refine ⟨rfl, by decide, by decide⟩

-- non-vacuity without merging: the lone cell of step 3 is an event of its own in both records
example : (match runGrid quickFind (cellsRun (.absolute 1)) [6] loneCell with
      | .ok (_, [_, b, _, g, d, e]) => decide (0 < b 0 ∧ 0 < g 0 ∧ g 0 ≠ b 0 ∧ ∀ j, d j = 0 ∧ e j = 0) | _ => false) = true ∧
    (match runGrid quickFind (cellsRun (.absolute 1)) [9] (loneCell ++ laterCells) with
      | .ok (_, _ :: b :: _ :: g :: _) => decide (0 < b 0 ∧ 0 < g 0 ∧ g 0 ≠ b 0) | _ => false) = true := by
  constructor <;> decide +kernel

-- non-vacuity on meshes: two records without merges that share three steps; the event of cell 0 is over at step 1, and the second record has a later one there
example : ∃ pre ids pre' ids', runMesh quickFind (lineRun true) (nearLine ++ [noExtremes]) = .ok (pre, ids) ∧
    runMesh quickFind (lineRun true) (nearLine ++ [noExtremes, fun i => decide (i.val ≤ 7)]) = .ok (pre', ids') ∧
    NoMerges (lineRun true).track.w (lineRun true).track.thr (objectFieldMesh quickFind (lineRun true).nbr (lineRun true).mask pre) ∧
    NoMerges (lineRun true).track.w (lineRun true).track.thr (objectFieldMesh quickFind (lineRun true).nbr (lineRun true).mask pre') ∧
    ids.map (fun g => (List.finRange 14).map g) =
      [[1, 1, 1, 1, 1, 1, 0, 0, 0, 2, 2, 0, 0, 0], [0, 1, 1, 0, 0, 0, 0, 0, 0, 0, 0, 0, 0, 0], [0, 0, 0, 0, 0, 0, 0, 0, 0, 0, 0, 0, 0, 0]] ∧
    ids'.map (fun g => (List.finRange 14).map g) =
      [[1, 1, 1, 1, 1, 1, 0, 0, 0, 2, 2, 0, 0, 0], [0, 1, 1, 0, 0, 0, 0, 0, 0, 0, 0, 0, 0, 0], [0, 0, 0, 0, 0, 0, 0, 0, 0, 0, 0, 0, 0, 0],
       [3, 3, 3, 3, 3, 3, 3, 3, 0, 0, 0, 0, 0, 0]] := by
  obtain ⟨pre, ids, hr, hm, hi⟩ := line_noMerges (nearLine ++ [noExtremes])
    [[1, 1, 1, 1, 1, 1, 0, 0, 0, 2, 2, 0, 0, 0], [0, 1, 1, 0, 0, 0, 0, 0, 0, 0, 0, 0, 0, 0], [0, 0, 0, 0, 0, 0, 0, 0, 0, 0, 0, 0, 0, 0]] (by decide +kernel)
  obtain ⟨pre', ids', hr', hm', hi'⟩ := line_noMerges (nearLine ++ [noExtremes, fun i => decide (i.val ≤ 7)])
    [[1, 1, 1, 1, 1, 1, 0, 0, 0, 2, 2, 0, 0, 0], [0, 1, 1, 0, 0, 0, 0, 0, 0, 0, 0, 0, 0, 0], [0, 0, 0, 0, 0, 0, 0, 0, 0, 0, 0, 0, 0, 0],
     [3, 3, 3, 3, 3, 3, 3, 3, 0, 0, 0, 0, 0, 0]] (by decide +kernel)
  exact ⟨pre, ids, pre', ids', hr, hr', hm, hm', hi, hi'⟩

end MarEx.Props
