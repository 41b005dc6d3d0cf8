import Verif.Lemmas.CutChunks
import Verif.Lemmas.Rename
import Verif.Props.SplitMerge
import Verif.Props.Separate
/-! Tracking a record and tracking it with some objects left out. -/
namespace MarEx
open Spec

variable {n : Nat}

/-- The partition methods on grids only look at the cells, areas and centroids of the parents. -/
theorem faithful_gridCfg (wrap nn : Bool) (ny nx : Nat) (thr : ℚ) {cen : Frame n → Nat → ℚ × ℚ}
    (hcen : ∀ (f g : Frame n) (k l : Nat), (∀ i, f i = k ↔ g i = l) → cen f k = cen g l) : Faithful (Props.gridCfg wrap nn ny nx thr cen) where
  ok := Props.partitionOK_gridCfg wrap nn ny nx thr cen
  cen := hcen
  part := by
    intro ρ N N' hρ prev cur cur' child child' parents childIds props i hp
    have hget : ∀ k, (childIds.map ρ).getD k 0 = ρ (childIds.getD k 0) := by
      intro k
      rw [List.getD_eq_getElem?_getD, List.getD_eq_getElem?_getD, List.getElem?_map]
      cases childIds[k]? with
      | none => simp [hρ.zero]
      | some x => rfl
    unfold Props.gridCfg
    cases nn
    · simp only [Bool.false_eq_true, if_false]
      unfold centroidPart
      rw [hget, List.map_map]
      congr 3
      exact List.map_congr_left fun p h => by simp only [Function.comp_apply, cenOf_cut hρ props (hp p h)]
    · simp only [if_true]
      unfold nnPart
      dsimp only
      rw [hget, List.map_map, List.map_map, List.map_map]
      have e1 : parents.map ((fun p => (areaOf (cutProps ρ props) p).getD 0) ∘ ρ) = parents.map fun p => (areaOf props p).getD 0 :=
        List.map_congr_left fun p h => by simp only [Function.comp_apply, areaOf_cut hρ props (hp p h)]
      have e2 : parents.map (cellsWith (cutFrame ρ prev) ∘ ρ) = parents.map (cellsWith prev) :=
        List.map_congr_left fun p h => by simp only [Function.comp_apply, cellsWith_cut hρ prev (hp p h)]
      have e3 : parents.map (cenOf (cutProps ρ props) ∘ ρ) = parents.map (cenOf props) :=
        List.map_congr_left fun p h => by simp only [Function.comp_apply, cenOf_cut hρ props (hp p h)]
      rw [e1, e2, e3]

/-- Tracking with objects left out: the frames of the result, cell by cell, and the merge records. -/
structure CutTracked (ρ : Nat → Nat) (fs : List (Frame n)) (r r' : Events n) : Prop where
  length : r.idField.length = fs.length
  length' : r'.idField.length = fs.length
  pos : ∀ (t : Nat) (f g : Frame n), fs[t]? = some f → r.idField[t]? = some g → ∀ i, 0 < g i ↔ 0 < f i
  pos' : ∀ (t : Nat) (f g : Frame n), fs[t]? = some f → r'.idField[t]? = some g → ∀ i, 0 < g i ↔ ρ (f i) ≠ 0
  same : ∀ (t u : Nat) (i j : Fin n) (f g : Frame n), fs[t]? = some f → fs[u]? = some g → ρ (f i) ≠ 0 → ρ (g j) ≠ 0 →
    (SameEvent r'.idField t i u j ↔ SameEvent r.idField t i u j)
  apart : ∀ (t u : Nat) (i j : Fin n) (f g : Frame n), fs[t]? = some f → fs[u]? = some g → ρ (f i) ≠ 0 → SameEvent r.idField t i u j → ρ (g j) ≠ 0
  recs : ∃ ρ₁ : Nat → Nat, r'.objects.merges = cutRecs ρ₁ r.objects.merges ∧ r'.objects.field = r.objects.field.map (cutFrame ρ₁) ∧
    r.objects.field.length = fs.length ∧ (∀ a b, ρ₁ a ≠ 0 → ρ₁ b = ρ₁ a → b = a) ∧
    (∀ q ∈ r.objects.merges, ∀ k ∈ q.children ++ q.parents, ρ₁ k = 0 ↔ ρ₁ (q.children.headD 0) = 0) ∧
    ∀ (t : Nat) (f h : Frame n), fs[t]? = some f → r.objects.field[t]? = some h → ∀ i, ρ₁ (h i) ≠ 0 ↔ ρ (f i) ≠ 0

/-- The records that remain are those whose first child remains. -/
theorem cutRecs_eq (ρ : Nat → Nat) (l : List MergeRec) :
    cutRecs ρ l = (l.filter fun q => decide (ρ (q.children.headD 0) ≠ 0)).map
      fun q => { q with children := q.children.map ρ, parents := q.parents.map ρ } := by
  induction l with
  | nil => rfl
  | cons a l ih =>
    unfold cutRecs at ih ⊢
    by_cases h : ρ (a.children.headD 0) = 0
    · rw [List.filterMap_cons_none (by unfold cutRec; rw [if_pos h]), List.filter_cons_of_neg (by simpa using h), ih]
    · rw [List.filterMap_cons_some (by unfold cutRec; rw [if_neg h]), List.filter_cons_of_pos (by simpa using h), List.map_cons, ih]

theorem trackGrid_cut {cc cc' : Labeller} (hcc : CorrectLabeller cc) (hcc' : CorrectLabeller cc') {c : TrackCfg n} (hc : Faithful c) {ρ : Nat → Nat}
    (chunks : List (List (Frame n))) (h0 : ρ 0 = 0) (hmono : ∀ a b, ρ a ≠ 0 → ρ b ≠ 0 → a < b → ρ a < ρ b)
    (hin : ∀ k, ρ k ≠ 0 → ∃ f ∈ chunks.flatten, ∃ i, f i = k)
    (hap : List.IsChain Apart (chunks.flatten.map (side ρ))) :
    CutTracked ρ chunks.flatten (trackGrid cc c chunks) (trackGrid cc' c (chunks.map (List.map (cutFrame ρ)))) := by
  set props := chunks.flatten.flatMap (calcProps c) with hprops
  have hmem : ∀ f ∈ chunks.flatten, ∀ i, 0 < f i → ∃ o ∈ props, o.id = f i := by
    intro f hf i hi
    refine ⟨objOf c f (f i), List.mem_flatMap.mpr ⟨f, hf, List.mem_map.mpr ⟨f i, mem_idsOf'.mpr ⟨hi, i, rfl⟩, rfl⟩⟩, rfl⟩
  have hprop : ∀ k, ρ k ≠ 0 → ∃ o ∈ props, o.id = k := by
    intro k hk
    obtain ⟨f, hf, i, rfl⟩ := hin k hk
    exact hmem f hf i (Nat.pos_of_ne_zero fun e => hk (by rw [e]; exact h0))
  have hcut : Cut ρ (firstNewId props) (firstNewId (cutProps ρ props)) := by
    refine ⟨h0, hmono, fun k hk => ?_, fun k => ?_⟩
    · by_contra h
      obtain ⟨o, ho, rfl⟩ := hprop k h
      have := firstNewId_gt props o ho
      omega
    · by_cases h : ρ k = 0
      · rw [h]; unfold firstNewId; omega
      · obtain ⟨o, ho, rfl⟩ := hprop k h
        refine firstNewId_gt (cutProps ρ props) { o with id := ρ o.id } (List.mem_filterMap.mpr ⟨o, ho, ?_⟩)
        unfold cutObj
        rw [if_neg h]
  have hprops' : (chunks.map (List.map (cutFrame ρ))).flatten.flatMap (calcProps c) = cutProps ρ props := by
    rw [hprops, ← List.map_flatten, List.flatMap_map]
    unfold cutProps
    rw [List.filterMap_flatMap]
    refine List.flatMap_congr fun f _ => ?_
    exact calcProps_cut hcut hc f
  have hlt : ∀ f ∈ chunks.flatten, ∀ i, f i < firstNewId props := by
    intro f hf i
    rcases Nat.eq_zero_or_pos (f i) with e | e
    · rw [e]; unfold firstNewId; omega
    · obtain ⟨o, ho, e⟩ := hmem f hf i e
      rw [← e]
      exact firstNewId_gt props o ho
  have htab : Tab ρ ⟨props, firstNewId props, []⟩ ⟨cutProps ρ props, firstNewId (cutProps ρ props), []⟩ :=
    ⟨hcut, by dsimp only; unfold firstNewId; omega, rfl, rfl, firstNewId_gt props, fun r hr => (by cases hr), fun r hr => (by cases hr)⟩
  obtain ⟨ρ₁, L⟩ := chunksLoop_cut hc chunks ρ 0 [] _ _ htab (by simpa using hlt) (by simpa using hap)
  set R := chunksLoop c 0 [] chunks ⟨props, firstNewId props, []⟩ with hR
  rw [List.map_nil] at L
  set R' := chunksLoop c 0 [] (chunks.map (List.map (cutFrame ρ))) ⟨cutProps ρ props, firstNewId (cutProps ρ props), []⟩ with hR'
  have hT : trackGrid cc c chunks = ⟨renameField cc R.1 (linkPairs c R.2.props R.1), ⟨R.1, R.2.props, enforceOverlap c.thr R.2.props (findOverlaps c.w R.1), R.2.merges⟩,
      numEvents cc R.1 (linkPairs c R.2.props R.1)⟩ := rfl
  have hT' : trackGrid cc' c (chunks.map (List.map (cutFrame ρ))) =
      ⟨renameField cc' R'.1 (linkPairs c R'.2.props R'.1), ⟨R'.1, R'.2.props, enforceOverlap c.thr R'.2.props (findOverlaps c.w R'.1), R'.2.merges⟩,
      numEvents cc' R'.1 (linkPairs c R'.2.props R'.1)⟩ := by
    unfold trackGrid splitAndMerge
    rw [hprops']
    rfl
  have hp : PairsInField R.1 (linkPairs c R.2.props R.1) := pairsInField_links c.w c.thr R.2.props R.1
  have hp' : PairsInField R'.1 (linkPairs c R'.2.props R'.1) := pairsInField_links c.w c.thr R'.2.props R'.1
  have hlen : R.1.length = chunks.flatten.length := by
    have := congrArg List.length L.sides
    rwa [List.length_map, List.length_map] at this
  have hlen' : R'.1.length = chunks.flatten.length := by rw [L.frames, List.length_map, hlen]
  -- what is at a cell after the loop
  have hside : ∀ (t : Nat) (f h : Frame n), chunks.flatten[t]? = some f → R.1[t]? = some h → side ρ₁ h = side ρ f := by
    intro t f h hf hh
    have := congrArg (fun l => l[t]?) L.sides
    simp only [List.getElem?_map, hf, hh, Option.map_some, Option.some.injEq] at this
    exact this
  have hpos : ∀ (t : Nat) (f h : Frame n), chunks.flatten[t]? = some f → R.1[t]? = some h → ∀ i, 0 < h i ↔ 0 < f i := by
    intro t f h hf hh i
    have := congrFun (hside t f h hf hh) i
    unfold side at this
    by_cases h1 : h i = 0 <;> by_cases h2 : f i = 0 <;> simp [h1, h2] at this ⊢ <;> omega
  have hpos' : ∀ (t : Nat) (f h : Frame n), chunks.flatten[t]? = some f → R.1[t]? = some h → ∀ i, ρ₁ (h i) ≠ 0 ↔ ρ (f i) ≠ 0 := by
    intro t f h hf hh i
    have := congrFun (hside t f h hf hh) i
    unfold side at this
    by_cases h1 : h i = 0 <;> by_cases h2 : f i = 0
    · rw [h1, h2, L.tab.cut.zero, h0]
    · simp [h1, h2] at this
    · simp [h1, h2] at this
    · rw [if_neg h1, if_neg h2, Option.some.injEq, decide_eq_decide] at this
      exact this
  have hget : ∀ (t : Nat) (f : Frame n), chunks.flatten[t]? = some f → ∃ h, R.1[t]? = some h := by
    intro t f hf
    have : t < R.1.length := by rw [hlen]; exact (List.getElem?_eq_some_iff.mp hf).1
    exact ⟨_, List.getElem?_eq_getElem this⟩
  have hget' : ∀ (t : Nat) (h : Frame n), R.1[t]? = some h → R'.1[t]? = some (cutFrame ρ₁ h) := by
    intro t h hh
    rw [L.frames, List.getElem?_map, hh]
    rfl
  have hval : ∀ (cc : Labeller) (Q : List (Frame n)) (pairs : List (Nat × Nat)), PairsInField Q pairs → ∀ (h : Frame n), h ∈ Q → ∀ i,
      (if 0 < h i then eventOf cc Q pairs (h i) else 0) = eventOf cc Q pairs (h i) := by
    intro cc Q pairs hpq h hh i
    split
    · rfl
    · rename_i hn
      have := (eventOf_pos (cc := cc) hpq (a := h i)).not.mpr (fun e => hn (mem_fieldIds.mp e).1)
      omega
  have hch : List.IsChain Apart (R.1.map (side ρ₁)) := by rw [L.sides]; exact hap
  have k1 : ∀ (t u : Nat) (i j : Fin n) (a b : Frame n), R.1[t]? = some a → R.1[u]? = some b → 0 < a i → 0 < b j →
      (SameEvent (renameField cc R.1 (linkPairs c R.2.props R.1)) t i u j ↔ Spec.Linked (fun u v => (u, v) ∈ linkPairs c R.2.props R.1) (a i) (b j)) := by
    intro t u i j a b ha hb ha0 hb0
    have ham := List.mem_of_getElem? ha
    have hbm := List.mem_of_getElem? hb
    rw [← eventOf_eq_iff hcc hp (mem_fieldIds.mpr ⟨ha0, a, ham, i, rfl⟩) (mem_fieldIds.mpr ⟨hb0, b, hbm, j, rfl⟩)]
    unfold SameEvent renameField
    simp only [List.getElem?_map, ha, hb, Option.map_some, Option.some.injEq]
    constructor
    · rintro ⟨_, _, rfl, rfl, _, e⟩
      dsimp only at e
      rw [if_pos ha0, if_pos hb0] at e
      exact e
    · intro e
      refine ⟨_, _, rfl, rfl, ?_, ?_⟩
      · rw [if_pos ha0]
        exact (eventOf_pos hp).mpr (mem_fieldIds.mpr ⟨ha0, a, ham, i, rfl⟩)
      · rw [if_pos ha0, if_pos hb0]
        exact e
  rw [hT, hT']
  refine ⟨?_, ?_, ?_, ?_, ?_, ?_, ?_⟩
  · show (renameField _ _ _).length = _
    unfold renameField
    rw [List.length_map, hlen]
  · show (renameField _ _ _).length = _
    unfold renameField
    rw [List.length_map, hlen']
  · intro t f g hf hg i
    obtain ⟨h, hh⟩ := hget t f hf
    change (renameField _ _ _)[t]? = _ at hg
    unfold renameField at hg
    rw [List.getElem?_map, hh, Option.map_some, Option.some.injEq] at hg
    rw [← hg]
    dsimp only
    rw [hval cc R.1 _ hp h (List.mem_of_getElem? hh) i, eventOf_pos hp, mem_fieldIds, ← hpos t f h hf hh]
    exact ⟨fun e => e.1, fun e => ⟨e, h, List.mem_of_getElem? hh, i, rfl⟩⟩
  · intro t f g hf hg i
    obtain ⟨h, hh⟩ := hget t f hf
    change (renameField _ _ _)[t]? = _ at hg
    unfold renameField at hg
    rw [List.getElem?_map, hget' t h hh, Option.map_some, Option.some.injEq] at hg
    rw [← hg]
    dsimp only
    rw [hval cc' R'.1 _ hp' (cutFrame ρ₁ h) (List.mem_of_getElem? (hget' t h hh)) i, eventOf_pos hp', mem_fieldIds, ← hpos' t f h hf hh]
    exact ⟨fun e => Nat.pos_iff_ne_zero.mp e.1, fun e => ⟨Nat.pos_of_ne_zero e, cutFrame ρ₁ h, List.mem_of_getElem? (hget' t h hh), i, rfl⟩⟩
  · intro t u i j f g hf hg hi hj
    obtain ⟨a, ha⟩ := hget t f hf
    obtain ⟨b, hb⟩ := hget u g hg
    have hai := (hpos' t f a hf ha i).mpr hi
    have hbj := (hpos' u g b hg hb j).mpr hj
    have ha0 : 0 < a i := Nat.pos_of_ne_zero fun e => hai (by rw [e]; exact L.tab.cut.zero)
    have hb0 : 0 < b j := Nat.pos_of_ne_zero fun e => hbj (by rw [e]; exact L.tab.cut.zero)
    have ham' := List.mem_of_getElem? (hget' t a ha)
    have hbm' := List.mem_of_getElem? (hget' u b hb)
    have k2 : SameEvent (renameField cc' R'.1 (linkPairs c R'.2.props R'.1)) t i u j ↔
        Spec.Linked (fun u v => (u, v) ∈ linkPairs c R'.2.props R'.1) (ρ₁ (a i)) (ρ₁ (b j)) := by
      have pa : 0 < cutFrame ρ₁ a i := Nat.pos_of_ne_zero hai
      have pb : 0 < cutFrame ρ₁ b j := Nat.pos_of_ne_zero hbj
      have := eventOf_eq_iff hcc' hp' (mem_fieldIds.mpr ⟨pa, _, ham', i, rfl⟩) (mem_fieldIds.mpr ⟨pb, _, hbm', j, rfl⟩)
      change _ ↔ Spec.Linked (fun u v => (u, v) ∈ linkPairs c R'.2.props R'.1) (ρ₁ (a i)) (ρ₁ (b j)) at this
      rw [← this]
      unfold SameEvent renameField
      simp only [List.getElem?_map, hget' t a ha, hget' u b hb, Option.map_some, Option.some.injEq]
      constructor
      · rintro ⟨_, _, rfl, rfl, _, e⟩
        dsimp only at e
        rw [if_pos pa, if_pos pb] at e
        exact e
      · intro e
        refine ⟨_, _, rfl, rfl, ?_, ?_⟩
        · rw [if_pos pa]
          exact (eventOf_pos hp').mpr (mem_fieldIds.mpr ⟨pa, _, ham', i, rfl⟩)
        · rw [if_pos pa, if_pos pb]
          exact e
    have := linked_cut L.tab.cut c R.2.props R.1 hch hai hbj
    rw [← L.tab.props, ← L.frames] at this
    exact k2.trans (this.trans (k1 t u i j a b ha hb ha0 hb0).symm)
  · intro t u i j f g hf hg hi hs
    obtain ⟨a, ha⟩ := hget t f hf
    obtain ⟨b, hb⟩ := hget u g hg
    have hai := (hpos' t f a hf ha i).mpr hi
    have ha0 : 0 < a i := Nat.pos_of_ne_zero fun e => hai (by rw [e]; exact L.tab.cut.zero)
    have hb0 : 0 < b j := by
      obtain ⟨x, y, hx, hy, h1, h2⟩ := hs
      change (renameField _ _ _)[u]? = _ at hy
      unfold renameField at hy
      rw [List.getElem?_map, hb, Option.map_some, Option.some.injEq] at hy
      by_contra hn
      rw [← hy] at h2
      dsimp only at h2
      rw [if_neg hn] at h2
      omega
    have hl := (k1 t u i j a b ha hb ha0 hb0).mp hs
    have : ∀ x y, Spec.Linked (fun u v => (u, v) ∈ linkPairs c R.2.props R.1) x y → (ρ₁ x = 0 ↔ ρ₁ y = 0) := by
      intro x y h
      induction h with
      | refl => exact Iff.rfl
      | fwd _ e ih => exact ih.trans (linkPairs_apart c R.2.props hch e)
      | bwd _ e ih => exact ih.trans (linkPairs_apart c R.2.props hch e).symm
    exact (hpos' u g b hg hb j).mp fun e => hai ((this _ _ hl).mpr e)
  · exact ⟨ρ₁, L.tab.merges, L.frames, hlen, fun a b ha e => L.tab.cut.inj ha e, L.tab.msd, hpos'⟩

end MarEx
