import Verif.Props.Workflow
import Verif.Props.Percentiles
import Verif.Props.AreaStats
import Verif.Props.OffMask
/-! More extremes, longer gaps, a larger area threshold: C187, C188. -/
namespace MarEx.Spec

/-- The second record has the steps and all extreme cells of the first, and perhaps more. -/
def MoreExtremes {n : Nat} (data data' : List (Fin n → Bool)) : Prop :=
  data.length = data'.length ∧ ∀ t i, IsExtreme data t i → IsExtreme data' t i

/-- Every event cell of the first result is an event cell of the second. -/
def EventsWithin {n : Nat} (ids ids' : List (Fin n → Nat)) : Prop :=
  ∀ (t : Nat) (g g' : Fin n → Nat), ids[t]? = some g → ids'[t]? = some g' → ∀ i, 0 < g i → 0 < g' i

end MarEx.Spec

namespace MarEx.Props
open MarEx MarEx.Spec

variable {n : Nat}

theorem isExtreme_map {F : (Fin n → Bool) → Fin n → Bool} {fs : List (Fin n → Bool)} {t : Nat} {i : Fin n} :
    IsExtreme (fs.map F) t i ↔ ∃ f, fs[t]? = some f ∧ F f i = true := by
  unfold IsExtreme
  rw [List.getElem?_map]
  constructor
  · rintro ⟨d, hd, hi⟩
    obtain ⟨f, hf, rfl⟩ := Option.map_eq_some_iff.mp hd
    exact ⟨f, hf, hi⟩
  · rintro ⟨f, hf, hi⟩
    exact ⟨_, by rw [hf]; rfl, hi⟩

theorem moreExtremes_map {F : (Fin n → Bool) → Fin n → Bool} (mono : ∀ f g, (∀ i, f i = true → g i = true) → ∀ i, F f i = true → F g i = true)
    {fs gs : List (Fin n → Bool)} (h : MoreExtremes fs gs) : MoreExtremes (fs.map F) (gs.map F) := by
  refine ⟨by simp [h.1], fun t i => ?_⟩
  rw [isExtreme_map, isExtreme_map]
  rintro ⟨f, hf, hi⟩
  have hlt : t < gs.length := h.1 ▸ (List.getElem?_eq_some_iff.mp hf).1
  refine ⟨gs[t], List.getElem?_eq_getElem hlt, mono f _ (fun j hj => ?_) i hi⟩
  obtain ⟨d, hd, hdj⟩ := h.2 t j ⟨f, hf, hj⟩
  rw [List.getElem?_eq_getElem hlt] at hd
  cases hd
  exact hdj

theorem moreExtremes_close {T T' : Nat} (hT : T % 2 = 0) (hT' : T' % 2 = 0) (hle : T ≤ T') {fs gs : List (Fin n → Bool)} (h : MoreExtremes fs gs) :
    MoreExtremes (closeTimeGaps T fs) (closeTimeGaps T' gs) :=
  ⟨by rw [length_closeTimeGaps, length_closeTimeGaps, h.1], fun t i hi =>
    C02_monotone_in_Tfill T T' hT hT' hle gs t i ((C02_monotone_extensive T hT fs gs h.1 h.2 t i).2 hi)⟩

theorem fillTimeGaps_mono {F : Nat → (Fin n → Bool) → Fin n → Bool} {mask : Fin n → Bool}
    (mono : ∀ R f g, (∀ i, f i = true → g i = true) → ∀ i, F R f i = true → F R g i = true)
    {T T' R : Nat} (hT : T % 2 = 0) (hT' : T' % 2 = 0) (hle : T ≤ T') {fs gs : List (Fin n → Bool)} (h : MoreExtremes fs gs)
    (stay : T = 0 → T' = 0 ∨ ∀ f ∈ fs, ∀ i, mask i = true → f i = true → F (R / 2) f i = true) (t : Nat) (i : Fin n) (hm : mask i = true)
    (hi : IsExtreme (fillTimeGaps F T R fs) t i) : IsExtreme (fillTimeGaps F T' R gs) t i := by
  unfold fillTimeGaps at hi ⊢
  by_cases hz : T = 0
  · rw [if_pos hz] at hi
    by_cases hz' : T' = 0
    · rw [if_pos hz']; exact h.2 t i hi
    · rw [if_neg hz']
      have hmore : MoreExtremes fs (closeTimeGaps T' gs) := ⟨by rw [length_closeTimeGaps, h.1], fun s j hj =>
        (C02_monotone_extensive T' hT' gs gs rfl (fun _ _ => id) s j).1 (h.2 s j hj)⟩
      obtain ⟨f, hf, hfi⟩ := hi
      exact (moreExtremes_map (mono (R / 2)) hmore).2 t i (isExtreme_map.mpr ⟨f, hf, (stay hz).resolve_left hz' f (List.mem_of_getElem? hf) i hm hfi⟩)
  · rw [if_neg hz] at hi
    rw [if_neg (by omega)]
    exact (moreExtremes_map (mono (R / 2)) (moreExtremes_close hT hT' hle h)).2 t i hi

theorem fillFrameGrid_mono {ny nx : Nat} (regional : Bool) (mask : Fin (ny * nx) → Bool) (R : Nat) (f g : Fin (ny * nx) → Bool)
    (h : ∀ i, f i = true → g i = true) (i : Fin (ny * nx)) (hi : fillFrameGrid regional ny nx mask R f i = true) :
    fillFrameGrid regional ny nx mask R g i = true := by
  have hnx : 0 < nx := by
    rcases Nat.eq_zero_or_pos nx with h0 | h0
    · subst h0; exact absurd i.isLt (by simp)
    · exact h0
  have hy : i.val / nx < ny := Nat.div_lt_of_lt_mul (Nat.lt_of_lt_of_eq i.isLt (Nat.mul_comm ny nx))
  have hx : i.val % nx < nx := Nat.mod_lt _ hnx
  unfold fillFrameGrid ofImg at hi ⊢
  refine C06_monotone regional ny nx (Int.ofNat_lt.mpr (Nat.lt_of_le_of_lt (Nat.zero_le _) hy)) (by omega) _ R _ _ ?_ _ _ ⟨Int.natCast_nonneg _, Int.ofNat_lt.mpr hy⟩
    ⟨Int.natCast_nonneg _, Int.ofNat_lt.mpr hx⟩ hi
  intro y x _ _ _ _ hf
  unfold toImg at hf ⊢
  split at hf
  · rename_i hlt
    rw [dif_pos hlt]
    exact h _ hf
  · cases hf

theorem fillFrameGrid_zero {ny nx : Nat} (regional : Bool) (mask : Fin (ny * nx) → Bool) (f : Fin (ny * nx) → Bool) (i : Fin (ny * nx))
    (hm : mask i = true) : fillFrameGrid regional ny nx mask 0 f i = true ↔ f i = true := by
  unfold fillFrameGrid ofImg
  rw [C06_radius_zero, toImg_ofImg, toImg_ofImg]
  exact ⟨fun h => h.1, fun h => ⟨h, hm⟩⟩

/-- The object of a cell is no larger when the cells and links are fewer. -/
theorem size_le_of_linked {f f' : Fin n → Nat} {E E' : Fin n → Fin n → Prop} (hE : ∀ a b, E a b → E' a b) {i : Fin n}
    (h : ∀ j, f i = f j → Linked E i j) (h' : ∀ j, Linked E' i j → f' i = f' j) : size f (f i) ≤ size f' (f' i) := by
  unfold size
  refine Finset.card_le_card fun j hj => ?_
  simp only [Finset.mem_filter, Finset.mem_univ, true_and] at hj ⊢
  exact (h' j ((h j hj.symm).mono hE)).symm

theorem linked_last {E : Fin n → Fin n → Prop} {P : Fin n → Prop} (hE : ∀ a b, E a b → P a ∧ P b) {i j : Fin n} (hi : P i) (h : Linked E i j) : P j := by
  cases h with
  | refl => exact hi
  | fwd _ h => exact (hE _ _ h).2
  | bwd _ h => exact (hE _ _ h).1

/-- Grid: the label fields of two records, the second with more extremes. -/
theorem grid_labels_mono (cc : Labeller) (hcc : CorrectLabeller cc) {nx : Nat} (hnx : 0 < nx) (regional : Bool) {fs gs : List (Fin n → Bool)}
    (h : MoreExtremes fs gs) {t : Nat} {f g : Frame n} (hf : (identifyObjectsGrid cc false regional nx fs)[t]? = some f)
    (hg : (identifyObjectsGrid cc false regional nx gs)[t]? = some g) (i : Fin n) (hi : 0 < f i) :
    0 < g i ∧ size f (f i) ≤ size g (g i) := by
  have cf := fun j => C63_grid_objects_are_components cc hcc regional nx hnx fs t t f f hf hf i j
  have cg := fun j => C63_grid_objects_are_components cc hcc regional nx hnx gs t t g g hg hg i j
  have hgi : 0 < g i := (cg i).1.mpr (h.2 t i ((cf i).1.mp hi))
  refine ⟨hgi, size_le_of_linked (E := JoinedInStep regional nx fs t) (E' := JoinedInStep regional nx gs t) ?_ ?_ ?_⟩
  · exact fun a b hab => ⟨hab.1, h.2 t a hab.2.1, h.2 t b hab.2.2⟩
  · exact fun j hj => ((cf j).2.mp ⟨hi, hj⟩).2.2.2
  · intro j hl
    have hj := linked_last (P := IsExtreme gs t) (fun a b hab => hab.2) ((cg i).1.mp hgi) hl
    exact ((cg j).2.mpr ⟨rfl, (cg i).1.mp hgi, hj, hl⟩).2

/-- Mesh: the labels of two steps, the second with more extreme ocean cells. -/
theorem mesh_labels_mono (cc : Labeller) (hcc : CorrectLabeller cc) (nbr : NbrTable n) (mask d d' : Fin n → Bool)
    (h : ∀ i, mask i = true → d i = true → d' i = true) (i : Fin n) (hi : 0 < identifyObjectsMesh cc nbr mask d i) :
    0 < identifyObjectsMesh cc nbr mask d' i ∧
    size (identifyObjectsMesh cc nbr mask d) (identifyObjectsMesh cc nbr mask d i) ≤
      size (identifyObjectsMesh cc nbr mask d') (identifyObjectsMesh cc nbr mask d' i) := by
  have pos : ∀ e j, 0 < identifyObjectsMesh cc nbr mask e j ↔ (mask j = true ∧ e j = true) := fun e j => by
    rw [Nat.pos_iff_ne_zero, Ne, C10_background_zero, not_not]
  have hdi := (pos d i).mp hi
  have hdi' : mask i = true ∧ d' i = true := ⟨hdi.1, h i hdi.1 hdi.2⟩
  refine ⟨(pos d' i).mpr hdi', size_le_of_linked (E := JoinedCells nbr mask d) (E' := JoinedCells nbr mask d') ?_ ?_ ?_⟩
  · exact fun a b hab => ⟨hab.1, ⟨hab.2.1.1, h a hab.2.1.1 hab.2.1.2⟩, hab.2.2.1, h b hab.2.2.1 hab.2.2.2⟩
  · intro j hj
    exact (C10_same_object_iff_connected cc hcc nbr mask d i j hdi ((pos d j).mp (hj ▸ hi))).mp hj
  · intro j hl
    have hj := linked_last (P := fun j => mask j = true ∧ d' j = true) (fun a b hab => hab.2) hdi' hl
    exact (C10_same_object_iff_connected cc hcc nbr mask d' i j hdi' hj).mpr hl

theorem runMesh_parts {cc : Labeller} {p : MeshRun n} {data pre : List (Fin n → Bool)} {ids : List (Frame n)} (h : runMesh cc p data = .ok (pre, ids)) :
    ∃ r, preprocessMesh cc p data = .ok r ∧ r.field = pre := by
  unfold runMesh at h
  split at h
  · cases h
  rename_i r hr
  split at h
  · cases h
  cases h
  exact ⟨r, hr, rfl⟩

theorem runGrid_parts {cc : Labeller} {ny nx : Nat} {p : GridRun ny nx} {chunks : List Nat} {data pre : List (Fin (ny * nx) → Bool)}
    {ids : List (Frame (ny * nx))} (h : runGrid cc p chunks data = .ok (pre, ids)) :
    ∃ r, preprocessGrid cc p data = .ok r ∧ r.field = pre := by
  unfold runGrid at h
  split at h
  · cases h
  rename_i r hr
  cases h
  exact ⟨r, hr, rfl⟩

/-- On a symmetric mesh a second hole filling with a smaller radius removes nothing. -/
theorem fillHolesMesh_again (nbr : NbrTable n) (hs : SymmetricTable nbr) (mask f : Fin n → Bool) {r R : Nat} (hr : r ≤ R) (i : Fin n)
    (h : fillHolesMesh (dilationRow nbr) mask R f i = true) :
    fillHolesMesh (dilationRow nbr) mask r (fillHolesMesh (dilationRow nbr) mask R f) i = true := by
  have h' := h
  unfold fillHolesMesh at h'
  rw [openMesh_iff] at h'
  obtain ⟨j, hj, hk⟩ := h'
  have e : R = r + (R - r) := by omega
  unfold WithinHops at hj
  rw [e] at hj
  obtain ⟨b, hb1, hb2⟩ := HopsLE.split hj
  show openMesh (dilationRow nbr) mask r (closeMesh (dilationRow nbr) mask r (fillHolesMesh (dilationRow nbr) mask R f)) i = true
  rw [openMesh_iff]
  refine ⟨b, hb1, fun k hbk hm => C04_closing_extensive nbr hs mask _ r k ?_⟩
  unfold fillHolesMesh
  rw [openMesh_iff]
  refine ⟨j, ?_, hk⟩
  unfold WithinHops
  rw [e]
  exact (HopsLE.symm hs hbk).trans hb2

/-- The filled records of two runs on a mesh, on the ocean cells. -/
theorem fillMesh_mono (nbr : NbrTable n) (mask : Fin n → Bool) (R T T' : Nat) (hT : T % 2 = 0) (hT' : T' % 2 = 0) (hle : T ≤ T')
    (h0 : T = 0 → T' = 0 ∨ R ≤ 1 ∨ SymmetricTable nbr) {data data' : List (Fin n → Bool)} (hd : MoreExtremes data data') (t : Nat) (i : Fin n) (hm : mask i = true)
    (hi : IsExtreme (fillTimeGaps (fillHolesMesh (dilationRow nbr) mask) T R (data.map (fillHolesMesh (dilationRow nbr) mask R))) t i) :
    IsExtreme (fillTimeGaps (fillHolesMesh (dilationRow nbr) mask) T' R (data'.map (fillHolesMesh (dilationRow nbr) mask R))) t i := by
  refine fillTimeGaps_mono (mask := mask) (fun R f g h i hi => C04_monotone nbr mask f g R h i hi) hT hT' hle
    (moreExtremes_map (fun f g h i hi => C04_monotone nbr mask f g R h i hi) hd) (fun hz => ?_) t i hm hi
  refine (h0 hz).imp id fun h1 f hf j hmj hj => ?_
  obtain ⟨d, _, rfl⟩ := List.mem_map.mp hf
  rcases h1 with h1 | h1
  · rw [show R / 2 = 0 by omega, C04_radius_zero nbr mask _ j hmj]
    exact hj
  · exact fillHolesMesh_again nbr h1 mask d (Nat.div_le_self R 2) j hj

theorem length_fillTimeGaps (F : Nat → (Fin n → Bool) → Fin n → Bool) (T R : Nat) (fs : List (Fin n → Bool)) :
    (fillTimeGaps F T R fs).length = fs.length := by
  unfold fillTimeGaps
  split
  · rfl
  · rw [List.length_map, length_closeTimeGaps]

theorem absolute_threshold_mesh {a : ℚ} {labels : List (Fin n → Nat)} {r : FilterResult n} (h : filterMesh (.absolute a) labels = .ok r) :
    r.threshold = a := by
  unfold filterMesh at h
  dsimp only at h
  split at h
  · cases h
  · cases h; rfl

theorem absolute_threshold_grid {a : ℚ} {labels : List (Fin n → Nat)} {r : FilterResult n} (h : filterGrid (.absolute a) labels = .ok r) :
    r.threshold = a := by
  unfold filterGrid at h
  dsimp only at h
  split at h
  · cases h
  · cases h; rfl

/-- **C187**, meshes, `area_filter_absolute`: a record with more extremes, a longer `T_fill`, a smaller area threshold — or all three — and any other
tracking options (overlap threshold, merging, chunks): if the first run gets past its area filter, so does the second, and every event cell of
the first run is an event cell of the second.  (`T_fill` from 0 to a positive number: if neighbours
list each other.) -/
theorem C187_mesh_absolute (cc : Labeller) (hcc : CorrectLabeller cc) (p p' : MeshRun n) (hn : p'.nbr = p.nbr) (hmask : p'.mask = p.mask)
    (hR : p'.R = p.R) (hT : p.T % 2 = 0) (hT' : p'.T % 2 = 0) (hle : p.T ≤ p'.T) (h0 : p.T = 0 → p'.T = 0 ∨ p.R ≤ 1 ∨ SymmetricTable p.nbr)
    (a a' : ℚ) (hc : p.criterion = .absolute a) (hc' : p'.criterion = .absolute a') (ha : a' ≤ a)
    (htc : 0 < p.track.timechunks) (htc' : 0 < p'.track.timechunks)
    (data data' : List (Fin n → Bool)) (hd : MoreExtremes data data') :
    ((∀ e, runMesh cc p data ≠ .error (.filter e)) → ∀ e, runMesh cc p' data' ≠ .error (.filter e)) ∧
    ∀ pre ids pre' ids', runMesh cc p data = .ok (pre, ids) → runMesh cc p' data' = .ok (pre', ids') → EventsWithin ids ids' := by
  have hfill := fun t i hm hi => fillMesh_mono p.nbr p.mask p.R p.T p'.T hT hT' hle h0 hd t i hm hi
  set fs := fillTimeGaps (fillHolesMesh (dilationRow p.nbr) p.mask) p.T p.R (data.map (fillHolesMesh (dilationRow p.nbr) p.mask p.R)) with hfs
  set gs := fillTimeGaps (fillHolesMesh (dilationRow p.nbr) p.mask) p'.T p.R (data'.map (fillHolesMesh (dilationRow p.nbr) p.mask p.R)) with hgs
  have hlen : fs.length = gs.length := by rw [hfs, hgs, length_fillTimeGaps, length_fillTimeGaps, List.length_map, List.length_map, hd.1]
  have hstep : ∀ (t : Nat) (d d' : Fin n → Bool), fs[t]? = some d → gs[t]? = some d' → ∀ i, p.mask i = true → d i = true → d' i = true := by
    intro t d d' h1 h2 i hm hi
    obtain ⟨e, he, hei⟩ := hfill t i hm ⟨d, h1, hi⟩
    rw [h2] at he
    cases he
    exact hei
  have hpre : preprocessMesh cc p data = filterMesh (.absolute a) (fs.map (identifyObjectsMesh cc p.nbr p.mask)) := by
    unfold preprocessMesh; rw [hc]
  have hpre' : preprocessMesh cc p' data' = filterMesh (.absolute a') (gs.map (identifyObjectsMesh cc p.nbr p.mask)) := by
    unfold preprocessMesh; rw [hc', hn, hmask, hR]
  constructor
  · intro h e he
    have herr : preprocessMesh cc p' data' = .error e := by
      unfold runMesh at he
      split at he
      · rename_i e' h1; cases he; exact h1
      · split at he <;> cases he
    rw [hpre'] at herr
    have hall := (filterMesh_error_iff _ _).mp ⟨e, herr⟩
    obtain ⟨e', he'⟩ := (filterMesh_error_iff (.absolute a) (fs.map (identifyObjectsMesh cc p.nbr p.mask))).mpr (by
      intro f hf i hi
      obtain ⟨d, hd', rfl⟩ := List.mem_map.mp hf
      obtain ⟨t, ht, rfl⟩ := List.mem_iff_getElem.mp hd'
      obtain ⟨h1, h2⟩ := mesh_labels_mono cc hcc p.nbr p.mask fs[t] (gs[t]'(hlen ▸ ht))
        (hstep t _ _ (List.getElem?_eq_getElem ht) (List.getElem?_eq_getElem _)) i hi
      exact h2.trans (hall _ (List.mem_map_of_mem (List.getElem_mem (hlen ▸ ht))) i h1))
    refine h e' ?_
    unfold runMesh
    rw [hpre, he']
  · intro pre ids pre' ids' h h' t g g' hg hg' i hi
    obtain ⟨hl1, hl2, hs⟩ := C65_mesh_run cc hcc p htc data pre ids h
    obtain ⟨_, _, hs'⟩ := C65_mesh_run cc hcc p' htc' data' pre' ids' h'
    obtain ⟨r, hr, rfl⟩ := runMesh_parts h
    obtain ⟨r', hr', rfl⟩ := runMesh_parts h'
    rw [hpre] at hr
    rw [hpre'] at hr'
    rw [(hs' t g' hg' i).1]
    obtain ⟨d, hd1, hd2⟩ := ((hs t g hg i).1).mp hi
    have ht : t < fs.length := by
      have := (List.getElem?_eq_some_iff.mp hd1).1
      rw [(filterMesh_sub hr).1, List.length_map] at this
      exact this
    have e1 : (fs.map (identifyObjectsMesh cc p.nbr p.mask))[t]? = some (identifyObjectsMesh cc p.nbr p.mask fs[t]) := by
      rw [List.getElem?_map, List.getElem?_eq_getElem ht]; rfl
    have e2 : (gs.map (identifyObjectsMesh cc p.nbr p.mask))[t]? = some (identifyObjectsMesh cc p.nbr p.mask (gs[t]'(hlen ▸ ht))) := by
      rw [List.getElem?_map, List.getElem?_eq_getElem (hlen ▸ ht)]; rfl
    obtain ⟨k, hk, hki⟩ := C08_keeps_exactly_larger _ _ r hr t _ e1
    obtain ⟨k', hk', hki'⟩ := C08_keeps_exactly_larger _ _ r' hr' t _ e2
    rw [hk] at hd1
    cases hd1
    obtain ⟨h1, h2⟩ := (hki i).mp hd2
    obtain ⟨m1, m2⟩ := mesh_labels_mono cc hcc p.nbr p.mask fs[t] (gs[t]'(hlen ▸ ht))
      (hstep t _ _ (List.getElem?_eq_getElem ht) (List.getElem?_eq_getElem _)) i h1
    refine ⟨k', hk', (hki' i).mpr ⟨m1, ?_⟩⟩
    rw [absolute_threshold_mesh hr] at h2
    rw [absolute_threshold_mesh hr']
    have : (size (identifyObjectsMesh cc p.nbr p.mask fs[t]) (identifyObjectsMesh cc p.nbr p.mask fs[t] i) : ℚ) ≤
      (size (identifyObjectsMesh cc p.nbr p.mask (gs[t]'(hlen ▸ ht))) (identifyObjectsMesh cc p.nbr p.mask (gs[t]'(hlen ▸ ht)) i) : ℚ) := by
      exact_mod_cast m2
    linarith

/-- **C187**, structured grids, `area_filter_absolute`: under the same changes the second run is not refused either, and once the second run has
an event cell at some earlier step, every event cell of the first run at a step is one of the second.  Missing: the steps up to the second
run's first event, where the lost first object (C07) may be a larger one (`C187_first_object_fails`), and `T_fill` from 0 to a positive number with
`R_fill` above 1 (`C187_first_T_fill_fails`). -/
theorem C187_grid_absolute_partial (cc : Labeller) (hcc : CorrectLabeller cc) {ny nx : Nat} (hnx : 0 < nx) (p p' : GridRun ny nx)
    (wrap nn wrap' nn' : Bool) (thr thr' : ℚ) (cen cen' : Frame (ny * nx) → Nat → ℚ × ℚ) (hp : p.track = gridCfg wrap nn ny nx thr cen)
    (hp' : p'.track = gridCfg wrap' nn' ny nx thr' cen') (hreg : p'.regional = p.regional) (hmask : p'.mask = p.mask)
    (hR : p'.R = p.R) (hT : p.T % 2 = 0) (hT' : p'.T % 2 = 0) (hle : p.T ≤ p'.T) (h0 : p.T = 0 → p'.T = 0 ∨ p.R ≤ 1)
    (a a' : ℚ) (hc : p.criterion = .absolute a) (hc' : p'.criterion = .absolute a') (ha : a' ≤ a) (chunks chunks' : List Nat)
    (data data' : List (Fin (ny * nx) → Bool)) (hd : MoreExtremes data data') (pre : List (Fin (ny * nx) → Bool)) (ids : List (Frame (ny * nx)))
    (h : runGrid cc p chunks data = .ok (pre, ids)) :
    ∃ pre' ids', runGrid cc p' chunks' data' = .ok (pre', ids') ∧
      ∀ (t : Nat) (g g' : Frame (ny * nx)), ids[t]? = some g → ids'[t]? = some g' →
        (∃ (s : Nat) (g₀ : Frame (ny * nx)) (j : Fin (ny * nx)), s < t ∧ ids'[s]? = some g₀ ∧ 0 < g₀ j) → ∀ i, 0 < g i → 0 < g' i := by
  have hmore : MoreExtremes (fillStagesGrid p data) (fillStagesGrid p' data') := by
    refine ⟨by rw [length_fillStagesGrid, length_fillStagesGrid, hd.1], fun t i hi => ?_⟩
    have hm := fillStagesGrid_mask p data t i hi
    unfold fillStagesGrid at hi ⊢
    rw [hreg, hmask, hR]
    refine fillTimeGaps_mono (mask := p.mask) (fun R f g h i hi => fillFrameGrid_mono p.regional p.mask R f g h i hi) hT hT' hle
      (moreExtremes_map (fun f g h i hi => fillFrameGrid_mono p.regional p.mask p.R f g h i hi) hd) (fun hz => ?_) t i hm hi
    refine (h0 hz).imp id fun h1 f _ j hmj hj => ?_
    rw [show p.R / 2 = 0 by omega]
    exact (fillFrameGrid_zero p.regional p.mask f j hmj).mpr hj
  obtain ⟨hl1, hl2, hs⟩ := C65_grid_run cc hcc hnx p wrap nn thr cen hp chunks data pre ids h
  obtain ⟨r, hr, rfl⟩ := runGrid_parts h
  unfold preprocessGrid at hr
  rw [hc] at hr
  set labels := identifyObjectsGrid cc false p.regional nx (fillStagesGrid p data) with hlab
  set labels' := identifyObjectsGrid cc false p.regional nx (fillStagesGrid p' data') with hlab'
  have hll : labels.length = labels'.length := by rw [hlab, hlab', length_identify, length_identify, hmore.1]
  have hu : UniqueLabels labels := by
    intro t t' f f' hf hf' i j h0 he
    exact ((C63_grid_objects_are_components cc hcc p.regional nx hnx (fillStagesGrid p data) t t' f f' hf hf' i j).2.mp ⟨h0, he⟩).1
  have hu' : UniqueLabels labels' := by
    intro t t' f f' hf hf' i j h0 he
    exact ((C63_grid_objects_are_components cc hcc p.regional nx hnx (fillStagesGrid p' data') t t' f f' hf hf' i j).2.mp ⟨h0, he⟩).1
  have hlm : ∀ (t : Nat) (f f' : Frame (ny * nx)), labels[t]? = some f → labels'[t]? = some f' → ∀ i, 0 < f i →
      0 < f' i ∧ size f (f i) ≤ size f' (f' i) := fun t f f' hf hf' i hi => grid_labels_mono cc hcc hnx p.regional hmore hf hf' i hi
  -- the second run is not refused
  cases hr' : filterGrid (.absolute a') labels' with
  | error e =>
    exfalso
    have he : e = .noObjects := by
      unfold filterGrid at hr'
      dsimp only at hr'
      split at hr'
      · cases hr'; rfl
      · cases hr'
    rw [he] at hr'
    have hz := ((C145_threshold labels' (.absolute a')).1).mp hr'
    have : filterGrid (.absolute a) labels = .error .noObjects := ((C145_threshold labels (.absolute a)).1).mpr (by
      intro f hf i
      by_contra hne
      obtain ⟨t, ht, rfl⟩ := List.mem_iff_getElem.mp hf
      have ht' : t < labels'.length := hll ▸ ht
      have := (hlm t _ _ (List.getElem?_eq_getElem ht) (List.getElem?_eq_getElem ht') i (Nat.pos_of_ne_zero hne)).1
      rw [hz _ (List.getElem_mem ht') i] at this
      exact absurd this (lt_irrefl 0))
    rw [this] at hr
    cases hr
  | ok r' =>
    have hpre' : preprocessGrid cc p' data' = .ok r' := by
      unfold preprocessGrid
      rw [hc', hreg]
      exact hr'
    have hrun' : runGrid cc p' chunks' data' = .ok (r'.field, trackingGrid cc p' chunks' r'.field) := by
      unfold runGrid
      rw [hpre']
    refine ⟨_, _, hrun', ?_⟩
    obtain ⟨_, hl2', hs'⟩ := C65_grid_run cc hcc hnx p' wrap' nn' thr' cen' hp' chunks' data' _ _ hrun'
    intro t g g' hg hg' hearly i hi
    rw [(hs' t g' hg' i).1]
    obtain ⟨d, hd1, hd2⟩ := ((hs t g hg i).1).mp hi
    have ht : t < labels.length := by
      have := (List.getElem?_eq_some_iff.mp hd1).1
      rwa [(filterGrid_sub hr).1] at this
    have ht' : t < labels'.length := hll ▸ ht
    obtain ⟨k, hk, hki⟩ := C07_keeps_exactly_large_partial labels hu _ r hr t _ (List.getElem?_eq_getElem ht)
    obtain ⟨k', hk', hki'⟩ := C07_keeps_exactly_large_partial labels' hu' _ r' hr' t _ (List.getElem?_eq_getElem ht')
    rw [hk] at hd1
    cases hd1
    obtain ⟨h1, h2, _⟩ := (hki i).mp hd2
    obtain ⟨m1, m2⟩ := hlm t _ _ (List.getElem?_eq_getElem ht) (List.getElem?_eq_getElem ht') i h1
    refine ⟨k', hk', (hki' i).mpr ⟨m1, ?_, ?_⟩⟩
    · rw [absolute_threshold_grid hr] at h2
      rw [absolute_threshold_grid hr']
      have : (size labels[t] (labels[t] i) : ℚ) ≤ (size labels'[t] (labels'[t] i) : ℚ) := by exact_mod_cast m2
      linarith
    · intro hF
      obtain ⟨s, g₀, j, hst, hg₀, hj⟩ := hearly
      obtain ⟨e, he, hej⟩ := ((hs' s g₀ hg₀ j).1).mp hj
      have hs'lt : s < labels'.length := lt_trans hst ht'
      have := (filterGrid_sub hr').2 s _ e (List.getElem?_eq_getElem hs'lt) he j hej
      rw [hF.1 s _ hst (List.getElem?_eq_getElem hs'lt) j] at this
      exact absurd this (lt_irrefl 0)

/-- `lineData` with fewer extreme cells at every step. -/
def fewerData : List (Fin 14 → Bool) :=
  [fun i => decide (i.val ≤ 6 ∧ i.val ≠ 0), fun i => decide (4 ≤ i.val ∧ i.val ≤ 6 ∨ i.val = 9), fun i => decide (11 ≤ i.val)]

theorem fewer_line : MoreExtremes fewerData lineData := by
  refine ⟨rfl, fun t i => ?_⟩
  match t with
  | 0 | 1 | 2 => rintro ⟨d, hd, he⟩; cases hd; exact ⟨_, rfl, by revert he; revert i; decide⟩
  | t + 3 => rintro ⟨d, hd, _⟩; cases hd

-- the hypotheses of `C187_mesh_absolute` are met by two runs on a line of cells: area threshold 2, then 1 with more extreme cells
example : MoreExtremes fewerData lineData ∧ SymmetricTable (lineTable 14) ∧
    (match runMesh quickFind { lineRun true with criterion := .absolute 2 } fewerData with
      | .ok (_, ids) => ids.map fun g => (List.finRange 14).map g
      | .error _ => []) = [[0, 1, 1, 1, 1, 1, 1, 0, 0, 0, 0, 0, 0, 0], [0, 0, 0, 0, 1, 1, 1, 0, 0, 0, 0, 0, 0, 0], [0, 0, 0, 0, 0, 0, 0, 0, 0, 0, 0, 0, 0, 0]] :=
  ⟨fewer_line, strip_symmetric 14, by decide +kernel⟩

-- and of `C187_grid_absolute_partial`: the globe of the workflow, three steps, one extreme cell more at the last
example : (match runGrid quickFind { flowRun 1 4 with mask := fun _ => true } [3] [fun i => i == 0, fun i => i == 1, fun i => i == 1],
      runGrid quickFind { flowRun 1 4 with mask := fun _ => true } [1, 2] [fun i => i == 0, fun i => i == 1, fun i => i.val == 1 || i.val == 2] with
    | .ok (_, [_, g, h]), .ok (_, [_, g', h']) => decide (0 < g 1 ∧ 0 < h 1 ∧ h 2 = 0 ∧ 0 < g' 1 ∧ 0 < h' 1 ∧ 0 < h' 2)
    | _, _ => false) = true := by decide +kernel

/-! ### A stricter area criterion on the same record -/

/-- The second criterion is of the same kind and asks for no less. -/
def NoLooser : AreaCriterion → AreaCriterion → Prop
  | .quartile q, .quartile q' => 0 ≤ q ∧ q ≤ q' ∧ q' ≤ 1
  | .absolute a, .absolute a' => a ≤ a'
  | _, _ => False

theorem areaThreshold_le {c c' : AreaCriterion} (h : NoLooser c c') (areas : List Nat) (hne : areas ≠ []) :
    areaThreshold c areas ≤ areaThreshold c' areas := by
  cases c <;> cases c' <;> simp only [NoLooser] at h
  · exact percentile_mono _ (by simpa using hne) _ _ h.1 h.2.1 h.2.2
  · exact h

/-- **C187**, structured grids, the area criterion alone: with a larger `area_filter_quartile` or a larger `area_filter_absolute` on the same record —
and any other tracking options — the run succeeds iff it did, and no event cell is added. -/
theorem C187_grid_stricter_filter (cc : Labeller) (hcc : CorrectLabeller cc) {ny nx : Nat} (hnx : 0 < nx) (p p' : GridRun ny nx)
    (wrap nn wrap' nn' : Bool) (thr thr' : ℚ) (cen cen' : Frame (ny * nx) → Nat → ℚ × ℚ) (hp : p.track = gridCfg wrap nn ny nx thr cen)
    (hp' : p'.track = gridCfg wrap' nn' ny nx thr' cen') (hreg : p'.regional = p.regional) (hmask : p'.mask = p.mask)
    (hR : p'.R = p.R) (hT : p'.T = p.T) (hc : NoLooser p.criterion p'.criterion) (chunks chunks' : List Nat) (data : List (Fin (ny * nx) → Bool)) :
    ((∃ e, runGrid cc p chunks data = .error e) ↔ ∃ e, runGrid cc p' chunks' data = .error e) ∧
    ∀ pre ids pre' ids', runGrid cc p chunks data = .ok (pre, ids) → runGrid cc p' chunks' data = .ok (pre', ids') → EventsWithin ids' ids := by
  have hfill : fillStagesGrid p' data = fillStagesGrid p data := by unfold fillStagesGrid; rw [hreg, hmask, hR, hT]
  have herr : ∀ (q : GridRun ny nx) ch, (∃ e, runGrid cc q ch data = .error e) ↔
      objectTable (identifyObjectsGrid cc false q.regional nx (fillStagesGrid q data)) = [] := by
    intro q ch
    unfold runGrid preprocessGrid filterGrid
    dsimp only
    split
    · rename_i e he
      split at he
      · rename_i h0; exact ⟨fun _ => List.length_eq_zero_iff.mp h0, fun _ => ⟨e, rfl⟩⟩
      · cases he
    · rename_i r hr
      split at hr
      · cases hr
      · rename_i h0
        exact ⟨fun ⟨e, he⟩ => (by cases he), fun h => absurd (by rw [h]; rfl) h0⟩
  refine ⟨by rw [herr, herr, hfill, hreg], ?_⟩
  intro pre ids pre' ids' h h' t g' g hg' hg i hi
  obtain ⟨hl1, hl2, hs⟩ := C65_grid_run cc hcc hnx p wrap nn thr cen hp chunks data pre ids h
  obtain ⟨_, hl2', hs'⟩ := C65_grid_run cc hcc hnx p' wrap' nn' thr' cen' hp' chunks' data pre' ids' h'
  obtain ⟨r, hr, rfl⟩ := runGrid_parts h
  obtain ⟨r', hr', rfl⟩ := runGrid_parts h'
  unfold preprocessGrid at hr hr'
  rw [hreg, hfill] at hr'
  set labels := identifyObjectsGrid cc false p.regional nx (fillStagesGrid p data) with hlab
  have hu : UniqueLabels labels := by
    intro t t' f f' hf hf' i j h0 he
    exact ((C63_grid_objects_are_components cc hcc p.regional nx hnx (fillStagesGrid p data) t t' f f' hf hf' i j).2.mp ⟨h0, he⟩).1
  rw [(hs t g hg i).1]
  obtain ⟨d, hd1, hd2⟩ := ((hs' t g' hg' i).1).mp hi
  have ht : t < labels.length := by
    have := (List.getElem?_eq_some_iff.mp hd1).1
    rwa [(filterGrid_sub hr').1] at this
  obtain ⟨k, hk, hki⟩ := C07_keeps_exactly_large_partial labels hu _ r hr t _ (List.getElem?_eq_getElem ht)
  obtain ⟨k', hk', hki'⟩ := C07_keeps_exactly_large_partial labels hu _ r' hr' t _ (List.getElem?_eq_getElem ht)
  rw [hk'] at hd1
  cases hd1
  obtain ⟨h1, h2, h3⟩ := (hki' i).mp hd2
  refine ⟨k, hk, (hki i).mpr ⟨h1, le_trans ?_ h2, h3⟩⟩
  unfold filterGrid at hr hr'
  dsimp only at hr hr'
  split at hr
  · cases hr
  rename_i hne
  rw [if_neg hne] at hr'
  cases hr
  cases hr'
  exact areaThreshold_le hc _ (fun he => hne (by simpa using he))

/-- **C187**, meshes, the area criterion alone: the area filter refuses both runs or neither, and no event cell is added. -/
theorem C187_mesh_stricter_filter (cc : Labeller) (hcc : CorrectLabeller cc) (p p' : MeshRun n) (hn : p'.nbr = p.nbr) (hmask : p'.mask = p.mask)
    (hR : p'.R = p.R) (hT : p'.T = p.T) (hc : NoLooser p.criterion p'.criterion) (htc : 0 < p.track.timechunks) (htc' : 0 < p'.track.timechunks)
    (data : List (Fin n → Bool)) :
    ((∃ e, runMesh cc p data = .error (.filter e)) ↔ ∃ e, runMesh cc p' data = .error (.filter e)) ∧
    ∀ pre ids pre' ids', runMesh cc p data = .ok (pre, ids) → runMesh cc p' data = .ok (pre', ids') → EventsWithin ids' ids := by
  have hsz : prefilterSize p'.criterion = prefilterSize p.criterion := by
    revert hc
    cases p.criterion <;> cases p'.criterion <;> simp [NoLooser, prefilterSize]
  set fs := fillTimeGaps (fillHolesMesh (dilationRow p.nbr) p.mask) p.T p.R (data.map (fillHolesMesh (dilationRow p.nbr) p.mask p.R)) with hfs
  set labels := fs.map (identifyObjectsMesh cc p.nbr p.mask) with hlabels
  have hpre : preprocessMesh cc p data = filterMesh p.criterion labels := rfl
  have hpre' : preprocessMesh cc p' data = filterMesh p'.criterion labels := by unfold preprocessMesh; rw [hn, hmask, hR, hT]
  have herr : ∀ q : MeshRun n, preprocessMesh cc q data = filterMesh q.criterion labels → ((∃ e, runMesh cc q data = .error (.filter e)) ↔
      ((objectTable labels).map (·.2)).filter (fun s : Nat => decide (prefilterSize q.criterion < s)) = []) := by
    intro q hq
    unfold runMesh
    rw [hq]
    unfold filterMesh
    dsimp only
    split
    · rename_i e he
      split at he
      · rename_i h0; exact ⟨fun _ => List.length_eq_zero_iff.mp h0, fun _ => ⟨e, rfl⟩⟩
      · cases he
    · rename_i r hr
      split at hr
      · cases hr
      · rename_i h0
        refine ⟨fun ⟨e, he⟩ => ?_, fun h => absurd (by rw [h]; rfl) h0⟩
        split at he <;> cases he
  refine ⟨by rw [herr p hpre, herr p' hpre', hsz], ?_⟩
  intro pre ids pre' ids' h h' t g' g hg' hg i hi
  obtain ⟨_, _, hs⟩ := C65_mesh_run cc hcc p htc data pre ids h
  obtain ⟨_, _, hs'⟩ := C65_mesh_run cc hcc p' htc' data pre' ids' h'
  obtain ⟨r, hr, rfl⟩ := runMesh_parts h
  obtain ⟨r', hr', rfl⟩ := runMesh_parts h'
  rw [hpre] at hr
  rw [hpre'] at hr'
  rw [(hs t g hg i).1]
  obtain ⟨d, hd1, hd2⟩ := ((hs' t g' hg' i).1).mp hi
  have ht : t < labels.length := by
    have := (List.getElem?_eq_some_iff.mp hd1).1
    rwa [(filterMesh_sub hr').1] at this
  obtain ⟨k, hk, hki⟩ := C08_keeps_exactly_larger labels _ r hr t _ (List.getElem?_eq_getElem ht)
  obtain ⟨k', hk', hki'⟩ := C08_keeps_exactly_larger labels _ r' hr' t _ (List.getElem?_eq_getElem ht)
  rw [hk'] at hd1
  cases hd1
  obtain ⟨h1, h2⟩ := (hki' i).mp hd2
  refine ⟨k, hk, (hki i).mpr ⟨h1, lt_of_le_of_lt ?_ h2⟩⟩
  unfold filterMesh at hr hr'
  dsimp only at hr hr'
  rw [hsz] at hr'
  split at hr
  · cases hr
  rename_i hne
  rw [if_neg hne] at hr'
  cases hr
  cases hr'
  exact areaThreshold_le hc _ (fun he => hne (by rw [he]; rfl))

-- both kinds of criterion
example : NoLooser (.quartile (1 / 2)) (.quartile (3 / 4)) ∧ NoLooser (.absolute 1) (.absolute 2) := by
  unfold NoLooser; norm_num

-- two runs on the line: with the larger threshold the objects of two cells are gone
example : (match runMesh quickFind (lineRun true) lineData, runMesh quickFind { lineRun true with criterion := .absolute 2 } lineData with
    | .ok (_, ids), .ok (_, ids') => (ids.map fun g => (List.finRange 14).countP fun i => 0 < g i, ids'.map fun g => (List.finRange 14).countP fun i => 0 < g i)
    | _, _ => ([], [])) = ([7, 5, 2], [7, 3, 0]) := by decide +kernel

/-! ### Where it fails -/

theorem closeTimeGaps_single (T : Nat) (hT : T % 2 = 0) (f : Fin n → Bool) : closeTimeGaps T [f] = [f] := by
  obtain ⟨hl, hx⟩ := C01_time_gaps_filled_exactly T hT [f]
  match hc : closeTimeGaps T [f], hl with
  | [g], _ =>
    congr 1
    funext i
    have := hx 0 i
    rw [hc] at this
    have hgap : ¬ InGap [f] T 0 i := by rintro ⟨a, _, ha, _⟩; omega
    simp only [ExtremeAt, List.getElem?_cons_zero, Option.some.injEq, exists_eq_left', hgap, or_false] at this
    rw [Bool.eq_iff_iff]
    exact this

/-- A sea of two channels, one cell wide and three cells apart, around a globe of 9 × 1 cells. -/
def channels : Fin (9 * 1) → Bool := fun i => decide (i.val = 2 ∨ i.val = 6)

/-- A global run on the channels with `R_fill = 2`, without merging. -/
def channelRun (T : Nat) : GridRun 9 1 :=
  { regional := false, mask := channels, R := 2, T := T, criterion := .absolute 1, allowMerging := false
    track := gridCfg true true 9 1 (1 / 2) (fun _ _ => (0, 0)) }

set_option maxRecDepth 100000 in
/-- **C187 fails** on structured grids for `T_fill` from 0 to any positive even number: filling time gaps also fills holes a second time, with half the
radius, and that opening removes cells that the first one kept.  On the channels, every ocean cell extreme for one step, a run with `T_fill = 0`
finds an event, and with any positive `T_fill` it is refused: nothing is left of the data. -/
theorem C187_first_T_fill_fails (T : Nat) (h0 : 0 < T) (hT : T % 2 = 0) :
    (match runGrid quickFind (channelRun 0) [1] [channels] with
      | .ok (_, [g]) => decide (0 < g 6)
      | _ => false) = true ∧
    runGrid quickFind (channelRun T) [1] [channels] = .error .noObjects := by
  have hA : fillFrameGrid false 9 1 channels 2 channels = channels := by funext i; revert i; decide +kernel
  have hB : fillFrameGrid false 9 1 channels (2 / 2) channels = fun _ => false := by funext i; revert i; decide +kernel
  constructor
  · have key : fillStagesGrid (channelRun 0) [channels] = [channels] := by
      unfold fillStagesGrid fillTimeGaps
      rw [if_pos (show (channelRun 0).T = 0 from rfl)]
      exact congrArg (fun f => [f]) hA
    unfold runGrid preprocessGrid
    rw [key]
    decide +kernel
  · have key : fillStagesGrid (channelRun T) [channels] = [fun _ => false] := by
      unfold fillStagesGrid fillTimeGaps
      rw [if_neg (show ¬ (channelRun T).T = 0 from by show ¬ T = 0; omega), List.map_singleton]
      show (closeTimeGaps T [fillFrameGrid false 9 1 channels 2 channels]).map (fillFrameGrid false 9 1 channels (2 / 2)) = _
      rw [hA, closeTimeGaps_single T hT, List.map_singleton, hB]
    have h2 : preprocessGrid quickFind (channelRun T) [channels] = .error .noObjects := by
      unfold preprocessGrid
      rw [key]
      rfl
    unfold runGrid
    rw [h2]

/-- Two extreme cells, not touching, at one step of a map of 1 × 5 cells. -/
def apart : List (Fin (1 * 5) → Bool) := [fun i => decide (i.val = 0 ∨ i.val = 3)]

/-- The same with the cells between them. -/
def joined : List (Fin (1 * 5) → Bool) := [fun i => decide (i.val ≤ 3)]

/-- A run on a regional map of 1 × 5 cells, without filling and merging. -/
def cellsRun (c : AreaCriterion) : GridRun 1 5 :=
  { regional := true, mask := fun _ => true, R := 0, T := 0, criterion := c, allowMerging := false
    track := gridCfg false true 1 5 (1 / 2) (fun _ _ => (0, 0)) }

theorem apart_joined : MoreExtremes apart joined := by
  refine ⟨rfl, fun t i => ?_⟩
  match t with
  | 0 => rintro ⟨d, hd, he⟩; cases hd; exact ⟨_, rfl, by revert he; revert i; decide⟩
  | t + 1 => rintro ⟨d, hd, _⟩; cases hd

/-- **C187 fails** on structured grids: with `area_filter_absolute = 1`, cell 3 belongs to an event; with more extreme cells, which join it to the first
object of the record, it does not, and there is no event left. -/
theorem C187_first_object_fails : MoreExtremes apart joined ∧
    (match runGrid quickFind (cellsRun (.absolute 1)) [1] apart, runGrid quickFind (cellsRun (.absolute 1)) [1] joined with
      | .ok (_, [g]), .ok (_, [g']) => decide (0 < g 3 ∧ ∀ i, g' i = 0)
      | _, _ => false) = true :=
  ⟨apart_joined, by decide +kernel⟩

/-- One cell extreme at the first two of four steps. -/
def fewSmall : List (Fin (1 * 5) → Bool) := [fun i => decide (i.val = 0), fun i => decide (i.val = 0), fun _ => false, fun _ => false]

/-- The same with three extreme cells at the last two steps. -/
def laterLarge : List (Fin (1 * 5) → Bool) :=
  [fun i => decide (i.val = 0), fun i => decide (i.val = 0), fun i => decide (i.val ≤ 2), fun i => decide (i.val ≤ 2)]

theorem fewSmall_laterLarge : MoreExtremes fewSmall laterLarge := by
  refine ⟨rfl, fun t i => ?_⟩
  match t with
  | 0 | 1 | 2 | 3 => rintro ⟨d, hd, he⟩; cases hd; exact ⟨_, rfl, by revert he; revert i; decide⟩
  | t + 4 => rintro ⟨d, hd, _⟩; cases hd

theorem filterGrid_quartile (q a : ℚ) (labels : List (Fin n → Nat)) (h : percentile (((objectTable labels).map (·.2)).map fun (s : Nat) => (s : ℚ)) q = a) :
    filterGrid (.quartile q) labels = filterGrid (.absolute a) labels := by
  unfold filterGrid areaThreshold
  dsimp only
  rw [h]

theorem runGrid_quartile (q a : ℚ) (ch : List Nat) (data : List (Fin (1 * 5) → Bool)) (sizes : List Nat)
    (hs : (objectTable (identifyObjectsGrid quickFind false true 5 (fillStagesGrid (cellsRun (.absolute a)) data))).map (·.2) = sizes)
    (h : percentile (sizes.map fun (s : Nat) => (s : ℚ)) q = a) :
    runGrid quickFind (cellsRun (.quartile q)) ch data = runGrid quickFind (cellsRun (.absolute a)) ch data := by
  have : preprocessGrid quickFind (cellsRun (.quartile q)) data = preprocessGrid quickFind (cellsRun (.absolute a)) data := by
    unfold preprocessGrid
    exact filterGrid_quartile q a _ (by rw [← hs] at h; exact h)
  unfold runGrid
  rw [this]
  rfl

/-- **C187 fails** with the default `area_filter_quartile = 0.5`: larger extremes appearing later in the record raise the threshold of the whole record, and the event
cell of the second step, which nothing has changed around, is an event cell no more. -/
theorem C187_quartile_fails : MoreExtremes fewSmall laterLarge ∧
    ∃ pre ids pre' ids' g g', runGrid quickFind (cellsRun (.quartile (1 / 2))) [4] fewSmall = .ok (pre, ids) ∧
      runGrid quickFind (cellsRun (.quartile (1 / 2))) [4] laterLarge = .ok (pre', ids') ∧ ids[1]? = some g ∧ ids'[1]? = some g' ∧ 0 < g 0 ∧ g' 0 = 0 := by
  refine ⟨fewSmall_laterLarge, ?_⟩
  have e1 : runGrid quickFind (cellsRun (.quartile (1 / 2))) [4] fewSmall = runGrid quickFind (cellsRun (.absolute 1)) [4] fewSmall :=
    runGrid_quartile _ _ _ _ [1, 1] (by decide +kernel) (by
      unfold percentile
      rw [List.mergeSort_of_pairwise (by decide +kernel)]
      decide +kernel)
  have e2 : runGrid quickFind (cellsRun (.quartile (1 / 2))) [4] laterLarge = runGrid quickFind (cellsRun (.absolute 2)) [4] laterLarge :=
    runGrid_quartile _ _ _ _ [1, 1, 3, 3] (by decide +kernel) (by
      unfold percentile
      rw [List.mergeSort_of_pairwise (by decide +kernel)]
      decide +kernel)
  have h1 : (match runGrid quickFind (cellsRun (.absolute 1)) [4] fewSmall with
    | .ok (_, [_, g, _, _]) => decide (0 < g 0) | _ => false) = true := by decide +kernel
  have h2 : (match runGrid quickFind (cellsRun (.absolute 2)) [4] laterLarge with
    | .ok (_, [_, g, _, _]) => decide (g 0 = 0) | _ => false) = true := by decide +kernel
  rw [e1, e2]
  split at h1
  · rename_i pre a g b c hr
    split at h2
    · rename_i pre' a' g' b' c' hr'
      exact ⟨_, _, _, _, g, g', hr, hr', rfl, rfl, of_decide_eq_true h1, of_decide_eq_true h2⟩
    · cases h2
  · cases h1

/-! ### The percentile, from raw data to events -/

/-- The flags handed to the tracker when the percentile is raised. -/
theorem raise_percentile {gridded : Bool} {fit : List Nat → Bool → List ℚ → Nat → ℚ} {A : AnomParams} {P : ExtParams} {ny nx : Nat}
    {raw : Nat → Nat → List Sample} {pc : ℚ} (hpc : P.percentile ≤ pc) (h100 : pc ≤ 100)
    (hbins : P.methodPercentile = "approximate" → 0 < P.precision ∧ P.precision < P.maxAnomaly)
    (hlen : P.methodPercentile = "approximate" → P.methodExtreme = "global_extreme" → ∀ y x, (raw y x).length ≤ 1000000000)
    {out : PrepOut} (h : preprocessData gridded fit A P ny nx raw = .ok out) :
    ∃ out', preprocessData gridded fit A { P with percentile := pc } ny nx raw = .ok out' ∧ out'.mask = out.mask ∧ out'.anomalies = out.anomalies ∧
      MoreExtremes (eventFrames ny nx out'.ext) (eventFrames ny nx out.ext) := by
  have hext := preprocessData_ext h
  have h1 := h
  unfold preprocessData at h1
  split at h1
  · cases h1
  rename_i hv
  split at h1
  · cases h1
  rename_i m hm
  obtain ⟨out', ho, hmask, hanom, hsub⟩ := C183_preprocess gridded m P ny nx raw pc hpc h100 hbins hlen out h1
  have h2 : preprocessData gridded fit A { P with percentile := pc } ny nx raw = .ok out' := by
    unfold preprocessData
    rw [hv, hm]
    exact ho
  have hl : (out'.ext.extremes 0 0).length = (out.ext.extremes 0 0).length := by
    rw [(identify_exceeds hext 0 0).1, (identify_exceeds (preprocessData_ext h2) 0 0).1, hanom]
  refine ⟨out', h2, hmask, hanom, by rw [length_eventFrames, length_eventFrames, hl], fun t i => ?_⟩
  rw [isExtreme_eventFrames, isExtreme_eventFrames, hl]
  exact fun ⟨a, b⟩ => ⟨a, hsub _ _ t b⟩

/-- **C188**, meshes with `area_filter_absolute`: raising `threshold_percentile` in `preprocess_data` and running the tracker on its output with the same
arguments adds no event cell: every cell that carries an event with the larger percentile carries one with the smaller. -/
theorem C188_mesh_workflow (cc : Labeller) (hcc : CorrectLabeller cc) (fit : List Nat → Bool → List ℚ → Nat → ℚ) (A : AnomParams)
    (P : ExtParams) (p : MeshRun (1 * n)) (htc : 0 < p.track.timechunks) (hT : p.T % 2 = 0) (a : ℚ) (hc : p.criterion = .absolute a)
    (raw : Nat → Nat → List Sample) (pc : ℚ) (hpc : P.percentile ≤ pc) (h100 : pc ≤ 100)
    (hbins : P.methodPercentile = "approximate" → 0 < P.precision ∧ P.precision < P.maxAnomaly)
    (hlen : P.methodPercentile = "approximate" → P.methodExtreme = "global_extreme" → ∀ y x, (raw y x).length ≤ 1000000000)
    (w w' : FlowOut (1 * n)) (h : workflowMesh cc fit A P p raw = .ok w) (h' : workflowMesh cc fit A { P with percentile := pc } p raw = .ok w') :
    w'.prep.mask = w.prep.mask ∧ w'.prep.anomalies = w.prep.anomalies ∧ w'.ids.length = w.ids.length ∧ EventsWithin w'.ids w.ids := by
  unfold workflowMesh at h
  split at h
  · cases h
  rename_i out hout
  split at h
  · cases h
  rename_i r hr
  cases h
  obtain ⟨out', hout', hm, ha, hmore⟩ := raise_percentile hpc h100 hbins hlen hout
  unfold workflowMesh at h'
  rw [hout'] at h'
  dsimp only at h'
  split at h'
  · cases h'
  rename_i r' hr'
  cases h'
  dsimp only
  have l1 := (C65_mesh_run cc hcc { p with mask := maskFrame 1 n out.mask } htc _ r.1 r.2 hr).2.1
  have l2 := (C65_mesh_run cc hcc { p with mask := maskFrame 1 n out'.mask } htc _ r'.1 r'.2 hr').2.1
  refine ⟨hm, ha, by rw [l1, l2, hmore.1], ?_⟩
  exact (C187_mesh_absolute cc hcc { p with mask := maskFrame 1 n out'.mask } { p with mask := maskFrame 1 n out.mask } rfl (by rw [hm]) rfl hT hT
    (le_refl _) (fun h => Or.inl h) a a hc hc (le_refl _) htc htc _ _ hmore).2 r'.1 r'.2 r.1 r.2 hr' hr

/-- **C188**, structured grids with `area_filter_absolute`: if the workflow succeeds with the larger percentile and the data pass with the smaller one, the workflow succeeds
with the smaller one too, and from the step after its first event on it has every event cell of the run with the larger one.  Missing: the steps up to
that first event, where the lost first object (C07) may be a larger one with the smaller percentile. -/
theorem C188_grid_workflow_partial (cc : Labeller) (hcc : CorrectLabeller cc) {ny nx : Nat} (hnx : 0 < nx) (fit : List Nat → Bool → List ℚ → Nat → ℚ)
    (A : AnomParams) (P : ExtParams) (p : GridRun ny nx) (wrap nn : Bool) (thr : ℚ) (cen : Frame (ny * nx) → Nat → ℚ × ℚ)
    (hp : p.track = gridCfg wrap nn ny nx thr cen) (hT : p.T % 2 = 0) (a : ℚ) (hc : p.criterion = .absolute a) (chunks chunks' : List Nat)
    (raw : Nat → Nat → List Sample) (pc : ℚ) (hpc : P.percentile ≤ pc) (h100 : pc ≤ 100)
    (hbins : P.methodPercentile = "approximate" → 0 < P.precision ∧ P.precision < P.maxAnomaly)
    (hlen : P.methodPercentile = "approximate" → P.methodExtreme = "global_extreme" → ∀ y x, (raw y x).length ≤ 1000000000)
    (out : PrepOut) (hout : preprocessData true fit A P ny nx raw = .ok out)
    (w' : FlowOut (ny * nx)) (h' : workflowGrid cc fit A { P with percentile := pc } p chunks' raw = .ok w') :
    ∃ w, workflowGrid cc fit A P p chunks raw = .ok w ∧ w'.prep.mask = w.prep.mask ∧ w'.prep.anomalies = w.prep.anomalies ∧
      ∀ (t : Nat) (g g' : Frame (ny * nx)), w.ids[t]? = some g → w'.ids[t]? = some g' →
        (∃ (s : Nat) (g₀ : Frame (ny * nx)) (j : Fin (ny * nx)), s < t ∧ w.ids[s]? = some g₀ ∧ 0 < g₀ j) → ∀ i, 0 < g' i → 0 < g i := by
  obtain ⟨out', hout', hm, ha, hmore⟩ := raise_percentile hpc h100 hbins hlen hout
  unfold workflowGrid at h'
  rw [hout'] at h'
  dsimp only at h'
  split at h'
  · cases h'
  rename_i r' hr'
  cases h'
  obtain ⟨pre, ids, hrun, hev⟩ := C187_grid_absolute_partial cc hcc hnx { p with mask := maskFrame ny nx out'.mask } { p with mask := maskFrame ny nx out.mask }
    wrap nn wrap nn thr thr cen cen hp hp rfl (by rw [hm]) rfl hT hT (le_refl _) (fun h => Or.inl h) a a hc hc (le_refl _) chunks' chunks _ _ hmore r'.1 r'.2 hr'
  refine ⟨⟨out, pre, ids⟩, ?_, hm, ha, fun t g g' hg hg' => hev t g' g hg' hg⟩
  unfold workflowGrid
  rw [hout]
  dsimp only
  rw [hrun]

-- the hypotheses of `C188_mesh_workflow` are met at the 70th and the 80th percentile
example : (match workflowMesh (n := 7) quickFind (fun _ _ _ _ => 0) ⟨"fixed_baseline", 15, 21, none⟩ { flowExt with percentile := 70 } meshFlow meshRaw,
      workflowMesh (n := 7) quickFind (fun _ _ _ _ => 0) ⟨"fixed_baseline", 15, 21, none⟩ flowExt meshFlow meshRaw with
    | .ok w, .ok w' => (w.ids.map fun g => (List.finRange (1 * 7)).countP fun i => 0 < g i, w'.ids.map fun g => (List.finRange (1 * 7)).countP fun i => 0 < g i)
    | _, _ => ([], [])) = ([0, 6], [0, 6]) ∧ (70 : ℚ) ≤ flowExt.percentile := ⟨by decide +kernel, by decide +kernel⟩

/-- Six years of one day on a 1 × 4 grid: cells 0 and 2 are hot in the first year, cell 1 is warm then and hot in the fourth; cell 3 is land. -/
def warmRaw : Nat → Nat → List Sample := fun _ x => (List.range 6).map fun k => ⟨2000 + k, 1,
  if x = 3 then none else if x = 1 ∧ k = 0 then some 4 else if x = 1 ∧ k = 3 then some 7 else if x ≠ 1 ∧ k = 0 then some 6 else some 0⟩

/-- The percentile of the whole record, from bins of one unit. -/
def warmExt (pc : ℚ) : ExtParams := ⟨"global_extreme", pc, some 11, none, "approximate", 1, 8⟩

/-- **C188 fails** on structured grids: cell 2 belongs to an event of the first year at the 75th percentile, but not at the 60th, where the warm cell joins it to the
first object of the record. -/
theorem C188_lower_percentile_fails :
    (match workflowGrid quickFind (fun _ _ _ _ => 0) ⟨"fixed_baseline", 15, 21, none⟩ (warmExt 60) (flowRun 1 4) [3, 3] warmRaw,
        workflowGrid quickFind (fun _ _ _ _ => 0) ⟨"fixed_baseline", 15, 21, none⟩ (warmExt 75) (flowRun 1 4) [3, 3] warmRaw with
      | .ok w, .ok w' => (w.ids.map fun g => (List.finRange (1 * 4)).map g, w'.ids.map fun g => (List.finRange (1 * 4)).map g)
      | _, _ => ([], [])) =
    ([[0, 0, 0, 0], [0, 0, 0, 0], [0, 0, 0, 0], [0, 1, 0, 0], [0, 0, 0, 0], [0, 0, 0, 0]],
     [[0, 0, 1, 0], [0, 0, 0, 0], [0, 0, 0, 0], [0, 2, 0, 0], [0, 0, 0, 0], [0, 0, 0, 0]]) := by decide +kernel

end MarEx.Props
