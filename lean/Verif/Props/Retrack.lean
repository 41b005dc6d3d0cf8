import Verif.Props.Workflow
import Verif.Props.LeftOut
/-! C210, C211: the events of a run can be found again from its `ID_field`. -/
namespace MarEx.Spec

/-- The record `ID_field > 0`: a cell is extreme at a step iff it belongs to an event then. -/
def eventRecord {n : Nat} (ids : List (Fin n → Nat)) : List (Fin n → Bool) := ids.map fun f i => decide (0 < f i)

end MarEx.Spec

namespace MarEx.Props
open MarEx MarEx.Spec

variable {n : Nat}

theorem isExtreme_iff_of_get {pre : List (Fin n → Bool)} {t : Nat} {d : Fin n → Bool} (hd : pre[t]? = some d) (i : Fin n) :
    IsExtreme pre t i ↔ d i = true := by
  unfold IsExtreme
  rw [hd]
  exact ⟨fun ⟨e, h1, h2⟩ => by cases h1; exact h2, fun h => ⟨d, rfl, h⟩⟩

theorem record_ext {a b : List (Fin n → Bool)} (hl : a.length = b.length) (h : ∀ t i, IsExtreme a t i ↔ IsExtreme b t i) : a = b := by
  refine List.ext_getElem hl fun t h1 h2 => ?_
  funext i
  have := h t i
  rw [isExtreme_iff_of_get (List.getElem?_eq_getElem h1), isExtreme_iff_of_get (List.getElem?_eq_getElem h2)] at this
  rw [Bool.eq_iff_iff]
  exact this

theorem eventRecord_eq {ids : List (Frame n)} {pre : List (Fin n → Bool)} (hl : ids.length = pre.length)
    (h : ∀ (t : Nat) (g : Frame n), ids[t]? = some g → ∀ i, 0 < g i ↔ IsExtreme pre t i) : eventRecord ids = pre := by
  refine record_ext (by rw [eventRecord, List.length_map, hl]) fun t i => ?_
  by_cases ht : t < ids.length
  · have hg := List.getElem?_eq_getElem ht
    rw [isExtreme_iff_of_get (d := fun i => decide (0 < ids[t] i)) (by rw [eventRecord, List.getElem?_map, hg]; rfl), decide_eq_true_eq]
    exact h t _ hg i
  · unfold IsExtreme eventRecord
    rw [List.getElem?_eq_none (by rw [List.length_map]; omega), List.getElem?_eq_none (by omega)]

/-- On a mesh, the object fields of a record of ocean cells, without filling, number its clusters. -/
theorem numbers_mesh (cc : Labeller) (hcc : CorrectLabeller cc) (nbr : NbrTable n) (mask : Fin n → Bool) (pre : List (Fin n → Bool))
    (F : (Fin n → Bool) → Fin n → Bool) (hF : ∀ d ∈ pre, ∀ i, (mask i = true ∧ F d i = true) ↔ d i = true) :
    Numbers (ListsNeighbour nbr) (IsExtreme pre) (pre.map (identifyObjectsMesh cc nbr mask ∘ F)) := by
  intro t f hf i j
  rw [List.getElem?_map] at hf
  obtain ⟨d, hd, rfl⟩ := Option.map_eq_some_iff.mp hf
  have hot : ∀ k, (mask k = true ∧ F d k = true) ↔ IsExtreme pre t k := by
    intro k
    rw [isExtreme_iff_of_get hd]
    exact hF d (List.mem_of_getElem? hd) k
  have hpos : ∀ k, 0 < identifyObjectsMesh cc nbr mask (F d) k ↔ IsExtreme pre t k := by
    intro k
    have := C10_background_zero cc nbr mask (F d) k
    rw [hot k] at this
    rw [Nat.pos_iff_ne_zero, Ne, this, not_not]
  refine ⟨hpos i, ?_⟩
  have hlk := linked_touching (touch := ListsNeighbour nbr) (hot := IsExtreme pre) (t := t) (E := JoinedCells nbr mask (F d)) (by
    intro a b
    unfold JoinedCells
    rw [hot a, hot b]) i j
  constructor
  · rintro ⟨h0, he⟩
    have hi := (hpos i).mp h0
    have hj := (hpos j).mp (by rw [← show identifyObjectsMesh cc nbr mask (F d) i = identifyObjectsMesh cc nbr mask (F d) j from he]; exact h0)
    exact ⟨hi, hj, hlk.mp ((C10_same_object_iff_connected cc hcc _ _ _ i j ((hot i).mpr hi) ((hot j).mpr hj)).mp he)⟩
  · rintro ⟨hi, hj, hL⟩
    exact ⟨(hpos i).mpr hi, (C10_same_object_iff_connected cc hcc _ _ _ i j ((hot i).mpr hi) ((hot j).mpr hj)).mpr (hlk.mpr hL)⟩

/-- Preprocessing a record of ocean cells on a mesh without filling. -/
theorem preprocessMesh_none (cc : Labeller) (p : MeshRun n) (c : AreaCriterion) (pre : List (Fin n → Bool)) :
    preprocessMesh cc { p with R := 0, T := 0, criterion := c } pre =
      filterMesh c (pre.map (identifyObjectsMesh cc p.nbr p.mask ∘ fillHolesMesh (dilationRow p.nbr) p.mask 0)) := by
  unfold preprocessMesh
  rw [(C01_zero_is_identity _ _ _).2, List.map_map]

theorem fill_zero_ocean (p : MeshRun n) {pre : List (Fin n → Bool)} (hm : ∀ t i, IsExtreme pre t i → p.mask i = true) :
    ∀ d ∈ pre, ∀ i, (p.mask i = true ∧ fillHolesMesh (dilationRow p.nbr) p.mask 0 d i = true) ↔ d i = true := by
  intro d hd i
  obtain ⟨t, ht⟩ := List.getElem?_of_mem hd
  constructor
  · rintro ⟨h1, h2⟩
    rwa [C04_radius_zero _ _ _ _ h1] at h2
  · intro h
    have := hm t i ((isExtreme_iff_of_get ht i).mpr h)
    exact ⟨this, by rwa [C04_radius_zero _ _ _ _ this]⟩

theorem mesh_ocean {cc : Labeller} (hcc : CorrectLabeller cc) {p : MeshRun n} (htc : 0 < p.track.timechunks)
    {data pre : List (Fin n → Bool)} {ids : List (Frame n)} (h : runMesh cc p data = .ok (pre, ids)) :
    eventRecord ids = pre ∧ ∀ t i, IsExtreme pre t i → p.mask i = true := by
  obtain ⟨h1, h2, h3⟩ := C65_mesh_run cc hcc p htc data pre ids h
  refine ⟨eventRecord_eq (h2.trans h1.symm) fun t g hg i => (h3 t g hg i).1, fun t i ht => ?_⟩
  have hlt : t < ids.length := by
    obtain ⟨d, hd, _⟩ := ht
    rw [h2, ← h1]
    exact (List.getElem?_eq_some_iff.mp hd).1
  have := h3 t _ (List.getElem?_eq_getElem hlt) i
  exact this.2 (this.1.mpr ht)

theorem runMesh_tracking {cc : Labeller} {p : MeshRun n} {data pre : List (Fin n → Bool)} {ids : List (Frame n)}
    (h : runMesh cc p data = .ok (pre, ids)) : trackingMesh cc p pre = .ok ids := by
  unfold runMesh at h
  split at h
  · cases h
  split at h
  · cases h
  rename_i hout
  cases h
  exact hout

theorem retrack_mesh (cc : Labeller) (hcc : CorrectLabeller cc) (p : MeshRun n) (htc : 0 < p.track.timechunks) (data pre : List (Fin n → Bool))
    (ids : List (Frame n)) (h : runMesh cc p data = .ok (pre, ids)) (a : ℚ)
    (ha : ∀ t i, IsExtreme (eventRecord ids) t i → a < (clusterSize (ListsNeighbour p.nbr) (IsExtreme (eventRecord ids)) t i : ℚ))
    (hbig : ∃ t i, IsExtreme (eventRecord ids) t i ∧ 5 < clusterSize (ListsNeighbour p.nbr) (IsExtreme (eventRecord ids)) t i) :
    runMesh cc { p with R := 0, T := 0, criterion := .absolute a } (eventRecord ids) = .ok (eventRecord ids, ids) := by
  obtain ⟨he, hm⟩ := mesh_ocean hcc htc h
  have htr := runMesh_tracking h
  rw [he] at ha hbig ⊢
  have hnum := numbers_mesh cc hcc p.nbr p.mask pre _ (fill_zero_ocean p hm)
  have hpre := preprocessMesh_none cc p (.absolute a) pre
  set labels := pre.map (identifyObjectsMesh cc p.nbr p.mask ∘ fillHolesMesh (dilationRow p.nbr) p.mask 0) with hlabels
  have hll : labels.length = pre.length := by rw [hlabels, List.length_map]
  have hok : ∃ r, filterMesh (.absolute a) labels = .ok r := by
    cases hr : filterMesh (.absolute a) labels with
    | ok r => exact ⟨r, rfl⟩
    | error e =>
      exfalso
      have he : e = .noObjects := by
        unfold filterMesh at hr
        dsimp only at hr
        split at hr
        · cases hr; rfl
        · cases hr
      subst he
      have := (C08_threshold labels (.absolute a) 5 rfl).1.mp hr
      obtain ⟨t, i, h1, h2⟩ := hbig
      have hlt : t < labels.length := by
        obtain ⟨d, hd, _⟩ := h1
        rw [hll]
        exact (List.getElem?_eq_some_iff.mp hd).1
      have hf := List.getElem?_eq_getElem hlt
      rw [clusterSize_eq_size (hnum t _ hf) i h1] at h2
      have := this _ (List.mem_of_getElem? hf) i ((hnum t _ hf i i).1.mpr h1)
      omega
  obtain ⟨r, hr⟩ := hok
  have hthr : r.threshold = a := ((C08_threshold labels (.absolute a) 5 rfl).2 r hr).1
  have hfield : r.field = pre := by
    refine record_ext ((filterMesh_sub hr).1.trans hll) fun t i => ?_
    by_cases hlt : t < labels.length
    · have hf := List.getElem?_eq_getElem hlt
      obtain ⟨g, hg, hk⟩ := C08_keeps_exactly_larger labels _ r hr t _ hf
      rw [isExtreme_iff_of_get hg, hk i, hthr, (hnum t _ hf i i).1]
      constructor
      · exact fun h => h.1
      · intro h1
        refine ⟨h1, ?_⟩
        rw [← clusterSize_eq_size (hnum t _ hf) i h1]
        exact ha t i h1
    · unfold IsExtreme
      rw [List.getElem?_eq_none (by rw [(filterMesh_sub hr).1]; omega), List.getElem?_eq_none (by omega)]
  unfold runMesh
  rw [hpre, hr]
  dsimp only
  rw [hfield]
  have : trackingMesh cc { p with R := 0, T := 0, criterion := .absolute a } pre = .ok ids := htr
  rw [this]

/-- What is left of a labelled field when only some whole objects are kept has the same clusters. -/
theorem kept_clusterSize {touch : Fin n → Fin n → Prop} {hot : Nat → Fin n → Prop} {t : Nat} {f : Fin n → Nat}
    (h : ∀ i j, (0 < f i ↔ hot t i) ∧ ((0 < f i ∧ f i = f j) ↔ (hot t i ∧ hot t j ∧ Linked (TouchingHot touch hot t) i j)))
    {kept : Nat → Fin n → Prop} (hk : ∀ i, kept t i → hot t i) (hw : ∀ i j, kept t i → f i = f j → kept t j) (i : Fin n) (hi : kept t i) :
    size f (f i) ≤ clusterSize touch kept t i := by
  classical
  unfold clusterSize size
  refine Finset.card_le_card fun j hj => ?_
  simp only [Finset.mem_filter, Finset.mem_univ, true_and] at hj ⊢
  have hl := ((h i j).2.mp ⟨(h i i).1.mpr (hk i hi), hj.symm⟩).2.2
  have key : ∀ k, Linked (TouchingHot touch hot t) i k → kept t k ∧ Linked (TouchingHot touch kept t) i k := by
    intro k hlk
    have stays : ∀ k, Linked (TouchingHot touch hot t) i k → hot t k → kept t k := fun k hl hh =>
      hw i k hi ((h i k).2.mpr ⟨hk i hi, hh, hl⟩).2
    induction hlk with
    | refl => exact ⟨hi, .refl _⟩
    | fwd hab hbc ih => exact ⟨stays _ (hab.fwd hbc) hbc.2.2, ih.2.fwd ⟨hbc.1, ih.1, stays _ (hab.fwd hbc) hbc.2.2⟩⟩
    | bwd hab hbc ih => exact ⟨stays _ (hab.bwd hbc) hbc.2.1, ih.2.bwd ⟨hbc.1, stays _ (hab.bwd hbc) hbc.2.1, ih.1⟩⟩
  exact (key j hl).2

theorem quantile_ge {xs : Multiset ℚ} {q v m : ℚ} (h : IsQuantile xs q v) (hx : ∀ x ∈ xs, m ≤ x) : m ≤ v := by
  obtain ⟨s, k, r, lo, hi, hs, _, hr0, hr1, _, hlo, hhi, hv⟩ := h
  have mem : ∀ (j : Nat) (y : ℚ), s[j]? = some y → m ≤ y := fun j y hy => hx y (by rw [← hs]; exact List.mem_of_getElem? hy)
  have h1 := mem k lo hlo
  rw [hv]
  rcases hhi with h2 | h2
  · have h2 := mem _ hi h2
    nlinarith
  · rw [h2]
    linarith

/-- The objects left after preprocessing on a mesh: each is larger than the area threshold, and if there is any then there is one of more than five cells. -/
theorem mesh_objects_left (cc : Labeller) (hcc : CorrectLabeller cc) (p : MeshRun n) (hq : ∀ q, p.criterion = .quartile q → 0 ≤ q ∧ q ≤ 1)
    (data pre : List (Fin n → Bool)) (ids : List (Frame n)) (h : runMesh cc p data = .ok (pre, ids)) :
    (∀ a, p.criterion = .absolute a → ∀ t i, IsExtreme pre t i → a < (clusterSize (ListsNeighbour p.nbr) (IsExtreme pre) t i : ℚ)) ∧
    (∀ q, p.criterion = .quartile q → ∀ t i, IsExtreme pre t i → 50 < clusterSize (ListsNeighbour p.nbr) (IsExtreme pre) t i) ∧
    ((∃ t i, IsExtreme pre t i) → ∃ t i, IsExtreme pre t i ∧ 5 < clusterSize (ListsNeighbour p.nbr) (IsExtreme pre) t i) := by
  unfold runMesh at h
  split at h
  · cases h
  rename_i r hr
  split at h
  · cases h
  cases h
  unfold preprocessMesh at hr
  set filled := fillTimeGaps (fillHolesMesh (dilationRow p.nbr) p.mask) p.T p.R (data.map (fillHolesMesh (dilationRow p.nbr) p.mask p.R)) with hfd
  -- the ocean part of the filled record
  have hnum := numbers_mesh cc hcc p.nbr p.mask (filled.map fun d i => p.mask i && d i) id (by
    intro d hd i
    obtain ⟨e, _, rfl⟩ := List.mem_map.mp hd
    simp)
  have hlab : (filled.map fun d i => p.mask i && d i).map (identifyObjectsMesh cc p.nbr p.mask ∘ id) = filled.map (identifyObjectsMesh cc p.nbr p.mask) := by
    rw [List.map_map]
    refine List.map_congr_left fun d _ => ?_
    show identifyObjectsMesh cc p.nbr p.mask (fun i => p.mask i && d i) = _
    unfold identifyObjectsMesh
    funext i
    cases p.mask i <;> simp
  rw [hlab] at hnum
  set labels := filled.map (identifyObjectsMesh cc p.nbr p.mask) with hlabels
  -- an object of the labelled field above the threshold is left whole
  have whole : ∀ (t : Nat) (f : Fin n → Nat), labels[t]? = some f → ∀ i,
      (IsExtreme r.field t i ↔ 0 < f i ∧ r.threshold < (size f (f i) : ℚ)) ∧
      (IsExtreme r.field t i → size f (f i) ≤ clusterSize (ListsNeighbour p.nbr) (IsExtreme r.field) t i) := by
    intro t f hf i
    obtain ⟨g, hg, hk⟩ := C08_keeps_exactly_larger _ _ r hr t _ hf
    have hE : ∀ j, IsExtreme r.field t j ↔ g j = true := fun j => isExtreme_iff_of_get hg j
    refine ⟨by rw [hE i, hk i], fun hi => ?_⟩
    exact kept_clusterSize (hnum t _ hf) (kept := IsExtreme r.field) (fun j hj => (hnum t _ hf j j).1.mp ((hk j).mp ((hE j).mp hj)).1)
      (fun j k hj hjk => (hE k).mpr ((hk k).mpr (by rw [← hjk]; exact (hk j).mp ((hE j).mp hj)))) i hi
  have larger : ∀ t i, IsExtreme r.field t i → r.threshold < (clusterSize (ListsNeighbour p.nbr) (IsExtreme r.field) t i : ℚ) := by
    intro t i hti
    have hlt : t < labels.length := by
      obtain ⟨d, hd, _⟩ := hti
      rw [← (filterMesh_sub hr).1]
      exact (List.getElem?_eq_some_iff.mp hd).1
    have hw := whole t _ (List.getElem?_eq_getElem hlt) i
    refine lt_of_lt_of_le (hw.1.mp hti).2 ?_
    exact_mod_cast hw.2 hti
  have abs : ∀ a, p.criterion = .absolute a → r.threshold = a := by
    intro a hc
    have := ((C08_threshold _ _ 5 (by rw [hc])).2 r hr).1
    rw [hc] at this
    exact this
  have quart : ∀ q, p.criterion = .quartile q → (50 : ℚ) ≤ r.threshold := by
    intro q hc
    have := ((C08_threshold _ _ 50 (by rw [hc])).2 r hr).1
    rw [hc] at this
    refine quantile_ge (this (hq q hc).1 (hq q hc).2) fun x hx => ?_
    obtain ⟨s, hs, rfl⟩ := Multiset.mem_map.mp hx
    have := (Multiset.mem_filter.mp hs).2
    exact_mod_cast this.le
  refine ⟨fun a hc t i hti => by rw [← abs a hc]; exact larger t i hti, fun q hc t i hti => ?_, ?_⟩
  · have := lt_of_le_of_lt (quart q hc) (larger t i hti)
    exact_mod_cast this
  · rintro ⟨t, i, hti⟩
    have hl := larger t i hti
    cases hc : p.criterion with
    | quartile q =>
      refine ⟨t, i, hti, ?_⟩
      have := lt_of_le_of_lt (quart q hc) hl
      have : (5 : ℚ) < (clusterSize (ListsNeighbour p.nbr) (IsExtreme r.field) t i : ℚ) := by linarith
      exact_mod_cast this
    | absolute a =>
      by_cases ha : 5 ≤ a
      · refine ⟨t, i, hti, ?_⟩
        rw [abs a hc] at hl
        have := lt_of_le_of_lt ha hl
        exact_mod_cast this
      · have hne : ¬ filterMesh p.criterion labels = .error .noObjects := by
          rw [hr]
          exact fun h => by cases h
        rw [(C08_threshold _ _ 5 (by rw [hc])).1] at hne
        push Not at hne
        obtain ⟨f, hf, j, hj, hs⟩ := hne
        obtain ⟨u, hu⟩ := List.getElem?_of_mem hf
        have hw := whole u f hu j
        have hx := hw.1.mpr ⟨hj, by
          rw [abs a hc]
          have : (5 : ℚ) < (size f (f j) : ℚ) := by exact_mod_cast hs
          linarith⟩
        exact ⟨u, j, hx, lt_of_lt_of_le hs (hw.2 hx)⟩

/-- **C210**, meshes: take any successful run that found an event, with any filling, area criterion (a quartile within 0 and 1, as the constructor demands) and settings,
mark the cells of its events (`ID_field > 0`), and run again with the same settings except without filling and with an absolute area that every object of those
events exceeds. The second run succeeds, its preprocessed field is the first one's, and its `ID_field` is *identical*, number by number. -/
theorem C210_mesh_found_again (cc : Labeller) (hcc : CorrectLabeller cc) (p : MeshRun n) (htc : 0 < p.track.timechunks)
    (hq : ∀ q, p.criterion = .quartile q → 0 ≤ q ∧ q ≤ 1) (data pre : List (Fin n → Bool))
    (ids : List (Frame n)) (h : runMesh cc p data = .ok (pre, ids)) (hany : ∃ t i, IsExtreme (eventRecord ids) t i) (a : ℚ)
    (ha : ∀ t i, IsExtreme (eventRecord ids) t i → a < (clusterSize (ListsNeighbour p.nbr) (IsExtreme (eventRecord ids)) t i : ℚ)) :
    eventRecord ids = pre ∧ runMesh cc { p with R := 0, T := 0, criterion := .absolute a } (eventRecord ids) = .ok (pre, ids) := by
  obtain ⟨he, _⟩ := mesh_ocean hcc htc h
  have := retrack_mesh cc hcc p htc data pre ids h a ha (by
    rw [he] at hany ⊢
    exact (mesh_objects_left cc hcc p hq data pre ids h).2.2 hany)
  exact ⟨he, by rw [this, he]⟩

/-- **C210**, the same absolute area in both runs: if the first run, with whatever filling, found any event, running again on `ID_field > 0` without filling gives
the identical `ID_field`. -/
theorem C210_mesh_same_area (cc : Labeller) (hcc : CorrectLabeller cc) (p : MeshRun n) (htc : 0 < p.track.timechunks) (a : ℚ)
    (hc : p.criterion = .absolute a) (data pre : List (Fin n → Bool)) (ids : List (Frame n)) (h : runMesh cc p data = .ok (pre, ids))
    (hany : ∃ t i, IsExtreme (eventRecord ids) t i) : runMesh cc { p with R := 0, T := 0 } (eventRecord ids) = .ok (pre, ids) := by
  have hq : ∀ q, p.criterion = .quartile q → 0 ≤ q ∧ q ≤ 1 := fun q h => by rw [hc] at h; cases h
  obtain ⟨he, _⟩ := mesh_ocean hcc htc h
  have := (C210_mesh_found_again cc hcc p htc hq data pre ids h hany a (by
    rw [he]
    exact (mesh_objects_left cc hcc p hq data pre ids h).1 a hc)).2
  rw [← hc] at this
  exact this

/-- **C210**, an area quartile in the first run and an absolute area of at most 50 cells in the second: the identical `ID_field` too. -/
theorem C210_mesh_quartile (cc : Labeller) (hcc : CorrectLabeller cc) (p : MeshRun n) (htc : 0 < p.track.timechunks) (q : ℚ)
    (hc : p.criterion = .quartile q) (h0 : 0 ≤ q) (h1 : q ≤ 1) (data pre : List (Fin n → Bool)) (ids : List (Frame n)) (h : runMesh cc p data = .ok (pre, ids))
    (hany : ∃ t i, IsExtreme (eventRecord ids) t i) (a : ℚ) (ha : a ≤ 50) :
    runMesh cc { p with R := 0, T := 0, criterion := .absolute a } (eventRecord ids) = .ok (pre, ids) := by
  have hq : ∀ q, p.criterion = .quartile q → 0 ≤ q ∧ q ≤ 1 := fun q' h => by rw [hc] at h; cases h; exact ⟨h0, h1⟩
  obtain ⟨he, _⟩ := mesh_ocean hcc htc h
  refine (C210_mesh_found_again cc hcc p htc hq data pre ids h hany a ?_).2
  rw [he]
  intro t i hti
  have := (mesh_objects_left cc hcc p hq data pre ids h).2.1 q hc t i hti
  have : (50 : ℚ) < (clusterSize (ListsNeighbour p.nbr) (IsExtreme pre) t i : ℚ) := by exact_mod_cast this
  linarith

/-- **C210**, a first run without any event: the second one raises an error, whatever the area. -/
theorem C210_mesh_without_events (cc : Labeller) (hcc : CorrectLabeller cc) (p : MeshRun n) (htc : 0 < p.track.timechunks) (data pre : List (Fin n → Bool))
    (ids : List (Frame n)) (h : runMesh cc p data = .ok (pre, ids)) (hnone : ¬ ∃ t i, IsExtreme (eventRecord ids) t i) (c : AreaCriterion) :
    runMesh cc { p with R := 0, T := 0, criterion := c } (eventRecord ids) = .error (.filter .noObjects) := by
  obtain ⟨he, hm⟩ := mesh_ocean hcc htc h
  rw [he] at hnone ⊢
  have hnum := numbers_mesh cc hcc p.nbr p.mask pre _ (fill_zero_ocean p hm)
  have hpre := preprocessMesh_none cc p c pre
  set labels := pre.map (identifyObjectsMesh cc p.nbr p.mask ∘ fillHolesMesh (dilationRow p.nbr) p.mask 0) with hlabels
  have hr : filterMesh c labels = .error .noObjects := by
    refine (C08_threshold labels c _ rfl).1.mpr fun f hf i hi => ?_
    obtain ⟨t, ht⟩ := List.getElem?_of_mem hf
    exact absurd ⟨t, i, (hnum t f ht i i).1.mp hi⟩ hnone
  unfold runMesh
  rw [hpre, hr]

/-- A tracker on a line of eight mesh cells that fills gaps of up to two steps and keeps objects of more than five cells. -/
def lineAgain : MeshRun 8 :=
  { nbr := lineTable 8, mask := fun _ => true, R := 0, T := 2, criterion := .absolute 5, allowMerging := true
    track := meshCfg (lineNbr 8) (fun _ => 1) 1 (1/4) 3 40 (fun _ _ _ => 0), cen := fun _ _ => (0, 0) }

/-- Six cells, a gap of one step, six cells, and then one cell, which is too small. -/
def lineGap : List (Fin 8 → Bool) := [fun i => decide (i.val < 6), fun _ => false, fun i => decide (i.val < 6), fun i => i == 7]

-- non-vacuity: a run that fills the gap and drops the last object; run again without filling on its events it gives the same numbers
example : (match runMesh quickFind lineAgain lineGap with
    | .ok (_, ids) => (match runMesh quickFind { lineAgain with R := 0, T := 0 } (eventRecord ids) with
      | .ok (_, ids') => decide (ids.map (fun g => (List.finRange 8).map g) = [[1, 1, 1, 1, 1, 1, 0, 0], [1, 1, 1, 1, 1, 1, 0, 0], [1, 1, 1, 1, 1, 1, 0, 0], [0, 0, 0, 0, 0, 0, 0, 0]] ∧
          ids'.map (fun g => (List.finRange 8).map g) = ids.map (fun g => (List.finRange 8).map g))
      | .error _ => false)
    | .error _ => false) = true := by decide +kernel

-- non-vacuity: an object of six cells with an area of six cells is not kept; there is no event, and a second run raises an error
example : (match runMesh quickFind { lineAgain with criterion := .absolute 6 } lineGap with
    | .ok (_, ids) => decide (ids.map (fun g => (List.finRange 8).map g) = List.replicate 4 (List.replicate 8 0)) &&
      (match runMesh quickFind lineAgain (eventRecord ids) with
      | .error (.filter .noObjects) => true
      | _ => false)
    | .error _ => false) = true := by decide +kernel

/-- A tracker on a line of 52 mesh cells with an area quartile of 0. -/
def lineQuartile : MeshRun 52 :=
  { nbr := lineTable 52, mask := fun _ => true, R := 0, T := 0, criterion := .quartile 0, allowMerging := true
    track := meshCfg (lineNbr 52) (fun _ => 1) 1 (1/4) 3 40 (fun _ _ _ => 0), cen := fun _ _ => (0, 0) }

theorem trackingMesh_criterion (cc : Labeller) (p : MeshRun n) (c : AreaCriterion) (pre : List (Fin n → Bool)) :
    trackingMesh cc { p with criterion := c } pre = trackingMesh cc p pre := rfl

-- non-vacuity: objects of 51 and 52 cells with quartile 0; the threshold is 51 and the larger one is kept
example : ∃ pre ids, runMesh quickFind lineQuartile [fun i => i != 0, fun _ => true] = .ok (pre, ids) ∧ IsExtreme pre 1 0 := by
  have e : ∀ r, preprocessMesh quickFind { lineQuartile with criterion := .absolute 51 } [fun i => i != 0, fun _ => true] = .ok r →
      ∃ r', preprocessMesh quickFind lineQuartile [fun i => i != 0, fun _ => true] = .ok r' ∧ r'.field = r.field := by
    intro r hr
    unfold preprocessMesh filterMesh at hr ⊢
    have hs : ((objectTable ((fillTimeGaps (fillHolesMesh (dilationRow lineQuartile.nbr) lineQuartile.mask) lineQuartile.T lineQuartile.R
        (([fun i => i != 0, fun _ => true] : List (Fin 52 → Bool)).map (fillHolesMesh (dilationRow lineQuartile.nbr) lineQuartile.mask lineQuartile.R))).map
        (identifyObjectsMesh quickFind lineQuartile.nbr lineQuartile.mask))).map (·.2)).filter
        (fun (s : Nat) => decide (prefilterSize lineQuartile.criterion < s)) = [51, 52] := by decide +kernel
    have hp : percentile (([51, 52] : List Nat).map fun (a : Nat) => (a : ℚ)) 0 = 51 := by
      unfold percentile
      rw [List.mergeSort_of_pairwise (by decide +kernel)]
      decide +kernel
    dsimp only at hr ⊢
    rw [hs]
    split at hr
    · cases hr
    cases hr
    refine ⟨_, rfl, ?_⟩
    show (_ : List (Fin 52 → Bool)) = _
    have : areaThreshold lineQuartile.criterion [51, 52] = 51 := hp
    rw [this]
    rfl
  have h : (match runMesh quickFind { lineQuartile with criterion := .absolute 51 } [fun i => i != 0, fun _ => true] with
    | .ok (pre, _) => (pre[1]?.map fun g => g 0) == some true
    | _ => false) = true := by decide +kernel
  split at h
  · rename_i pre ids hr
    unfold runMesh at hr
    split at hr
    · cases hr
    rename_i r hpre
    obtain ⟨r', hr', hf⟩ := e r hpre
    split at hr
    · cases hr
    rename_i hids
    cases hr
    refine ⟨r'.field, ids, ?_, ?_⟩
    · unfold runMesh
      rw [hr']
      dsimp only
      rw [trackingMesh_criterion quickFind lineQuartile (.absolute 51)] at hids
      rw [hf, hids]
    · rw [hf]
      obtain ⟨g, hg, h0⟩ := Option.map_eq_some_iff.mp (eq_of_beq h)
      exact ⟨g, hg, h0⟩
  · cases h

/-- Preprocessing the events of a grid run again, without filling and with an absolute area of at most one cell: everything but the first object is left. -/
theorem retrack_grid (cc : Labeller) (hcc : CorrectLabeller cc) {ny nx : Nat} (hnx : 0 < nx) (p : GridRun ny nx) (chunks : List Nat)
    (pre : List (Fin (ny * nx) → Bool)) (hm : ∀ t i, IsExtreme pre t i → p.mask i = true) (hany : ∃ t i, IsExtreme pre t i) (a : ℚ) (ha : a ≤ 1) :
    ∃ pre' t0 i0, runGrid cc { p with R := 0, T := 0, criterion := .absolute a } chunks pre = .ok (pre', trackingGrid cc p chunks pre') ∧
      pre'.length = pre.length ∧ IsExtreme pre t0 i0 ∧ (∀ s, s < t0 → ∀ i, ¬ IsExtreme pre s i) ∧
      ∀ t i, IsExtreme pre' t i ↔ (IsExtreme pre t i ∧ ¬ (t = t0 ∧ Linked (JoinedInStep p.regional nx pre t) i0 i)) := by
  set q : GridRun ny nx := { p with R := 0, T := 0, criterion := .absolute a } with hq
  have hfill : fillStagesGrid q pre = pre := by
    refine record_ext (length_fillStagesGrid _ _) fun t i => ?_
    rw [fillStagesGrid_none q rfl rfl]
    exact ⟨fun h => h.2, fun h => ⟨hm t i h, h⟩⟩
  set labels := identifyObjectsGrid cc false p.regional nx pre with hlabels
  have hll : labels.length = pre.length := by rw [hlabels, length_identify]
  have hpre : preprocessGrid cc q pre = filterGrid (.absolute a) labels := by
    unfold preprocessGrid
    rw [hfill]
  have hobj := fun t u f g => C63_grid_objects_are_components cc hcc p.regional nx hnx pre t u f g
  have hu : UniqueLabels labels := by
    intro t t' f f' hf hf' i j h0 he
    exact ((hobj t t' f f' hf hf' i j).2.mp ⟨h0, he⟩).1
  have hok : ∃ r, filterGrid (.absolute a) labels = .ok r := by
    cases hr : filterGrid (.absolute a) labels with
    | ok r => exact ⟨r, rfl⟩
    | error e =>
      exfalso
      have he : e = .noObjects := by
        unfold filterGrid at hr
        dsimp only at hr
        split at hr
        · cases hr; rfl
        · cases hr
      subst he
      have hz := (C145_threshold labels (.absolute a)).1.mp hr
      obtain ⟨t, i, h1⟩ := hany
      have hlt : t < labels.length := by
        obtain ⟨d, hd, _⟩ := h1
        rw [hll]
        exact (List.getElem?_eq_some_iff.mp hd).1
      have hf := List.getElem?_eq_getElem hlt
      have := hz _ (List.mem_of_getElem? hf) i
      have := (hobj t t _ _ hf hf i i).1.mpr h1
      omega
  obtain ⟨r, hr⟩ := hok
  have hthr : r.threshold = a := ((C145_threshold labels (.absolute a)).2 r hr).1
  obtain ⟨t0, f0, g0, i0, hf0, _, hpos0, hfirst, _⟩ := C07_first_object_always_lost_fails labels hu _ r hr
  have hx0 : IsExtreme pre t0 i0 := (hobj t0 t0 _ _ hf0 hf0 i0 i0).1.mp hpos0
  have hlr : r.field.length = pre.length := (filterGrid_sub hr).1.trans hll
  refine ⟨r.field, t0, i0, ?_, hlr, hx0, ?_, ?_⟩
  · unfold runGrid
    rw [hpre, hr]
    rfl
  · intro s hs i hh
    have hslt : s < labels.length := lt_trans hs (List.getElem?_eq_some_iff.mp hf0).1
    have hz := hfirst.1 s _ hs (List.getElem?_eq_getElem hslt) i
    have := (hobj s s _ _ (List.getElem?_eq_getElem hslt) (List.getElem?_eq_getElem hslt) i i).1.mpr hh
    omega
  · intro t i
    by_cases hlt : t < labels.length
    · have hf := List.getElem?_eq_getElem hlt
      have hnum := fun i j => hobj t t _ _ hf hf i j
      obtain ⟨g, hg, hk⟩ := C07_keeps_exactly_large_partial labels hu _ r hr t _ hf
      rw [isExtreme_iff_of_get hg, hk i, hthr, (hnum i i).1]
      refine and_congr_right fun hhi => ?_
      have hpi := (hnum i i).1.mpr hhi
      have hs : a ≤ (size labels[t] (labels[t] i) : ℚ) := by
        have : 1 ≤ size labels[t] (labels[t] i) := by
          unfold size
          exact Finset.card_pos.mpr ⟨i, by simp⟩
        have : (1 : ℚ) ≤ (size labels[t] (labels[t] i) : ℚ) := by exact_mod_cast this
        linarith
      rw [and_iff_right hs]
      refine not_congr ⟨fun hF => ?_, ?_⟩
      · have htt : t = t0 := by
          rcases Nat.lt_trichotomy t t0 with h | h | h
          · have := hfirst.1 t _ h hf i
            omega
          · exact h
          · have := hF.1 t0 f0 h hf0 i0
            omega
        subst htt
        rw [hf] at hf0
        cases hf0
        have e1 := hfirst.2 _ hf i hpi
        have e2 := hF.2 _ hf i0 hpos0
        exact ⟨rfl, ((hnum i0 i).2.mp ⟨hpos0, Nat.le_antisymm e1 e2⟩).2.2.2⟩
      · rintro ⟨rfl, hlk⟩
        rw [hf] at hf0
        cases hf0
        have := ((hnum i0 i).2.mpr ⟨rfl, hx0, hhi, hlk⟩).2
        rw [← this]
        exact hfirst
    · unfold IsExtreme
      rw [List.getElem?_eq_none (by omega), List.getElem?_eq_none (by omega)]
      simp

theorem grid_ocean {cc : Labeller} (hcc : CorrectLabeller cc) {ny nx : Nat} (hnx : 0 < nx) {p : GridRun ny nx} {wrap nn : Bool} {thr : ℚ}
    {cen : Frame (ny * nx) → Nat → ℚ × ℚ} (hp : p.track = gridCfg wrap nn ny nx thr cen) {chunks : List Nat} {data pre : List (Fin (ny * nx) → Bool)}
    {ids : List (Frame (ny * nx))} (h : runGrid cc p chunks data = .ok (pre, ids)) :
    eventRecord ids = pre ∧ (∀ t i, IsExtreme pre t i → p.mask i = true) ∧ ids = trackingGrid cc p chunks pre := by
  obtain ⟨h1, h2, h3⟩ := C65_grid_run cc hcc hnx p wrap nn thr cen hp chunks data pre ids h
  refine ⟨eventRecord_eq (h2.trans h1.symm) fun t g hg i => (h3 t g hg i).1, fun t i ht => ?_, ?_⟩
  · have hlt : t < ids.length := by
      obtain ⟨d, hd, _⟩ := ht
      rw [h2, ← h1]
      exact (List.getElem?_eq_some_iff.mp hd).1
    have := h3 t _ (List.getElem?_eq_getElem hlt) i
    exact this.2 (this.1.mpr ht)
  · unfold runGrid at h
    split at h
    · cases h
    cases h
    rfl

/-- **C211**, structured grids with merging: take any successful run that found an event, with any filling and area criterion, and run again on `ID_field > 0` with the same
settings except without filling and with an absolute area of at most one cell. The second run succeeds. It finds every cell of the first run's events except those
of one object of the first step that has any, and the events of every group of objects that never meets that object are the first run's: the same cells at the same
steps, none besides.  Missing: that object, which is always lost (`C211_grid_first_object_fails`), and the events that meet it. -/
theorem C211_grid_partial {ny nx : Nat} (cc : Labeller) (hcc : CorrectLabeller cc) (hord : NumbersInOrder cc) (hnx : 0 < nx) (p : GridRun ny nx)
    (hm : p.allowMerging = true) (wrap nn : Bool) (thr : ℚ) (cen : Frame (ny * nx) → Nat → ℚ × ℚ) (hcen : OfCells cen)
    (ht : p.track = gridCfg wrap nn ny nx thr cen) (chunks : List Nat) (data pre : List (Fin (ny * nx) → Bool)) (ids : List (Frame (ny * nx)))
    (h : runGrid cc p chunks data = .ok (pre, ids)) (hany : ∃ t i, IsExtreme (eventRecord ids) t i) (a : ℚ) (ha : a ≤ 1) :
    ∃ (pre' : List (Fin (ny * nx) → Bool)) (ids' : List (Frame (ny * nx))) (t0 : Nat) (i0 : Fin (ny * nx)),
      runGrid cc { p with R := 0, T := 0, criterion := .absolute a } chunks (eventRecord ids) = .ok (pre', ids') ∧
      IsExtreme (eventRecord ids) t0 i0 ∧ (∀ s, s < t0 → ∀ i, ¬ IsExtreme (eventRecord ids) s i) ∧
      (∀ t i, IsExtreme (eventRecord ids') t i ↔
        (IsExtreme (eventRecord ids) t i ∧ ¬ (t = t0 ∧ Linked (JoinedInStep p.regional nx (eventRecord ids) t) i0 i))) ∧
      ∀ group, OwnGroup p.regional nx (eventRecord ids) group → ¬ IsExtreme group t0 i0 →
        ∀ t i u j, IsExtreme group t i → (SameEvent ids' t i u j ↔ SameEvent ids t i u j) := by
  obtain ⟨he, hmask, hids⟩ := grid_ocean hcc hnx ht h
  rw [he] at hany ⊢
  obtain ⟨pre', t0, i0, h1, hl, h2, h3, h4⟩ := retrack_grid cc hcc hnx p chunks pre hmask hany a ha
  obtain ⟨he', _, _⟩ := grid_ocean hcc hnx (p := { p with R := 0, T := 0, criterion := .absolute a }) ht h1
  refine ⟨pre', _, t0, i0, h1, h2, h3, by rw [he']; exact h4, ?_⟩
  intro group hg h0 t i u j hti
  have sub' : ∀ t i, IsExtreme group t i → IsExtreme pre' t i := by
    intro t i hi
    refine (h4 t i).mpr ⟨hg.sub t i hi, ?_⟩
    rintro ⟨rfl, hlk⟩
    refine h0 ?_
    have : ∀ k, Linked (JoinedInStep p.regional nx pre t) i0 k → IsExtreme group t k → IsExtreme group t i0 := by
      intro k hk
      induction hk with
      | refl => exact id
      | fwd _ hbc ih => exact fun hc => ih ((hg.objects t _ _ hbc.1 hbc.2.1 hbc.2.2).mpr hc)
      | bwd _ hbc ih => exact fun hc => ih ((hg.objects t _ _ hbc.1 hbc.2.1 hbc.2.2).mp hc)
    exact this i hlk hi
  have hg' : OwnGroup p.regional nx pre' group :=
    ⟨hg.length.trans hl.symm, sub', fun t i j hij hi hj => hg.objects t i j hij ((h4 t i).mp hi).1 ((h4 t j).mp hj).1,
      fun t i hi hj => hg.cells t i ((h4 t i).mp hi).1 ((h4 _ i).mp hj).1⟩
  have k1 := (C204_group_tracked_alone cc hcc hord hnx p hm wrap nn thr cen hcen ht chunks pre group hg).2 t i u j hti
  have k2 := (C204_group_tracked_alone cc hcc hord hnx p hm wrap nn thr cen hcen ht chunks pre' group hg').2 t i u j hti
  rw [hids]
  exact k2.symm.trans k1

/-- **C211**, structured grids with `allow_merging = False`: the same, for groups of cells that touch no other cell of the same, the next or the previous step.
Missing: the first object and the events that meet it. -/
theorem C211_grid_without_merging_partial {ny nx : Nat} (cc : Labeller) (hcc : CorrectLabeller cc) (hnx : 0 < nx) (p : GridRun ny nx)
    (hm : p.allowMerging = false) (wrap nn : Bool) (thr : ℚ) (cen : Frame (ny * nx) → Nat → ℚ × ℚ)
    (ht : p.track = gridCfg wrap nn ny nx thr cen) (chunks : List Nat) (data pre : List (Fin (ny * nx) → Bool)) (ids : List (Frame (ny * nx)))
    (h : runGrid cc p chunks data = .ok (pre, ids)) (hany : ∃ t i, IsExtreme (eventRecord ids) t i) (a : ℚ) (ha : a ≤ 1) :
    ∃ (pre' : List (Fin (ny * nx) → Bool)) (ids' : List (Frame (ny * nx))) (t0 : Nat) (i0 : Fin (ny * nx)),
      runGrid cc { p with R := 0, T := 0, criterion := .absolute a } chunks (eventRecord ids) = .ok (pre', ids') ∧
      IsExtreme (eventRecord ids) t0 i0 ∧ (∀ s, s < t0 → ∀ i, ¬ IsExtreme (eventRecord ids) s i) ∧
      (∀ t i, IsExtreme (eventRecord ids') t i ↔
        (IsExtreme (eventRecord ids) t i ∧ ¬ (t = t0 ∧ Linked (JoinedInStep p.regional nx (eventRecord ids) t) i0 i))) ∧
      ∀ group : List (Fin (ny * nx) → Bool), (∀ t i, IsExtreme group t i → IsExtreme (eventRecord ids) t i) →
        (∀ x y, JoinedInTime p.regional nx (eventRecord ids) x y → (IsExtreme group x.1 x.2 ↔ IsExtreme group y.1 y.2)) → ¬ IsExtreme group t0 i0 →
        ∀ t i u j, IsExtreme group t i → (SameEvent ids' t i u j ↔ SameEvent ids t i u j) := by
  obtain ⟨he, hmask, hids⟩ := grid_ocean hcc hnx ht h
  rw [he] at hany ⊢
  obtain ⟨pre', t0, i0, h1, hl, h2, h3, h4⟩ := retrack_grid cc hcc hnx p chunks pre hmask hany a ha
  obtain ⟨he', _, _⟩ := grid_ocean hcc hnx (p := { p with R := 0, T := 0, criterion := .absolute a }) ht h1
  refine ⟨pre', _, t0, i0, h1, h2, h3, by rw [he']; exact h4, ?_⟩
  intro group hsub hg h0 t i u j hti
  have sub' : ∀ t i, IsExtreme group t i → IsExtreme pre' t i := by
    intro t i hi
    refine (h4 t i).mpr ⟨hsub t i hi, ?_⟩
    rintro ⟨rfl, hlk⟩
    refine h0 ?_
    have : ∀ k, Linked (JoinedInStep p.regional nx pre t) i0 k → IsExtreme group t k → IsExtreme group t i0 := by
      intro k hk
      induction hk with
      | refl => exact id
      | @fwd b c _ hbc ih => exact fun hc => ih ((hg (t, b) (t, c) ⟨by simp, hbc.1, hbc.2.1, hbc.2.2⟩).mpr hc)
      | @bwd b c _ hbc ih => exact fun hc => ih ((hg (t, c) (t, b) ⟨by simp, hbc.1, hbc.2.1, hbc.2.2⟩).mp hc)
    exact this i hlk hi
  have hg' : ∀ x y, JoinedInTime p.regional nx pre' x y → (IsExtreme group x.1 x.2 ↔ IsExtreme group y.1 y.2) :=
    fun x y hxy => hg x y ⟨hxy.1, hxy.2.1, ((h4 _ _).mp hxy.2.2.1).1, ((h4 _ _).mp hxy.2.2.2).1⟩
  have k1 := (C204_group_tracked_alone_without_merging cc hcc hnx p hm chunks pre group hsub hg).2 t i u j hti
  have k2 := (C204_group_tracked_alone_without_merging cc hcc hnx p hm chunks pre' group sub' hg').2 t i u j hti
  rw [hids]
  exact k2.symm.trans k1

/-- **C211 fails** for every run on a structured grid that found an event: running again on `ID_field > 0` without filling, with an absolute area of at most one cell,
always loses a cell that belonged to an event. -/
theorem C211_grid_first_object_fails {ny nx : Nat} (cc : Labeller) (hcc : CorrectLabeller cc) (hnx : 0 < nx) (p : GridRun ny nx)
    (wrap nn : Bool) (thr : ℚ) (cen : Frame (ny * nx) → Nat → ℚ × ℚ)
    (ht : p.track = gridCfg wrap nn ny nx thr cen) (chunks : List Nat) (data pre : List (Fin (ny * nx) → Bool)) (ids : List (Frame (ny * nx)))
    (h : runGrid cc p chunks data = .ok (pre, ids)) (hany : ∃ t i, IsExtreme (eventRecord ids) t i) (a : ℚ) (ha : a ≤ 1) :
    ∃ (pre' : List (Fin (ny * nx) → Bool)) (ids' : List (Frame (ny * nx))) (t0 : Nat) (i0 : Fin (ny * nx)),
      runGrid cc { p with R := 0, T := 0, criterion := .absolute a } chunks (eventRecord ids) = .ok (pre', ids') ∧
      IsExtreme (eventRecord ids) t0 i0 ∧ ¬ IsExtreme (eventRecord ids') t0 i0 := by
  obtain ⟨he, hmask, hids⟩ := grid_ocean hcc hnx ht h
  rw [he] at hany ⊢
  obtain ⟨pre', t0, i0, h1, hl, h2, h3, h4⟩ := retrack_grid cc hcc hnx p chunks pre hmask hany a ha
  obtain ⟨he', _, _⟩ := grid_ocean hcc hnx (p := { p with R := 0, T := 0, criterion := .absolute a }) ht h1
  refine ⟨pre', _, t0, i0, h1, h2, ?_⟩
  rw [he', h4]
  exact fun hc => hc.2 ⟨rfl, .refl _⟩

-- non-vacuity: cell 0 is lost by the first run and cell 1 of step 1 by the second; the event of cells 6 and 7 is found again
example : (match runGrid quickFind (rowRun 9 true (1 / 3)) [3] [fun i => i == 0, fun i => i == 1 || i == 6, fun i => i == 6 || i == 7] with
    | .ok (_, ids) => (match runGrid quickFind { rowRun 9 true (1 / 3) with R := 0, T := 0, criterion := .absolute 1 } [3] (eventRecord ids) with
      | .ok (_, ids') => decide (ids.map (fun g => (List.finRange (1 * 9)).map g) =
            [[0, 0, 0, 0, 0, 0, 0, 0, 0], [0, 1, 0, 0, 0, 0, 2, 0, 0], [0, 0, 0, 0, 0, 0, 2, 2, 0]] ∧
          ids'.map (fun g => (List.finRange (1 * 9)).map g) =
            [[0, 0, 0, 0, 0, 0, 0, 0, 0], [0, 0, 0, 0, 0, 0, 1, 0, 0], [0, 0, 0, 0, 0, 0, 1, 1, 0]])
      | .error _ => false)
    | .error _ => false) = true := by decide +kernel

end MarEx.Props
