import Verif.Model.Workflow
import Verif.Spec.Workflow
import Verif.Props.Pipeline
import Verif.Props.Preprocess
import Verif.Props.TimeGaps
import Verif.Props.NameUse
/-! Properties C171, C172: the workflow from raw data to events. -/
namespace MarEx.Props
open MarEx MarEx.Spec

variable {n : Nat}

theorem getD_flag {l : List Bool} {t : Nat} : (l[t]?).getD false = true ↔ l[t]? = some true := by
  cases h : l[t]? <;> simp

theorem flag_iff {record : List Sample} {flags : List Bool} {Q : Sample → Prop} (hl : flags.length = record.length)
    (h : ∀ (i : Nat) (s : Sample), record[i]? = some s → ∃ e, flags[i]? = some e ∧ (e = true ↔ Q s)) (t : Nat) :
    flags[t]? = some true ↔ ∃ s, record[t]? = some s ∧ Q s := by
  constructor
  · intro hf
    have hlt : t < record.length := by rw [← hl]; exact (List.getElem?_eq_some_iff.1 hf).1
    obtain ⟨e, h1, h2⟩ := h t _ (List.getElem?_eq_getElem hlt)
    rw [hf] at h1
    exact ⟨_, List.getElem?_eq_getElem hlt, h2.1 (Option.some.inj h1).symm⟩
  · rintro ⟨s, hs, hq⟩
    obtain ⟨e, h1, h2⟩ := h t s hs
    rw [h1, h2.2 hq]

theorem hobday_exceeds (record : List Sample) (ts : List (Option ℚ)) (D : Prop) [Decidable D] (hD : D) (t : Nat) :
    (extremesHobday record ts)[t]? = some true ↔ Exceeds D record ts t := by
  rw [flag_iff (C37_extreme_iff_hobday record ts).1 (C37_extreme_iff_hobday record ts).2 t]
  unfold Exceeds
  simp only [hD, if_true]
  constructor
  · rintro ⟨s, h1, v, h, h2, h3, h4⟩; exact ⟨s, v, h, h1, h2, h3, h4⟩
  · rintro ⟨s, v, h, h1, h2, h3, h4⟩; exact ⟨s, h1, v, h, h2, h3, h4⟩

theorem constant_exceeds (record : List Sample) (th : Option ℚ) (D : Prop) [Decidable D] (hD : ¬ D) (t : Nat) :
    (extremesConstant (record.map Sample.val) th)[t]? = some true ↔ Exceeds D record [th] t := by
  obtain ⟨hl, hx⟩ := C37_extreme_iff_constant (record.map Sample.val) th
  have := flag_iff (record := record) (flags := extremesConstant (record.map Sample.val) th)
    (Q := fun s => ∃ x y, s.val = some x ∧ th = some y ∧ y ≤ x) (by rw [hl, List.length_map]) (by
      intro i s hs
      exact hx i s.val (by rw [List.getElem?_map, hs]; rfl)) t
  rw [this]
  unfold Exceeds
  simp only [hD, if_false, List.getElem?_cons_zero, Option.some.injEq]
  constructor
  · rintro ⟨s, h1, v, h, h2, h3, h4⟩; exact ⟨s, v, h, h1, h2, h3, h4⟩
  · rintro ⟨s, v, h, h1, h2, h3, h4⟩; exact ⟨s, h1, v, h, h2, h3, h4⟩

/-- Whatever the method, the flags returned by `identify_extremes` say whether the anomaly is at least the returned threshold. -/
theorem identify_exceeds {gridded : Bool} {P : ExtParams} {ny nx : Nat} {recs : Nat → Nat → List Sample} {e : ExtOut}
    (h : identifyExtremes gridded P ny nx recs = .ok e) (y x : Nat) :
    (e.extremes y x).length = (recs y x).length ∧
    ∀ t, (e.extremes y x)[t]? = some true ↔ Exceeds (P.methodExtreme = "hobday_extreme") (recs y x) (e.thresholds y x) t := by
  unfold identifyExtremes at h
  split at h
  · cases h
  rename_i c hc
  have hd : dispatch gridded P = .ok c := by
    unfold checkExtremes at hc
    split at hc
    · cases hc
    split at hc
    · cases hc
    split at hc
    · cases hc
    split at hc
    · cases hc
    exact hc
  replace h := ite_error_ok h
  unfold runExtremes at h
  split at h
  · cases h
  cases c with
  | global =>
    cases h
    have hm : ¬ P.methodExtreme = "hobday_extreme" := by
      intro hm
      unfold dispatch at hd
      rw [if_neg (by rw [hm]; decide), if_pos hm] at hd
      split at hd <;> cases hd
    exact ⟨by simp [runGlobal, extremesConstant], fun t => constant_exceeds _ _ _ hm t⟩
  | hobday w s =>
    have hm : P.methodExtreme = "hobday_extreme" := by
      unfold dispatch at hd
      split at hd
      · cases hd
      split at hd
      · assumption
      · cases hd
    dsimp only at h
    split at h
    · cases h
    split at h
    · cases h
      exact ⟨by simp [runExactDays, extremesHobday], fun t => hobday_exceeds _ _ _ hm t⟩
    · unfold runApproxDays at h
      split at h
      · cases h
      · cases h
        exact ⟨by simp [extremesHobday], fun t => hobday_exceeds _ _ _ hm t⟩

theorem preprocessData_ext {gridded : Bool} {fit : List Nat → Bool → List ℚ → Nat → ℚ} {A : AnomParams} {P : ExtParams} {ny nx : Nat}
    {raw : Nat → Nat → List Sample} {out : PrepOut} (h : preprocessData gridded fit A P ny nx raw = .ok out) :
    identifyExtremes gridded P ny nx out.anomalies = .ok out.ext := by
  unfold preprocessData at h
  split at h
  · cases h
  split at h
  · cases h
  unfold preprocess at h
  split at h
  · cases h
  split at h
  · cases h
  dsimp only at h
  split at h
  · cases h
  · rename_i he
    cases h
    exact he

theorem length_eventFrames (ny nx : Nat) (e : ExtOut) : (eventFrames ny nx e).length = (e.extremes 0 0).length := by
  simp [eventFrames]

theorem isExtreme_eventFrames {ny nx : Nat} {e : ExtOut} {t : Nat} {i : Fin (ny * nx)} :
    IsExtreme (eventFrames ny nx e) t i ↔ t < (e.extremes 0 0).length ∧ (e.extremes (i.val / nx) (i.val % nx))[t]? = some true := by
  unfold IsExtreme eventFrames
  constructor
  · rintro ⟨d, hd, hi⟩
    rw [List.getElem?_map] at hd
    obtain ⟨s, hs, rfl⟩ := Option.map_eq_some_iff.mp hd
    obtain ⟨h1, h2⟩ := List.getElem?_eq_some_iff.mp hs
    rw [List.length_range] at h1
    rw [List.getElem_range] at h2
    subst h2
    exact ⟨h1, getD_flag.mp hi⟩
  · rintro ⟨h1, h2⟩
    refine ⟨_, by rw [List.getElem?_map, List.getElem?_range h1]; rfl, getD_flag.mpr h2⟩

/-- The ocean cells whose anomaly reaches its threshold. -/
def HotCell {ny nx : Nat} (P : ExtParams) (out : PrepOut) (t : Nat) (i : Fin (ny * nx)) : Prop :=
  out.mask (i.val / nx) (i.val % nx) = true ∧
  Exceeds (P.methodExtreme = "hobday_extreme") (out.anomalies (i.val / nx) (i.val % nx)) (out.ext.thresholds (i.val / nx) (i.val % nx)) t

theorem clusterSize_eq_size {touch : Fin n → Fin n → Prop} {hot : Nat → Fin n → Prop} {t : Nat} {f : Fin n → Nat}
    (h : ∀ i j, (0 < f i ↔ hot t i) ∧ ((0 < f i ∧ f i = f j) ↔ (hot t i ∧ hot t j ∧ Linked (TouchingHot touch hot t) i j)))
    (i : Fin n) (hi : hot t i) : clusterSize touch hot t i = size f (f i) := by
  classical
  unfold clusterSize size
  congr 1
  ext j
  simp only [Finset.mem_filter, Finset.mem_univ, true_and]
  constructor
  · intro hl
    have hj : hot t j := by
      cases hl with
      | refl => exact hi
      | fwd _ h => exact h.2.2
      | bwd _ h => exact h.2.1
    exact ((h i j).2.mpr ⟨hi, hj, hl⟩).2.symm
  · intro he
    exact ((h i j).2.mp ⟨(h i i).1.mpr hi, he.symm⟩).2.2

theorem linked_touching {touch : Fin n → Fin n → Prop} {hot : Nat → Fin n → Prop} {E : Fin n → Fin n → Prop} {t : Nat}
    (h : ∀ i j, E i j ↔ touch i j ∧ hot t i ∧ hot t j) (i j : Fin n) : Linked E i j ↔ Linked (TouchingHot touch hot t) i j :=
  ⟨Linked.mono fun a b => (h a b).mp, Linked.mono fun a b => (h a b).mpr⟩

theorem fillStagesGrid_none {ny nx : Nat} (p : GridRun ny nx) (hR : p.R = 0) (hT : p.T = 0) (data : List (Fin (ny * nx) → Bool)) :
    ∀ t i, IsExtreme (fillStagesGrid p data) t i ↔ (p.mask i = true ∧ IsExtreme data t i) := by
  intro t i
  unfold fillStagesGrid
  rw [hR, hT, (C01_zero_is_identity _ _ _).2]
  unfold IsExtreme
  rw [List.getElem?_map]
  have key : ∀ f : Fin (ny * nx) → Bool, fillFrameGrid p.regional ny nx p.mask 0 f i = true ↔ (f i = true ∧ p.mask i = true) := by
    intro f
    unfold fillFrameGrid ofImg
    rw [C06_radius_zero, toImg_ofImg, toImg_ofImg]
  constructor
  · rintro ⟨d, hd, hi⟩
    obtain ⟨f, hf, rfl⟩ := Option.map_eq_some_iff.mp hd
    exact ⟨((key f).mp hi).2, f, hf, ((key f).mp hi).1⟩
  · rintro ⟨hm, f, hf, hi⟩
    exact ⟨_, by rw [hf]; rfl, (key f).mpr ⟨hi, hm⟩⟩

/-- **C171**, structured grids, without filling (`R_fill = 0`, `T_fill = 0`), every method, percentile, window, area criterion, merging setting
and chunking: when the workflow succeeds, its dataset is that of `preprocess_data` on gridded data, `ID_field` has the steps of the anomalies, and a cell carries an event at a step iff it is an ocean cell
whose anomaly is at least its own threshold, its cluster of touching such cells has at least the area threshold of cells, *and it is not in one
particular cluster of the first step that has any*, which is always lost (C07).  The area threshold is the given one or the quantile of the
sizes of all clusters.  Missing: that cluster. -/
theorem C171_grid_workflow_partial (cc : Labeller) (hcc : CorrectLabeller cc) {ny nx : Nat} (hnx : 0 < nx)
    (fit : List Nat → Bool → List ℚ → Nat → ℚ) (A : AnomParams) (P : ExtParams) (p : GridRun ny nx) (hR : p.R = 0) (hT : p.T = 0)
    (wrap nn : Bool) (thr : ℚ) (cen : Frame (ny * nx) → Nat → ℚ × ℚ) (hp : p.track = gridCfg wrap nn ny nx thr cen)
    (chunks : List Nat) (raw : Nat → Nat → List Sample) (w : FlowOut (ny * nx))
    (h : workflowGrid cc fit A P p chunks raw = .ok w) :
    preprocessData true fit A P ny nx raw = .ok w.prep ∧ w.ids.length = (w.prep.anomalies 0 0).length ∧
    ∃ (labels : List (Fin (ny * nx) → Nat)) (area : ℚ) (t0 : Nat) (i0 : Fin (ny * nx)),
      labels.length = (w.prep.anomalies 0 0).length ∧ Numbers (Touch p.regional nx) (HotCell P w.prep) labels ∧
      IsAreaThreshold p.criterion (allSizes labels) area ∧
      t0 < w.ids.length ∧ HotCell P w.prep t0 i0 ∧ (∀ s, s < t0 → ∀ i : Fin (ny * nx), ¬ HotCell P w.prep s i) ∧
      ∀ (t : Nat) (g : Frame (ny * nx)), w.ids[t]? = some g → ∀ i, 0 < g i ↔
        (HotCell P w.prep t i ∧ area ≤ (clusterSize (Touch p.regional nx) (HotCell P w.prep) t i : ℚ) ∧
          ¬ (t = t0 ∧ Linked (TouchingHot (Touch p.regional nx) (HotCell P w.prep) t) i0 i)) := by
  unfold workflowGrid at h
  split at h
  · cases h
  rename_i out hout
  split at h
  · cases h
  rename_i r hr
  cases h
  have hid := identify_exceeds (preprocessData_ext hout)
  set q : GridRun ny nx := { p with mask := maskFrame ny nx out.mask } with hq
  set data := eventFrames ny nx out.ext with hdata
  have hlen : data.length = (out.anomalies 0 0).length := by rw [hdata, length_eventFrames, (hid 0 0).1]
  obtain ⟨hl1, hl2, hsup⟩ := C65_grid_run cc hcc hnx q wrap nn thr cen hp chunks data r.1 r.2 hr
  refine ⟨hout, hl2.trans hlen, ?_⟩
  -- hot cells inside the record are the extreme cells after the (empty) filling
  have hhot : ∀ t i, t < data.length → (IsExtreme (fillStagesGrid q data) t i ↔ HotCell P out t i) := by
    intro t i ht
    rw [fillStagesGrid_none q hR hT, hdata, isExtreme_eventFrames, (hid _ _).2]
    rw [hdata, length_eventFrames] at ht
    exact ⟨fun h => ⟨h.1, h.2.2⟩, fun h => ⟨h.1, ht, h.2⟩⟩
  unfold runGrid at hr
  split at hr
  · cases hr
  rename_i fr hfr
  cases hr
  unfold preprocessGrid at hfr
  set labels := identifyObjectsGrid cc false q.regional nx (fillStagesGrid q data) with hlabels
  have hll : labels.length = data.length := by rw [hlabels, length_identify, length_fillStagesGrid]
  have hnum : Numbers (Touch p.regional nx) (HotCell P out) labels := by
    intro t f hf i j
    have ht : t < data.length := by rw [← hll]; exact (List.getElem?_eq_some_iff.mp hf).1
    obtain ⟨h1, h2⟩ := C63_grid_objects_are_components cc hcc q.regional nx hnx (fillStagesGrid q data) t t f f hf hf i j
    rw [hhot t i ht] at h1 h2
    rw [hhot t j ht] at h2
    refine ⟨h1, h2.trans ?_⟩
    rw [linked_touching (touch := Touch p.regional nx) (hot := HotCell P out) (t := t)]
    · tauto
    · intro a b
      unfold JoinedInStep
      rw [hhot t a ht, hhot t b ht]
  have hu : UniqueLabels labels := by
    intro t t' f f' hf hf' i j h0 he
    exact ((C63_grid_objects_are_components cc hcc q.regional nx hnx (fillStagesGrid q data) t t' f f' hf hf' i j).2.mp ⟨h0, he⟩).1
  obtain ⟨t0, f0, g0, i0, hf0, _, hpos0, hfirst, _⟩ := C07_first_object_always_lost_fails labels hu q.criterion fr hfr
  refine ⟨labels, fr.threshold, t0, i0, hll.trans hlen, hnum, ((C145_threshold labels p.criterion).2 fr hfr).1,
    by rw [hl2, ← hll]; exact (List.getElem?_eq_some_iff.mp hf0).1, (hnum t0 f0 hf0 i0 i0).1.mp hpos0, ?_, ?_⟩
  · intro s hs i hh
    have hslt : s < labels.length := lt_trans hs (List.getElem?_eq_some_iff.mp hf0).1
    have hz := hfirst.1 s _ hs (List.getElem?_eq_getElem hslt) i
    have := (hnum s _ (List.getElem?_eq_getElem hslt) i i).1.mpr hh
    omega
  · intro t g hg i
    have hlt : t < labels.length := by rw [hll, ← hl2]; exact (List.getElem?_eq_some_iff.mp hg).1
    have hf := List.getElem?_eq_getElem hlt
    obtain ⟨g', hg', hk⟩ := C07_keeps_exactly_large_partial labels hu q.criterion fr hfr t _ hf
    have hE : IsExtreme fr.field t i ↔ g' i = true := by
      unfold IsExtreme
      rw [hg']
      exact ⟨fun ⟨d, h1, h2⟩ => by cases h1; exact h2, fun h1 => ⟨g', rfl, h1⟩⟩
    rw [(hsup t g hg i).1, hE, hk i, (hnum t _ hf i i).1]
    refine and_congr_right fun hhi => ?_
    rw [clusterSize_eq_size (hnum t _ hf) i hhi]
    refine and_congr_right fun _ => not_congr ?_
    constructor
    · intro hF
      have htt : t = t0 := by
        rcases Nat.lt_trichotomy t t0 with h | h | h
        · have := hfirst.1 t _ h hf i
          have := (hnum t _ hf i i).1.mpr hhi
          omega
        · exact h
        · have := hF.1 t0 f0 h hf0 i0
          omega
      subst htt
      rw [hf] at hf0
      cases hf0
      have e1 := hfirst.2 _ hf i ((hnum t _ hf i i).1.mpr hhi)
      have e2 := hF.2 _ hf i0 hpos0
      exact ⟨rfl, ((hnum t _ hf i0 i).2.mp ⟨hpos0, Nat.le_antisymm e1 e2⟩).2.2⟩
    · rintro ⟨rfl, hlk⟩
      rw [hf] at hf0
      cases hf0
      have := ((hnum t _ hf i0 i).2.mpr ⟨(hnum t _ hf i0 i0).1.mp hpos0, hhi, hlk⟩).2
      rw [← this]
      exact hfirst

/-- **C171 fails** for every record on a structured grid: with an absolute area of at most one cell every extreme ocean cell should belong to an
event, but whenever the workflow succeeds there is one that does not. -/
theorem C171_first_cluster_lost_fails (cc : Labeller) (hcc : CorrectLabeller cc) {ny nx : Nat} (hnx : 0 < nx)
    (fit : List Nat → Bool → List ℚ → Nat → ℚ) (A : AnomParams) (P : ExtParams) (p : GridRun ny nx) (hR : p.R = 0) (hT : p.T = 0)
    (wrap nn : Bool) (thr : ℚ) (cen : Frame (ny * nx) → Nat → ℚ × ℚ) (hp : p.track = gridCfg wrap nn ny nx thr cen)
    (chunks : List Nat) (raw : Nat → Nat → List Sample) (w : FlowOut (ny * nx))
    (h : workflowGrid cc fit A P p chunks raw = .ok w) (a : ℚ) (hc : p.criterion = .absolute a) (ha : a ≤ 1) :
    ∃ (t : Nat) (g : Frame (ny * nx)) (i : Fin (ny * nx)), w.ids[t]? = some g ∧ HotCell P w.prep t i ∧
      a ≤ (clusterSize (Touch p.regional nx) (HotCell P w.prep) t i : ℚ) ∧ g i = 0 := by
  classical
  obtain ⟨_, hl, labels, area, t0, i0, hll, hnum, _, hlt, hh, _, hx⟩ :=
    C171_grid_workflow_partial cc hcc hnx fit A P p hR hT wrap nn thr cen hp chunks raw w h
  have hg := List.getElem?_eq_getElem hlt
  refine ⟨t0, _, i0, hg, hh, ?_, ?_⟩
  · have : 1 ≤ clusterSize (Touch p.regional nx) (HotCell P w.prep) t0 i0 := by
      unfold clusterSize
      exact Finset.card_pos.mpr ⟨i0, by simp [Linked.refl]⟩
    have : (1 : ℚ) ≤ (clusterSize (Touch p.regional nx) (HotCell P w.prep) t0 i0 : ℚ) := by exact_mod_cast this
    linarith
  · by_contra h0
    exact ((hx t0 _ hg i0).mp (by omega)).2.2 ⟨rfl, .refl _⟩

/-- Six years of one day on a 1 × 4 grid: cell 0 is hot in the first year, cell 1 in the fifth, cell 3 in the last two; cell 2 is land. -/
def flowRaw : Nat → Nat → List Sample := fun _ x => (List.range 6).map fun k => ⟨2000 + k, 1,
  if x = 2 then none else if x = 0 ∧ k = 0 then some 4 else if x = 1 ∧ k = 4 then some 5 else if x = 3 ∧ 4 ≤ k then some 7 else some 0⟩

/-- The 80th percentile of the whole record, from bins of one unit. -/
def flowExt : ExtParams := ⟨"global_extreme", 80, some 11, none, "approximate", 1, 5⟩

/-- The default tracker of an `ny` × `nx` grid with `R_fill = 0`, `T_fill = 0`, `area_filter_absolute = 1`. -/
def flowRun (ny nx : Nat) : GridRun ny nx :=
  { regional := false, mask := fun _ => false, R := 0, T := 0, criterion := .absolute 1, allowMerging := true
    track := gridCfg true false ny nx (1 / 2) (fun _ _ => (0, 0)) }

-- the workflow succeeds; the hot cell of the first year is lost, the others belong to events
example : (match workflowGrid quickFind (fun _ _ _ _ => 0) ⟨"fixed_baseline", 15, 21, none⟩ flowExt (flowRun 1 4) [3, 3] flowRaw with
    | .ok w => w.ids.map fun g => (List.finRange 4).map g
    | .error _ => []) = [[0, 0, 0, 0], [0, 0, 0, 0], [0, 0, 0, 0], [0, 0, 0, 0], [0, 1, 0, 2], [0, 0, 0, 2]] := by decide +kernel

/-- **C171** on meshes, without filling: when the workflow succeeds, `ID_field` has the steps of the anomalies, and a cell carries an event at a
step iff it is an ocean cell whose anomaly is at least its own threshold and its cluster of neighbouring such cells has more cells than the area
threshold: the given one, or the quantile of the sizes of the clusters with more than 50 cells (with an absolute threshold there must be
a cluster of more than 5 cells). -/
theorem C171_mesh_workflow (cc : Labeller) (hcc : CorrectLabeller cc) (fit : List Nat → Bool → List ℚ → Nat → ℚ) (A : AnomParams)
    (P : ExtParams) (p : MeshRun (1 * n)) (htc : 0 < p.track.timechunks) (hR : p.R = 0) (hT : p.T = 0)
    (raw : Nat → Nat → List Sample) (w : FlowOut (1 * n)) (h : workflowMesh cc fit A P p raw = .ok w)
    (small : Nat) (hs : small = match p.criterion with | .quartile _ => 50 | .absolute _ => 5) :
    preprocessData false fit A P 1 n raw = .ok w.prep ∧ w.ids.length = (w.prep.anomalies 0 0).length ∧
    ∃ (labels : List (Fin (1 * n) → Nat)) (area : ℚ),
      labels.length = (w.prep.anomalies 0 0).length ∧ Numbers (ListsNeighbour p.nbr) (HotCell P w.prep) labels ∧
      IsAreaThreshold p.criterion ((allSizes labels).filter fun s => small < s) area ∧
      ∀ (t : Nat) (g : Frame (1 * n)), w.ids[t]? = some g → ∀ i, 0 < g i ↔
        (HotCell P w.prep t i ∧ area < (clusterSize (ListsNeighbour p.nbr) (HotCell P w.prep) t i : ℚ)) := by
  unfold workflowMesh at h
  split at h
  · cases h
  rename_i out hout
  split at h
  · cases h
  rename_i r hr
  cases h
  have hid := identify_exceeds (preprocessData_ext hout)
  set q : MeshRun (1 * n) := { p with mask := maskFrame 1 n out.mask } with hq
  set data := eventFrames 1 n out.ext with hdata
  have hlen : data.length = (out.anomalies 0 0).length := by rw [hdata, length_eventFrames, (hid 0 0).1]
  obtain ⟨hl1, hl2, hsup⟩ := C65_mesh_run cc hcc q htc data r.1 r.2 hr
  refine ⟨hout, hl2.trans hlen, ?_⟩
  unfold runMesh at hr
  split at hr
  · cases hr
  rename_i fr hfr
  split at hr
  · cases hr
  cases hr
  unfold preprocessMesh at hfr
  rw [show q.T = 0 from hT, show q.R = 0 from hR, (C01_zero_is_identity _ _ _).2, List.map_map] at hfr
  set labels := data.map (identifyObjectsMesh cc q.nbr q.mask ∘ fillHolesMesh (dilationRow q.nbr) q.mask 0) with hlabels
  have hll : labels.length = data.length := by rw [hlabels, List.length_map]
  have hnum : Numbers (ListsNeighbour p.nbr) (HotCell P out) labels := by
    intro t f hf i j
    rw [hlabels, List.getElem?_map] at hf
    obtain ⟨d, hd, rfl⟩ := Option.map_eq_some_iff.mp hf
    have ht : t < (out.ext.extremes 0 0).length := by
      rw [← length_eventFrames 1 n, ← hdata]; exact (List.getElem?_eq_some_iff.mp hd).1
    have hhot : ∀ k, (q.mask k = true ∧ fillHolesMesh (dilationRow q.nbr) q.mask 0 d k = true) ↔ HotCell P out t k := by
      intro k
      have hE : d k = true ↔ IsExtreme data t k := by
        unfold IsExtreme
        rw [hd]
        exact ⟨fun h => ⟨d, rfl, h⟩, fun ⟨e, h1, h2⟩ => by cases h1; exact h2⟩
      have : d k = true ↔ Exceeds (P.methodExtreme = "hobday_extreme") (out.anomalies (k.val / n) (k.val % n))
          (out.ext.thresholds (k.val / n) (k.val % n)) t := by
        rw [hE, hdata, isExtreme_eventFrames, (hid _ _).2]
        exact ⟨fun h => h.2, fun h => ⟨ht, h⟩⟩
      constructor
      · rintro ⟨h1, h2⟩
        rw [C04_radius_zero _ _ _ _ h1, this] at h2
        exact ⟨h1, h2⟩
      · rintro ⟨h1, h2⟩
        refine ⟨h1, ?_⟩
        rw [C04_radius_zero _ _ _ _ h1, this]
        exact h2
    have hpos : 0 < (identifyObjectsMesh cc q.nbr q.mask ∘ fillHolesMesh (dilationRow q.nbr) q.mask 0) d i ↔ HotCell P out t i := by
      have := C10_background_zero cc q.nbr q.mask (fillHolesMesh (dilationRow q.nbr) q.mask 0 d) i
      rw [hhot i] at this
      show 0 < identifyObjectsMesh cc q.nbr q.mask (fillHolesMesh (dilationRow q.nbr) q.mask 0 d) i ↔ _
      rw [Nat.pos_iff_ne_zero, Ne, this, not_not]
    have hpos' : ∀ k, 0 < identifyObjectsMesh cc q.nbr q.mask (fillHolesMesh (dilationRow q.nbr) q.mask 0 d) k ↔ HotCell P out t k := by
      intro k
      have := C10_background_zero cc q.nbr q.mask (fillHolesMesh (dilationRow q.nbr) q.mask 0 d) k
      rw [hhot k] at this
      rw [Nat.pos_iff_ne_zero, Ne, this, not_not]
    refine ⟨hpos, ?_⟩
    have hlk := linked_touching (touch := ListsNeighbour p.nbr) (hot := HotCell P out) (t := t)
      (E := JoinedCells q.nbr q.mask (fillHolesMesh (dilationRow q.nbr) q.mask 0 d)) (by
        intro a b
        unfold JoinedCells
        rw [hhot a, hhot b]) i j
    constructor
    · rintro ⟨h0, he⟩
      have hi := hpos.mp h0
      have hj := (hpos' j).mp (by
        have h0' := h0
        rw [he] at h0'
        exact h0')
      exact ⟨hi, hj, hlk.mp ((C10_same_object_iff_connected cc hcc _ _ _ i j ((hhot i).mpr hi) ((hhot j).mpr hj)).mp he)⟩
    · rintro ⟨hi, hj, hL⟩
      exact ⟨hpos.mpr hi, (C10_same_object_iff_connected cc hcc _ _ _ i j ((hhot i).mpr hi) ((hhot j).mpr hj)).mpr (hlk.mpr hL)⟩
  refine ⟨labels, fr.threshold, hll.trans hlen, hnum, ((C08_threshold labels p.criterion small hs).2 fr hfr).1, ?_⟩
  intro t g hg i
  have hlt : t < labels.length := by rw [hll, ← hl2]; exact (List.getElem?_eq_some_iff.mp hg).1
  have hf := List.getElem?_eq_getElem hlt
  obtain ⟨g', hg', hk⟩ := C08_keeps_exactly_larger labels q.criterion fr hfr t _ hf
  have hE : IsExtreme fr.field t i ↔ g' i = true := by
    unfold IsExtreme
    rw [hg']
    exact ⟨fun ⟨d, h1, h2⟩ => by cases h1; exact h2, fun h1 => ⟨g', rfl, h1⟩⟩
  rw [(hsup t g hg i).1, hE, hk i, (hnum t _ hf i i).1]
  refine and_congr_right fun hhi => ?_
  rw [clusterSize_eq_size (hnum t _ hf) i hhi]

/-- Two years of one day on a line of seven mesh cells: cells 0–5 are hot in the second year, cell 6 is land. -/
def meshRaw : Nat → Nat → List Sample := fun _ x => (List.range 2).map fun k => ⟨2000 + k, 1,
  if x = 6 then none else if k = 1 then some 5 else some 0⟩

/-- A tracker on a line of seven mesh cells. -/
def meshFlow : MeshRun (1 * 7) :=
  { nbr := lineTable 7, mask := fun _ => false, R := 0, T := 0, criterion := .absolute 1, allowMerging := true
    track := meshCfg (lineNbr 7) (fun _ => 1) 1 (1/4) 3 40 (fun _ _ _ => 0), cen := fun _ _ => (0, 0) }

example : (match workflowMesh (n := 7) quickFind (fun _ _ _ _ => 0) ⟨"fixed_baseline", 15, 21, none⟩ flowExt meshFlow meshRaw with
    | .ok w => w.ids.map fun g => (List.finRange (1 * 7)).map g
    | .error _ => []) = [[0, 0, 0, 0, 0, 0, 0], [1, 1, 1, 1, 1, 1, 0]] := by decide +kernel

theorem toImg_cell {ny nx : Nat} (f : Fin (ny * nx) → Bool) (y x : Int) (hy : 0 ≤ y ∧ y < ny) (hx : 0 ≤ x ∧ x < nx)
    (h : toImg ny nx f y x = true) : ∃ j : Fin (ny * nx), f j = true ∧ ((j.val / nx : Nat) : Int) = y ∧ ((j.val % nx : Nat) : Int) = x := by
  unfold toImg at h
  split at h
  · rename_i hlt
    have hx' : x.toNat < nx := by omega
    refine ⟨⟨_, hlt⟩, h, ?_, ?_⟩
    · show (((y.toNat * nx + x.toNat) / nx : Nat) : Int) = y
      rw [Nat.mul_comm, Nat.mul_add_div (by omega), Nat.div_eq_of_lt hx']
      omega
    · show (((y.toNat * nx + x.toNat) % nx : Nat) : Int) = x
      rw [Nat.mul_comm, Nat.mul_add_mod, Nat.mod_eq_of_lt hx']
      omega
  · cases h

theorem moved_range (regional : Bool) {m : Nat} (hm : 0 < m) (k : Nat) (d : Int) : 0 ≤ moved regional m k d ∧ moved regional m k d < m := by
  unfold moved
  split
  · omega
  · exact ⟨Int.emod_nonneg _ (by omega), Int.emod_lt_of_pos _ (by omega)⟩

/-- Hole filling of a frame: an extreme cell has an extreme input cell within the radius. -/
theorem fillFrameGrid_within {regional : Bool} {ny nx : Nat} {mask : Fin (ny * nx) → Bool} {R : Nat} {f : Fin (ny * nx) → Bool}
    {i : Fin (ny * nx)} (h : fillFrameGrid regional ny nx mask R f i = true) : ∃ j, WithinCells regional ny nx R i j ∧ f j = true := by
  have hpos : 0 < ny * nx := Nat.lt_of_le_of_lt (Nat.zero_le _) i.isLt
  have hnx : 0 < nx := Nat.pos_of_mul_pos_left hpos
  have hny : 0 < ny := Nat.pos_of_mul_pos_right hpos
  unfold fillFrameGrid ofImg at h
  obtain ⟨dy, dx, hd, hf⟩ := C06_invents_nothing regional ny nx _ R _ _ _
    ⟨Int.natCast_nonneg _, by exact_mod_cast (Nat.div_lt_iff_lt_mul hnx).mpr i.isLt⟩
    ⟨Int.natCast_nonneg _, by exact_mod_cast Nat.mod_lt _ hnx⟩ h
  have hm : toImg ny nx f (moved regional ny (i.val / nx) dy) (moved regional nx (i.val % nx) dx) = true := by
    unfold moved
    cases regional <;> simpa using hf
  obtain ⟨j, hj, h1, h2⟩ := toImg_cell f _ _ (moved_range regional hny _ dy) (moved_range regional hnx _ dx) hm
  exact ⟨j, ⟨dy, dx, hd, h1, h2⟩, hj⟩

/-- **C172**, structured grids, every even `T_fill`, every `R_fill`, every method and setting: a cell that carries an event at a step is an ocean
cell, and next to it (at most `R_fill // 2` cells away, or the cell itself when `T_fill = 0`) there is a cell that has, within `R_fill` cells, an
anomaly at or above its own threshold at that very step, or one before and one after it with at most `T_fill` steps in between. -/
theorem C172_events_near_extremes (cc : Labeller) (hcc : CorrectLabeller cc) {ny nx : Nat} (hnx : 0 < nx)
    (fit : List Nat → Bool → List ℚ → Nat → ℚ) (A : AnomParams) (P : ExtParams) (p : GridRun ny nx) (hT : p.T % 2 = 0)
    (wrap nn : Bool) (thr : ℚ) (cen : Frame (ny * nx) → Nat → ℚ × ℚ) (hp : p.track = gridCfg wrap nn ny nx thr cen)
    (chunks : List Nat) (raw : Nat → Nat → List Sample) (w : FlowOut (ny * nx))
    (h : workflowGrid cc fit A P p chunks raw = .ok w)
    (hot : Nat → Fin (ny * nx) → Prop)
    (hhot : hot = fun t i => Exceeds (P.methodExtreme = "hobday_extreme") (w.prep.anomalies (i.val / nx) (i.val % nx))
      (w.prep.ext.thresholds (i.val / nx) (i.val % nx)) t)
    (t : Nat) (g : Frame (ny * nx)) (hg : w.ids[t]? = some g) (i : Fin (ny * nx)) (hi : 0 < g i) :
    w.prep.mask (i.val / nx) (i.val % nx) = true ∧
    ∃ k, WithinCells p.regional ny nx (if p.T = 0 then 0 else p.R / 2) i k ∧
      ((∃ j, WithinCells p.regional ny nx p.R k j ∧ hot t j) ∨
        ∃ a b, a < t ∧ t < b ∧ b - a - 1 ≤ p.T ∧ (∃ j, WithinCells p.regional ny nx p.R k j ∧ hot a j) ∧
          ∃ j, WithinCells p.regional ny nx p.R k j ∧ hot b j) := by
  unfold workflowGrid at h
  split at h
  · cases h
  rename_i out hout
  split at h
  · cases h
  rename_i r hr
  cases h
  have hid := identify_exceeds (preprocessData_ext hout)
  set q : GridRun ny nx := { p with mask := maskFrame ny nx out.mask } with hq
  set data := eventFrames ny nx out.ext with hdata
  obtain ⟨hl1, hl2, hsup⟩ := C65_grid_run cc hcc hnx q wrap nn thr cen hp chunks data r.1 r.2 hr
  refine ⟨(hsup t g hg i).2 hi, ?_⟩
  have hraw : ∀ t j, IsExtreme data t j → hot t j := by
    intro t j hE
    rw [hdata, isExtreme_eventFrames, (hid _ _).2] at hE
    rw [hhot]
    exact hE.2
  have hfirst : ∀ t k, IsExtreme (data.map (fillFrameGrid q.regional ny nx q.mask q.R)) t k →
      ∃ j, WithinCells p.regional ny nx p.R k j ∧ hot t j := by
    rintro t k ⟨d, hd, hk⟩
    rw [List.getElem?_map] at hd
    obtain ⟨f, hf, rfl⟩ := Option.map_eq_some_iff.mp hd
    obtain ⟨j, hj, hfj⟩ := fillFrameGrid_within hk
    exact ⟨j, hj, hraw t j ⟨f, hf, hfj⟩⟩
  -- the cell is extreme after the filling stages
  have hE : IsExtreme (fillStagesGrid q data) t i := by
    have hpre := (hsup t g hg i).1.mp hi
    unfold runGrid at hr
    split at hr
    · cases hr
    rename_i fr hfr
    cases hr
    unfold preprocessGrid at hfr
    obtain ⟨d, hd, hdi⟩ := hpre
    have hlt : t < (identifyObjectsGrid cc false q.regional nx (fillStagesGrid q data)).length := by
      rw [length_identify, length_fillStagesGrid, ← hl2]; exact (List.getElem?_eq_some_iff.mp hg).1
    have hf := List.getElem?_eq_getElem hlt
    exact (C63_grid_objects_are_components cc hcc q.regional nx hnx (fillStagesGrid q data) t t _ _ hf hf i i).1.mp
      ((filterGrid_sub hfr).2 t _ d hf hd i hdi)
  unfold fillStagesGrid fillTimeGaps at hE
  split at hE
  · rename_i h0
    rw [if_pos h0]
    refine ⟨i, ⟨0, 0, by simp, ?_, ?_⟩, .inl (hfirst t i hE)⟩
    · have : i.val / nx < ny := (Nat.div_lt_iff_lt_mul hnx).mpr i.isLt
      generalize i.val / nx = m at this ⊢
      unfold moved
      split
      · omega
      · rw [Int.add_zero, Int.emod_eq_of_lt (by omega) (by exact_mod_cast this)]
    · have : i.val % nx < nx := Nat.mod_lt _ hnx
      generalize i.val % nx = m at this ⊢
      unfold moved
      split
      · omega
      · rw [Int.add_zero, Int.emod_eq_of_lt (by omega) (by exact_mod_cast this)]
  · rename_i h0
    rw [if_neg h0]
    obtain ⟨d, hd, hdi⟩ := hE
    rw [List.getElem?_map] at hd
    obtain ⟨f, hf, rfl⟩ := Option.map_eq_some_iff.mp hd
    obtain ⟨k, hk, hfk⟩ := fillFrameGrid_within hdi
    refine ⟨k, hk, ?_⟩
    have hX : ExtremeAt (closeTimeGaps q.T (data.map (fillFrameGrid q.regional ny nx q.mask q.R))) t k := ⟨f, hf, hfk⟩
    rcases ((C01_time_gaps_filled_exactly q.T hT _).2 t k).mp hX with h1 | ⟨a, b, ha, hb, hea, heb, _, hlen⟩
    · exact .inl (hfirst t k h1)
    · exact .inr ⟨a, b, ha, hb, hlen, hfirst a k hea, hfirst b k heb⟩

/-- Seven years of one day on a 1 × 3 grid: cell 0 is land, cell 1 is hot in the first year, cell 2 in the third and the sixth. -/
def gapRaw : Nat → Nat → List Sample := fun _ x => (List.range 7).map fun k => ⟨2000 + k, 1,
  if x = 0 then none else if x = 1 ∧ k = 0 ∨ x = 2 ∧ (k = 2 ∨ k = 5) then some 5 else some 0⟩

-- with T_fill = 2 the event of cell 2 goes on in the two years in between, where its anomaly is below its threshold
example : (match workflowGrid quickFind (fun _ _ _ _ => 0) ⟨"fixed_baseline", 15, 21, none⟩ flowExt { flowRun 1 3 with T := 2 } [7] gapRaw with
    | .ok w => w.ids.map fun g => (List.finRange 3).map g
    | .error _ => []) = [[0, 0, 0], [0, 0, 0], [0, 0, 1], [0, 0, 1], [0, 0, 1], [0, 0, 1], [0, 0, 0]] := by decide +kernel

/-- **C174 fails** for the whole workflow: with exact constant percentiles no record on a mesh of fewer than 4445 cells gets as far as tracking. -/
theorem C174_workflow_small_mesh_fails (cc : Labeller) (fit : List Nat → Bool → List ℚ → Nat → ℚ) (A : AnomParams) (P : ExtParams) (h : ExactConstant P)
    (h0 : 0 < n) (hn : n < 4445) (p : MeshRun (1 * n)) (raw : Nat → Nat → List Sample) :
    ∃ e, workflowMesh cc fit A P p raw = .error (.prep e) := by
  have : ∃ e, preprocessData false fit A P 1 n raw = .error e := by
    unfold preprocessData
    split
    · exact ⟨_, rfl⟩
    split
    · exact ⟨_, rfl⟩
    unfold preprocess
    simp only [C174_small_mesh_fails P h n h0 hn]
    repeat' split
    all_goals first | exact ⟨_, rfl⟩ | skip
  obtain ⟨e, he⟩ := this
  exact ⟨e, by unfold workflowMesh; rw [he]⟩

end MarEx.Props
