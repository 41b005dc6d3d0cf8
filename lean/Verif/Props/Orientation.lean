import Verif.Props.Percentiles
import Verif.Lemmas.Threshold
/-! C186: the orientation of the grid does not matter to preprocessing. -/
namespace MarEx.Props
open MarEx Spec

/-- A rearrangement of the cells of a grid. -/
structure Rearrangement (ny nx : Nat) (σ : Nat → Nat → Nat × Nat) : Prop where
  inside : ∀ y x, y < ny → x < nx → (σ y x).1 < ny ∧ (σ y x).2 < nx
  onto : ∀ y x, y < ny → x < nx → ∃ y' x', y' < ny ∧ x' < nx ∧ σ y' x' = (y, x)

/-- It carries windows of cells to windows of cells, or there is no spatial window. -/
def KeepsWindows (ny nx : Nat) (σ : Nat → Nat → Nat × Nat) (s : Nat) : Prop :=
  s ≤ 1 ∨ s / 2 ≤ nx ∧ (s % 2 = 1 → ∀ y x, y < ny → x < nx →
    ((cellWindow s ny nx y x).map fun c => σ c.1 c.2).Perm (cellWindow s ny nx (σ y x).1 (σ y x).2))

theorem pooled_rearranged {ny nx : Nat} {σ : Nat → Nat → Nat × Nat} (hσ : Rearrangement ny nx σ) (s : Nat)
    (hs : KeepsWindows ny nx σ s) (ho : s ≤ 1 ∨ s % 2 = 1) (H : Nat → Nat → Nat) (y x : Nat) (hy : y < ny) (hx : x < nx) :
    pooled s ny nx (fun y x => H (σ y x).1 (σ y x).2) y x = pooled s ny nx H (σ y x).1 (σ y x).2 := by
  by_cases h1 : s ≤ 1
  · unfold pooled; rw [if_pos h1, if_pos h1]
  · obtain ⟨hn, hwin⟩ := hs.resolve_left h1
    have hs := ho.resolve_left h1
    obtain ⟨i1, i2⟩ := hσ.inside y x hy hx
    rw [pooled_eq s ny nx hs hn _ y x hy hx, pooled_eq s ny nx hs hn _ _ _ i1 i2, ← ((hwin hs y x hy hx).map fun c => H c.1 c.2).sum_eq,
      List.map_map]
    rfl

theorem gridThresholds_rearranged {ny nx : Nat} {σ : Nat → Nat → Nat × Nat} (hσ : Rearrangement ny nx σ) (p mx q : ℚ) (w s : Nat)
    (hs : KeepsWindows ny nx σ s) (ho : s ≤ 1 ∨ s % 2 = 1) (recs : Nat → Nat → List Sample) (y x : Nat) (hy : y < ny) (hx : x < nx) :
    gridThresholds p mx q w s ny nx (fun y x => recs (σ y x).1 (σ y x).2) y x = gridThresholds p mx q w s ny nx recs (σ y x).1 (σ y x).2 := by
  unfold gridThresholds
  congr 1
  unfold pooledHist
  refine List.map_congr_left fun d _ => List.map_congr_left fun b _ => ?_
  exact pooled_rearranged hσ s hs ho (fun y' x' => ((doyHist p mx (recs y' x')).getD d []).getD b 0) y x hy hx

theorem windowedHist_ok {w m : Nat} {hist hist' : List (List Nat)} (hl : hist'.length = hist.length) {rows : List (List Nat)}
    (h : windowedHist w m hist = .ok rows) : ∃ rows', windowedHist w m hist' = .ok rows' := by
  have hp : (pyTail (w / 2) hist' ++ hist' ++ hist'.take (w / 2)).length = (pyTail (w / 2) hist ++ hist ++ hist.take (w / 2)).length := by
    simp only [List.length_append, List.length_take, hl, pyTail]
    split <;> simp [hl]
  unfold windowedHist at h ⊢
  simp only [List.length_map, List.length_range] at h ⊢
  rw [hp, hl]
  split at h
  · cases h
  rename_i h1
  rw [if_neg h1]
  split at h
  · rename_i h2
    rw [if_pos h2]
    exact ⟨_, rfl⟩
  · cases h

/-- Whether the shapes fit does not depend on the cell. -/
theorem gridThresholds_ok (p mx q : ℚ) (w s ny nx : Nat) (recs recs' : Nat → Nat → List Sample) (y x y' x' : Nat) {ts : List (Option ℚ)}
    (h : gridThresholds p mx q w s ny nx recs y x = .ok ts) : ∃ ts', gridThresholds p mx q w s ny nx recs' y' x' = .ok ts' := by
  unfold gridThresholds thresholds2d at h ⊢
  split at h
  · cases h
  rename_i rows hr
  obtain ⟨rows', hr'⟩ := windowedHist_ok (hist' := pooledHist p mx s ny nx recs' y' x') (by simp [pooledHist]) hr
  rw [hr']
  exact ⟨_, rfl⟩

theorem fold_max_pos (l : List Nat) (a : Nat) : 0 < l.foldl max a ↔ 0 < a ∨ ∃ b ∈ l, 0 < b := by
  induction l generalizing a with
  | nil => simp
  | cons b l ih => rw [List.foldl_cons, ih]; simp only [lt_max_iff, List.mem_cons, exists_eq_or_imp, or_assoc]

/-- The check of the values depends on the set of series only. -/
theorem validateData_congr {cells cells' : List (List (Option ℚ))} (h : ∀ c, c ∈ cells' ↔ c ∈ cells) : validateData cells' = validateData cells := by
  unfold validateData
  dsimp only
  have h1 : (cells'.filter fun c => (c.headD none).isSome).isEmpty = (cells.filter fun c => (c.headD none).isSome).isEmpty := by
    rw [Bool.eq_iff_iff, List.isEmpty_iff, List.isEmpty_iff, List.filter_eq_nil_iff, List.filter_eq_nil_iff]
    simp only [h]
  rw [h1]
  have h2 : (0 < ((cells'.filter fun c => (c.headD none).isSome).map fun c => (c.filter fun v => v.isNone).length).foldl max 0) ↔
      (0 < ((cells.filter fun c => (c.headD none).isSome).map fun c => (c.filter fun v => v.isNone).length).foldl max 0) := by
    rw [fold_max_pos, fold_max_pos]
    simp only [List.mem_map, List.mem_filter, h]
  simp only [h2]

theorem validate_rearranged {ny nx : Nat} {σ : Nat → Nat → Nat × Nat} (hσ : Rearrangement ny nx σ) (raw : Nat → Nat → List Sample) :
    validateData ((List.range ny).flatMap fun y => (List.range nx).map fun x => (raw (σ y x).1 (σ y x).2).map Sample.val) =
    validateData ((List.range ny).flatMap fun y => (List.range nx).map fun x => (raw y x).map Sample.val) := by
  apply validateData_congr
  intro c
  simp only [List.mem_flatMap, List.mem_map, List.mem_range]
  constructor
  · rintro ⟨y, hy, x, hx, rfl⟩
    obtain ⟨h1, h2⟩ := hσ.inside y x hy hx
    exact ⟨_, h1, _, h2, rfl⟩
  · rintro ⟨y, hy, x, hx, rfl⟩
    obtain ⟨y', x', h1, h2, h3⟩ := hσ.onto y x hy hx
    exact ⟨y', h1, x', h2, by rw [h3]⟩

/-- The spatial windows of a configuration that passed the checks. -/
theorem poolSize_odd {gridded : Bool} {P : ExtParams} {d : Int} {sp : Option Int} (h : checkExtremes gridded P = .ok (.hobday d sp)) :
    sp = effectiveSpatial gridded P ∧ (poolSize sp ≤ 1 ∨ poolSize sp % 2 = 1) := by
  unfold checkExtremes at h
  split at h
  · cases h
  split at h
  · cases h
  split at h
  · cases h
  split at h
  · cases h
  rename_i hodd
  unfold dispatch at h
  split at h
  · cases h
  rename_i hg
  split at h
  · rename_i hh
    split at h
    · cases h
    rename_i w hw
    simp only [Except.ok.injEq, Chosen.hobday.injEq] at h
    obtain ⟨rfl, rfl⟩ := h
    refine ⟨rfl, ?_⟩
    unfold checkSpatialOdd at hodd
    cases he : effectiveSpatial gridded P with
    | none => left; simp [poolSize]
    | some s =>
      rw [he] at hodd
      simp only [hh, true_and] at hodd
      split at hodd
      · rw [hw] at hodd; cases hodd
      · rename_i hne
        simp only [poolSize]
        omega
  · cases h

theorem identify_rearranged {ny nx : Nat} {σ : Nat → Nat → Nat × Nat} (hσ : Rearrangement ny nx σ) (gridded : Bool)
    (P : ExtParams) (hfit : ∀ s, effectiveSpatial gridded P = some s → KeepsWindows ny nx σ s.toNat) (recs : Nat → Nat → List Sample) (ext : ExtOut)
    (h : identifyExtremes gridded P ny nx recs = .ok ext) :
    ∃ ext', identifyExtremes gridded P ny nx (fun y x => recs (σ y x).1 (σ y x).2) = .ok ext' ∧ ∀ y x, y < ny → x < nx →
      ext'.extremes y x = ext.extremes (σ y x).1 (σ y x).2 ∧ ext'.thresholds y x = ext.thresholds (σ y x).1 (σ y x).2 := by
  unfold identifyExtremes at h ⊢
  split at h
  · cases h
  rename_i c hc
  split at h
  · cases h
  rename_i hlay
  rw [if_neg hlay]
  unfold runExtremes at h ⊢
  split at h
  · cases h
  rename_i hq
  rw [if_neg hq]
  cases c with
  | global =>
    simp only [Except.ok.injEq] at h ⊢
    subst h
    exact ⟨_, rfl, fun y x _ _ => ⟨rfl, rfl⟩⟩
  | hobday d sp =>
    dsimp only at h ⊢
    obtain ⟨hsp, hodd⟩ := poolSize_odd hc
    have hs : KeepsWindows ny nx σ (poolSize sp) := by
      cases sp with
      | none => exact Or.inl (le_refl 1)
      | some s => exact hfit s hsp.symm
    split at h
    · cases h
    rename_i hd
    rw [if_neg hd]
    split at h
    · rename_i he
      rw [if_pos he]
      simp only [Except.ok.injEq] at h ⊢
      subst h
      exact ⟨_, rfl, fun y x _ _ => ⟨rfl, rfl⟩⟩
    · rename_i he
      rw [if_neg he]
      unfold runApproxDays at h ⊢
      split at h
      · cases h
      rename_i ts hts
      obtain ⟨ts', hts'⟩ := gridThresholds_ok _ _ _ _ _ _ _ recs (fun y x => recs (σ y x).1 (σ y x).2) 0 0 0 0 hts
      rw [hts']
      simp only [Except.ok.injEq] at h
      subst h
      refine ⟨_, rfl, fun y x hy hx => ?_⟩
      dsimp only
      rw [gridThresholds_rearranged hσ _ _ _ _ _ hs hodd recs y x hy hx]
      exact ⟨rfl, rfl⟩

/-- Whether the record is too short depends on its dates only. -/
theorem anomalyCell_ok_of_dates (m : AnomalyMethod) {a b : List Sample} (hd : SameDates a b) {r : List Sample} (h : anomalyCell m b = .ok r) :
    ∃ r', anomalyCell m a = .ok r' := by
  cases m with
  | fixed => exact ⟨_, rfl⟩
  | detrend fit => exact ⟨_, rfl⟩
  | detrendFixed fit => exact ⟨_, rfl⟩
  | shifting W w =>
    simp only [anomalyCell] at h ⊢
    have hs : ∀ l : List Sample, SameDates (shiftingAnomaly W w l) l := fun l =>
      sameDates_withVals (by simp [smoothedClim, rollingClim, withVals, length_rollMean])
    have hab : SameDates (shiftingAnomaly W w a) (shiftingAnomaly W w b) := (hs a).trans (hd.trans (hs b).symm)
    unfold shiftingBaseline trimShifting at h ⊢
    simp only [maxYear_congr hab, minYear_congr hab] at h ⊢
    split at h
    · cases h
    rename_i hc
    split at hc
    · cases hc
    rename_i hlen
    rw [if_neg hlen]
    exact ⟨_, rfl⟩

theorem preprocess_rearranged {ny nx : Nat} {σ : Nat → Nat → Nat × Nat} (hσ : Rearrangement ny nx σ) (gridded : Bool) (m : AnomalyMethod) (P : ExtParams)
    (hfit : ∀ s, effectiveSpatial gridded P = some s → KeepsWindows ny nx σ s.toNat) (raw : Nat → Nat → List Sample) (hdates : ∀ y x, SameDates (raw y x) (raw 0 0))
    (out : PrepOut) (h : preprocess gridded m P ny nx raw = .ok out) :
    ∃ out', preprocess gridded m P ny nx (fun y x => raw (σ y x).1 (σ y x).2) = .ok out' ∧ ∀ y x, y < ny → x < nx →
      out'.mask y x = out.mask (σ y x).1 (σ y x).2 ∧ out'.anomalies y x = out.anomalies (σ y x).1 (σ y x).2 ∧
      out'.ext.extremes y x = out.ext.extremes (σ y x).1 (σ y x).2 ∧ out'.ext.thresholds y x = out.ext.thresholds (σ y x).1 (σ y x).2 := by
  unfold preprocess at h ⊢
  rw [validate_rearranged hσ raw]
  split at h
  · cases h
  split at h
  · cases h
  rename_i r0 hr0
  obtain ⟨r', hr'⟩ := anomalyCell_ok_of_dates m (hdates (σ 0 0).1 (σ 0 0).2) hr0
  rw [hr']
  dsimp only at h ⊢
  split at h
  · cases h
  rename_i ext hext
  simp only [Except.ok.injEq] at h
  subst h
  obtain ⟨ext', he, hcell⟩ := identify_rearranged hσ gridded P hfit _ ext hext
  rw [he]
  refine ⟨_, rfl, fun y x hy hx => ⟨?_, rfl, (hcell y x hy hx).1, (hcell y x hy hx).2⟩⟩
  cases m <;> rfl

/-! ### The three rearrangements -/

theorem cellWindow_map_lon (s ny nx y x x' : Nat) (f : Nat → Nat) (h : ((lonWindow s nx x).map f).Perm (lonWindow s nx x')) :
    ((cellWindow s ny nx y x).map fun c => (c.1, f c.2)).Perm (cellWindow s ny nx y x') := by
  unfold cellWindow
  rw [List.map_flatMap]
  refine List.Perm.flatMap_left _ fun a _ => ?_
  rw [List.map_map]
  have := h.map fun x' => (a, x')
  rw [List.map_map] at this
  exact this

theorem rotation (ny nx k : Nat) : Rearrangement ny nx fun y x => (y, (x + k) % nx) where
  inside y x hy hx := ⟨hy, Nat.mod_lt _ (by omega)⟩
  onto y x hy hx := by
    have hk : k % nx < nx := Nat.mod_lt _ (by omega)
    refine ⟨y, (x + (nx - k % nx)) % nx, hy, Nat.mod_lt _ (by omega), ?_⟩
    rw [Nat.mod_add_mod, Prod.mk.injEq]
    refine ⟨rfl, ?_⟩
    have hdm := Nat.div_add_mod k nx
    rw [show x + (nx - k % nx) + k = x + nx * (k / nx + 1) by rw [Nat.mul_add]; omega, Nat.add_mul_mod_self_left, Nat.mod_eq_of_lt hx]

theorem rotation_windows (ny nx k s : Nat) (hn : s / 2 ≤ nx) : KeepsWindows ny nx (fun y x => (y, (x + k) % nx)) s := by
  refine Or.inr ⟨hn, fun hs y x hy hx => ?_⟩
  · apply cellWindow_map_lon (f := fun a => (a + k) % nx)
    unfold lonWindow
    rw [List.map_map]
    refine List.Perm.of_eq (List.map_congr_left fun j hj => ?_)
    simp only [Function.comp]
    have hs0 : s / 2 ≤ nx * s := le_trans (Nat.div_le_self s 2) (Nat.le_mul_of_pos_left s (by omega))
    rw [Nat.mod_add_mod]
    rw [show x + nx * s + j - s / 2 + k = (x + k) + (nx * s + j - s / 2) by omega,
      show (x + k) % nx + nx * s + j - s / 2 = (x + k) % nx + (nx * s + j - s / 2) by omega, Nat.mod_add_mod]

theorem mirror_lon (ny nx : Nat) : Rearrangement ny nx fun y x => (y, nx - 1 - x) where
  inside y x hy hx := ⟨hy, by dsimp only; omega⟩
  onto y x hy hx := ⟨y, nx - 1 - x, hy, by omega, by rw [Prod.mk.injEq]; exact ⟨rfl, by omega⟩⟩

theorem mirror_lon_windows (ny nx s : Nat) (hn : s / 2 ≤ nx) : KeepsWindows ny nx (fun y x => (y, nx - 1 - x)) s := by
  refine Or.inr ⟨hn, fun hs y x hy hx => ?_⟩
  · apply cellWindow_map_lon (f := fun a => nx - 1 - a)
    have : (lonWindow s nx x).map (fun a => nx - 1 - a) = (lonWindow s nx (nx - 1 - x)).reverse := by
      apply List.ext_getElem
      · simp [lonWindow]
      intro j h1 h2
      have hj : j < s := by simpa [lonWindow] using h1
      simp only [lonWindow, List.getElem_map, List.getElem_range, List.getElem_reverse, List.length_map, List.length_range]
      have hs0 : s ≤ nx * s := Nat.le_mul_of_pos_left s (by omega)
      set a := x + nx * s + j - s / 2 with ha
      set b := nx - 1 - x + nx * s + (s - 1 - j) - s / 2 with hb
      have hab : a + b + 1 = nx * (2 * s + 1) := by
        have : nx * (2 * s + 1) = 2 * (nx * s) + nx := by ring
        omega
      have hr := Nat.mod_lt a (show nx > 0 by omega)
      have hdm := Nat.div_add_mod a nx
      have hq : nx * (a / nx) < nx * (2 * s + 1) := by omega
      have hq' : a / nx < 2 * s + 1 := Nat.lt_of_mul_lt_mul_left hq
      have : b = (nx - 1 - a % nx) + nx * (2 * s - a / nx) := by
        have : nx * (2 * s - a / nx) + nx * (a / nx) + nx = nx * (2 * s + 1) := by
          rw [← Nat.mul_add, Nat.sub_add_cancel (by omega)]; ring
        omega
      rw [this, Nat.add_mul_mod_self_left, Nat.mod_eq_of_lt (show nx - 1 - a % nx < nx by omega)]
    rw [this]
    exact List.reverse_perm _

theorem mirror_lat (ny nx : Nat) : Rearrangement ny nx fun y x => (ny - 1 - y, x) where
  inside y x hy hx := ⟨by dsimp only; omega, hx⟩
  onto y x hy hx := ⟨ny - 1 - y, x, by omega, hx, by rw [Prod.mk.injEq]; exact ⟨by omega, rfl⟩⟩

theorem mirror_lat_windows (ny nx s : Nat) (hn : s / 2 ≤ nx) : KeepsWindows ny nx (fun y x => (ny - 1 - y, x)) s := by
  refine Or.inr ⟨hn, fun hs y x hy hx => ?_⟩
  · have : (latWindow s ny y).map (fun a => ny - 1 - a) = (latWindow s ny (ny - 1 - y)).reverse := by
      unfold latWindow
      rw [← List.filterMap_reverse, List.map_filterMap]
      have hrev : (List.range s).reverse = (List.range s).map fun k => s - 1 - k := by
        apply List.ext_getElem
        · simp
        · intro j h1 h2; simp
      rw [hrev, List.filterMap_map]
      apply List.filterMap_congr
      intro k hk
      have hk := List.mem_range.1 hk
      simp only [Function.comp]
      by_cases h : s / 2 ≤ y + k ∧ y + k - s / 2 < ny
      · rw [if_pos h, if_pos ⟨by omega, by omega⟩, Option.map_some, Option.some.injEq]; omega
      · rw [if_neg h, if_neg (by omega)]; rfl
    unfold cellWindow
    rw [List.map_flatMap]
    have h2 : (latWindow s ny y).flatMap (fun a => ((lonWindow s nx x).map fun x' => (a, x')).map fun c => (ny - 1 - c.1, c.2)) =
        ((latWindow s ny y).map fun a => ny - 1 - a).flatMap fun a => (lonWindow s nx x).map fun x' => (a, x') := by
      rw [List.flatMap_map]
      simp only [List.map_map, Function.comp_def]
    rw [h2, this]
    exact List.Perm.flatMap_right _ (List.reverse_perm _)

/-- The results `out'` of rearranged data are those of the data, rearranged. -/
def SameAtCells (ny nx : Nat) (σ : Nat → Nat → Nat × Nat) (out' out : PrepOut) : Prop :=
  ∀ y x, y < ny → x < nx → out'.mask y x = out.mask (σ y x).1 (σ y x).2 ∧ out'.anomalies y x = out.anomalies (σ y x).1 (σ y x).2 ∧
    out'.ext.extremes y x = out.ext.extremes (σ y x).1 (σ y x).2 ∧ out'.ext.thresholds y x = out.ext.thresholds (σ y x).1 (σ y x).2

/-- **C186**, longitude: wherever the map is cut, the results are the same at every place. -/
theorem C186_start_longitude (m : AnomalyMethod) (P : ExtParams) (ny nx k : Nat)
    (hfit : ∀ s, effectiveSpatial true P = some s → s.toNat / 2 ≤ nx) (raw : Nat → Nat → List Sample) (hdates : ∀ y x, SameDates (raw y x) (raw 0 0))
    (out : PrepOut) (h : preprocess true m P ny nx raw = .ok out) :
    ∃ out', preprocess true m P ny nx (fun y x => raw y ((x + k) % nx)) = .ok out' ∧ SameAtCells ny nx (fun y x => (y, (x + k) % nx)) out' out :=
  preprocess_rearranged (rotation ny nx k) true m P (fun s hs => rotation_windows ny nx k _ (hfit s hs)) raw hdates out h

/-- **C186**: longitudes may run east or west. -/
theorem C186_longitude_order (m : AnomalyMethod) (P : ExtParams) (ny nx : Nat)
    (hfit : ∀ s, effectiveSpatial true P = some s → s.toNat / 2 ≤ nx) (raw : Nat → Nat → List Sample) (hdates : ∀ y x, SameDates (raw y x) (raw 0 0))
    (out : PrepOut) (h : preprocess true m P ny nx raw = .ok out) :
    ∃ out', preprocess true m P ny nx (fun y x => raw y (nx - 1 - x)) = .ok out' ∧ SameAtCells ny nx (fun y x => (y, nx - 1 - x)) out' out :=
  preprocess_rearranged (mirror_lon ny nx) true m P (fun s hs => mirror_lon_windows ny nx _ (hfit s hs)) raw hdates out h

/-- **C186**: latitudes may run north or south. -/
theorem C186_latitude_order (m : AnomalyMethod) (P : ExtParams) (ny nx : Nat)
    (hfit : ∀ s, effectiveSpatial true P = some s → s.toNat / 2 ≤ nx) (raw : Nat → Nat → List Sample) (hdates : ∀ y x, SameDates (raw y x) (raw 0 0))
    (out : PrepOut) (h : preprocess true m P ny nx raw = .ok out) :
    ∃ out', preprocess true m P ny nx (fun y x => raw (ny - 1 - y) x) = .ok out' ∧ SameAtCells ny nx (fun y x => (ny - 1 - y, x)) out' out :=
  preprocess_rearranged (mirror_lat ny nx) true m P (fun s hs => mirror_lat_windows ny nx _ (hfit s hs)) raw hdates out h

/-- A hypothesis-free window: no spatial window is accepted on a mesh. -/
theorem mesh_no_window {P : ExtParams} {c : Chosen} (h : checkExtremes false P = .ok c) : effectiveSpatial false P = none := by
  unfold checkExtremes at h
  split at h
  · cases h
  split at h
  · cases h
  rename_i hs
  unfold checkSpatial at hs
  unfold effectiveSpatial
  cases hw : P.windowSpatial with
  | none => simp
  | some s => rw [hw] at hs; simp at hs

/-- **C186**: the cells of a mesh may be numbered in any order. -/
theorem C186_mesh_numbering (m : AnomalyMethod) (P : ExtParams) (n : Nat) (number : Nat → Nat) (hin : ∀ i, i < n → number i < n)
    (honto : ∀ i, i < n → ∃ j, j < n ∧ number j = i) (raw : Nat → List Sample) (hdates : ∀ i, SameDates (raw i) (raw 0))
    (out : PrepOut) (h : preprocess false m P 1 n (fun _ i => raw i) = .ok out) :
    ∃ out', preprocess false m P 1 n (fun _ i => raw (number i)) = .ok out' ∧ SameAtCells 1 n (fun y i => (y, number i)) out' out := by
  have hσ : Rearrangement 1 n (fun y i => (y, number i)) :=
    ⟨fun y x hy hx => ⟨hy, hin x hx⟩, fun y x hy hx => by
      obtain ⟨j, hj, he⟩ := honto x hx
      exact ⟨y, j, hy, hj, by rw [he]⟩⟩
  refine preprocess_rearranged hσ false m P (fun s hs => ?_) (fun _ i => raw i) (fun _ i => hdates i) out h
  have hc : ∃ c, checkExtremes false P = .ok c := by
    unfold preprocess at h
    split at h
    · cases h
    split at h
    · cases h
    dsimp only at h
    split at h
    · cases h
    rename_i ext hext
    unfold identifyExtremes at hext
    split at hext
    · cases hext
    · rename_i c hc; exact ⟨c, hc⟩
  obtain ⟨c, hc⟩ := hc
  rw [mesh_no_window hc] at hs
  cases hs

/-- A grid of two rows and three columns whose cells differ; one of them is land. -/
def sixCells (y x : Nat) : List Sample :=
  (List.range 12).map fun i => ⟨2000 + i / 3, i % 3 + 1, if y = 0 ∧ x = 1 then none else some ((i * (x + 1) + y : Nat) / 4 : ℚ)⟩

example : (∀ y x, SameDates (sixCells y x) (sixCells 0 0)) := by
  intro y x; simp [SameDates, sixCells, Function.comp_def]

example : (match preprocess true .fixed ⟨"hobday_extreme", 90, some 3, some 3, "approximate", 1, 3⟩ 2 3 sixCells with
    | .ok out => decide (out.mask 0 0 = true ∧ out.mask 0 1 = false) && (out.ext.extremes 0 2).contains true | .error _ => false) = true := by
  decide +kernel

example : (match preprocess false (.shifting 2 1) ⟨"global_extreme", 90, some 3, none, "approximate", 1, 3⟩ 1 3 sixCells with
    | .ok _ => true | .error _ => false) = true := by
  decide +kernel

end MarEx.Props
