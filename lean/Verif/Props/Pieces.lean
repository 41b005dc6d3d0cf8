import Verif.Props.Orientation
import Verif.Props.Threshold
/-! C189: preprocessing a region by itself gives the same as preprocessing everything. -/
namespace MarEx.Spec

/-- The rows and columns of a piece of a grid: the piece has `ny'` rows from row `y0` on and `nx'` columns from column `x0` on. -/
structure PieceOf (ny' nx' y0 x0 ny nx : Nat) : Prop where
  rows : y0 + ny' ≤ ny
  columns : x0 + nx' ≤ nx

/-- The window of `r` cells around the cell `(y, x)` of a piece lies in the piece, as far as it lies in the grid: `(y, x)` is at least `r` rows away from
each edge of the piece that is not an edge of the grid, and `r` columns from both ends unless the piece has all columns. -/
def WindowInPiece (r ny' nx' y0 ny nx y x : Nat) : Prop :=
  (r ≤ y ∨ y0 = 0) ∧ (y + r < ny' ∨ y0 + ny' = ny) ∧ (r ≤ x ∧ x + r < nx' ∨ nx' = nx)

end MarEx.Spec

namespace MarEx.Props
open MarEx Spec

theorem latWindow_piece {r ny' y0 ny : Nat} (hp : y0 + ny' ≤ ny) (s y : Nat) (hr : r = s / 2) (hodd : s % 2 = 1) (hy : y < ny')
    (h1 : r ≤ y ∨ y0 = 0) (h2 : y + r < ny' ∨ y0 + ny' = ny) :
    (latWindow s ny' y).map (y0 + ·) = latWindow s ny (y0 + y) := by
  unfold latWindow
  rw [List.map_filterMap]
  apply List.filterMap_congr
  intro k hk
  have hk := List.mem_range.1 hk
  by_cases h : s / 2 ≤ y + k ∧ y + k - s / 2 < ny'
  · rw [if_pos h, if_pos ⟨by omega, by omega⟩, Option.map_some, Option.some.injEq]; omega
  · rw [if_neg h, if_neg (by omega)]; rfl

theorem lonWindow_inside {nx : Nat} (s x : Nat) (h1 : s / 2 ≤ x) (h2 : x + s / 2 < nx) :
    lonWindow s nx x = (List.range s).map fun k => x + k - s / 2 := by
  unfold lonWindow
  refine List.map_congr_left fun k hk => ?_
  have hk := List.mem_range.1 hk
  rw [show x + nx * s + k - s / 2 = (x + k - s / 2) + nx * s by omega, Nat.add_mul_mod_self_left, Nat.mod_eq_of_lt (by omega)]

theorem lonWindow_piece {nx' x0 nx : Nat} (hp : x0 + nx' ≤ nx) (s x : Nat)
    (h : s / 2 ≤ x ∧ x + s / 2 < nx' ∨ nx' = nx) : (lonWindow s nx' x).map (x0 + ·) = lonWindow s nx (x0 + x) := by
  rcases h with ⟨h1, h2⟩ | rfl
  · rw [lonWindow_inside s x h1 h2, lonWindow_inside s (x0 + x) (by omega) (by omega), List.map_map]
    refine List.map_congr_left fun k hk => ?_
    simp only [Function.comp]; omega
  · obtain rfl : x0 = 0 := by omega
    simp

theorem cellWindow_piece {ny' nx' y0 x0 ny nx : Nat} (hp : PieceOf ny' nx' y0 x0 ny nx) (s y x : Nat) (hodd : s % 2 = 1) (hy : y < ny')
    (hw : WindowInPiece (s / 2) ny' nx' y0 ny nx y x) :
    (cellWindow s ny' nx' y x).map (fun c => (y0 + c.1, x0 + c.2)) = cellWindow s ny nx (y0 + y) (x0 + x) := by
  unfold cellWindow
  rw [← latWindow_piece hp.rows s y rfl hodd hy hw.1 hw.2.1, ← lonWindow_piece hp.columns s x hw.2.2, List.map_flatMap, List.flatMap_map]
  simp only [List.map_map, Function.comp_def]

theorem pooled_piece {ny' nx' y0 x0 ny nx : Nat} (hp : PieceOf ny' nx' y0 x0 ny nx) (s y x : Nat) (ho : s ≤ 1 ∨ s % 2 = 1) (hy : y < ny') (hx : x < nx')
    (hw : s ≤ 1 ∨ s / 2 ≤ nx ∧ WindowInPiece (s / 2) ny' nx' y0 ny nx y x) (H : Nat → Nat → Nat) :
    pooled s ny' nx' (fun y x => H (y0 + y) (x0 + x)) y x = pooled s ny nx H (y0 + y) (x0 + x) := by
  by_cases h1 : s ≤ 1
  · unfold pooled; rw [if_pos h1, if_pos h1]
  · have hs := ho.resolve_left h1
    obtain ⟨hn, hw⟩ := hw.resolve_left h1
    have hr := hp.rows
    have hc := hp.columns
    have hn' : s / 2 ≤ nx' := by rcases hw.2.2 with h | h <;> omega
    rw [pooled_eq s ny' nx' hs hn' _ y x hy hx, pooled_eq s ny nx hs hn _ _ _ (by omega) (by omega), ← cellWindow_piece hp s y x hs hy hw, List.map_map]
    rfl

theorem gridThresholds_piece {ny' nx' y0 x0 ny nx : Nat} (hp : PieceOf ny' nx' y0 x0 ny nx) (p mx q : ℚ) (w s y x : Nat) (ho : s ≤ 1 ∨ s % 2 = 1)
    (hy : y < ny') (hx : x < nx') (hw : s ≤ 1 ∨ s / 2 ≤ nx ∧ WindowInPiece (s / 2) ny' nx' y0 ny nx y x) (recs : Nat → Nat → List Sample) :
    gridThresholds p mx q w s ny' nx' (fun y x => recs (y0 + y) (x0 + x)) y x = gridThresholds p mx q w s ny nx recs (y0 + y) (x0 + x) := by
  unfold gridThresholds
  congr 1
  unfold pooledHist
  refine List.map_congr_left fun d _ => List.map_congr_left fun b _ => ?_
  exact pooled_piece hp s y x ho hy hx hw (fun y' x' => ((doyHist p mx (recs y' x')).getD d []).getD b 0)

/-- The cell sees the same neighbours in the piece as in the whole. -/
def SameNeighbours (gridded : Bool) (P : ExtParams) (ny' nx' y0 ny nx y x : Nat) : Prop :=
  P.methodExtreme = "hobday_extreme" → P.methodPercentile = "approximate" → ∀ s, effectiveSpatial gridded P = some s → 1 < s →
    s.toNat / 2 ≤ nx ∧ WindowInPiece (s.toNat / 2) ny' nx' y0 ny nx y x

theorem identify_piece {ny' nx' y0 x0 ny nx : Nat} (hp : PieceOf ny' nx' y0 x0 ny nx) (gridded : Bool) (P : ExtParams) (recs : Nat → Nat → List Sample)
    (ext ext' : ExtOut) (h : identifyExtremes gridded P ny nx recs = .ok ext)
    (h' : identifyExtremes gridded P ny' nx' (fun y x => recs (y0 + y) (x0 + x)) = .ok ext') (y x : Nat) (hy : y < ny') (hx : x < nx')
    (hw : SameNeighbours gridded P ny' nx' y0 ny nx y x) :
    ext'.extremes y x = ext.extremes (y0 + y) (x0 + x) ∧ ext'.thresholds y x = ext.thresholds (y0 + y) (x0 + x) := by
  unfold identifyExtremes at h h'
  split at h
  · cases h
  rename_i c hc
  rw [hc] at h'
  dsimp only at h'
  split at h
  · cases h
  split at h'
  · cases h'
  unfold runExtremes at h h'
  split at h
  · cases h
  rename_i hq
  rw [if_neg hq] at h'
  cases c with
  | global =>
    simp only [Except.ok.injEq] at h h'
    subst h h'
    exact ⟨rfl, rfl⟩
  | hobday d sp =>
    dsimp only at h h'
    obtain ⟨hsp, hodd⟩ := poolSize_odd hc
    split at h
    · cases h
    rename_i hd
    rw [if_neg hd] at h'
    split at h
    · rename_i he
      rw [if_pos he] at h'
      simp only [Except.ok.injEq] at h h'
      subst h h'
      exact ⟨rfl, rfl⟩
    · rename_i he
      rw [if_neg he] at h'
      have hm : P.methodExtreme = "hobday_extreme" ∧ P.methodPercentile = "approximate" := by
        unfold checkExtremes at hc
        split at hc
        · cases hc
        rename_i hcp
        constructor
        · split at hc
          · cases hc
          split at hc
          · cases hc
          split at hc
          · cases hc
          unfold dispatch at hc
          split at hc
          · cases hc
          split at hc
          · assumption
          · cases hc
        · unfold checkPercentile at hcp
          by_contra hne
          rw [if_pos ⟨he, hne⟩] at hcp
          cases hcp
      have hs : poolSize sp ≤ 1 ∨ poolSize sp / 2 ≤ nx ∧ WindowInPiece (poolSize sp / 2) ny' nx' y0 ny nx y x := by
        cases hsp' : sp with
        | none => exact Or.inl (le_refl 1)
        | some s =>
          by_cases h1 : 1 < s
          · exact Or.inr (hw hm.1 hm.2 s (by rw [← hsp, hsp']) h1)
          · left; simp only [poolSize]; omega
      unfold runApproxDays at h h'
      split at h
      · cases h
      split at h'
      · cases h'
      simp only [Except.ok.injEq] at h h'
      subst h h'
      dsimp only
      rw [gridThresholds_piece hp _ _ _ _ _ y x hodd hy hx hs recs]
      exact ⟨rfl, rfl⟩

/-- **C189**: let `preprocess_data` be applied to a whole grid and to a rectangular piece of it (`ny'` by `nx'` cells from row `y0` and column `x0` on).
At every cell of the piece the mask and the anomalies are the same; so are thresholds and extremes, unless day-of-year thresholds are computed by the
approximate method and the window of cells around the cell is cut by the edge of the piece.  Missing: those cells, see below. -/
theorem C189_pieces_partial {ny' nx' y0 x0 ny nx : Nat} (hp : PieceOf ny' nx' y0 x0 ny nx) (m : AnomalyMethod) (P : ExtParams)
    (raw : Nat → Nat → List Sample) (out out' : PrepOut) (h : preprocess true m P ny nx raw = .ok out)
    (h' : preprocess true m P ny' nx' (fun y x => raw (y0 + y) (x0 + x)) = .ok out') (y x : Nat) (hy : y < ny') (hx : x < nx') :
    out'.mask y x = out.mask (y0 + y) (x0 + x) ∧ out'.anomalies y x = out.anomalies (y0 + y) (x0 + x) ∧
    ((P.methodExtreme = "hobday_extreme" → P.methodPercentile = "approximate" →
        ∀ s, (if P.windowSpatial = none then some 5 else P.windowSpatial) = some s → 1 < s →
          s.toNat / 2 ≤ nx ∧ WindowInPiece (s.toNat / 2) ny' nx' y0 ny nx y x) →
      out'.ext.extremes y x = out.ext.extremes (y0 + y) (x0 + x) ∧ out'.ext.thresholds y x = out.ext.thresholds (y0 + y) (x0 + x)) := by
  unfold preprocess at h h'
  split at h
  · cases h
  split at h
  · cases h
  split at h'
  · cases h'
  split at h'
  · cases h'
  dsimp only at h h'
  split at h
  · cases h
  rename_i ext hext
  split at h'
  · cases h'
  rename_i ext' hext'
  simp only [Except.ok.injEq] at h h'
  subst h h'
  refine ⟨by cases m <;> rfl, rfl, fun hw => ?_⟩
  refine identify_piece hp true P _ ext ext' hext hext' y x hy hx fun a b s hs h1 => hw a b s ?_ h1
  unfold effectiveSpatial at hs
  cases hws : P.windowSpatial with
  | none => rw [hws] at hs; simpa [a] using hs
  | some k => rw [hws] at hs; simpa using hs

theorem gridThresholds_alone (p mx q : ℚ) (w k n : Nat) (choice : Nat → Nat) (recs : Nat → List Sample) (i : Nat) :
    gridThresholds p mx q w 1 1 k (fun _ i => recs (choice i)) 0 i = gridThresholds p mx q w 1 1 n (fun _ i => recs i) 0 (choice i) := by
  have h : pooledHist p mx 1 1 k (fun _ i => recs (choice i)) 0 i = pooledHist p mx 1 1 n (fun _ i => recs i) 0 (choice i) := by
    unfold pooledHist
    refine List.map_congr_left fun d _ => List.map_congr_left fun b _ => ?_
    unfold pooled
    rw [if_pos (le_refl 1), if_pos (le_refl 1)]
  unfold gridThresholds
  rw [h]

/-- **C189** on meshes: any choice of cells can be processed by itself; mask, anomalies, thresholds and extremes are those of the whole mesh at every
chosen cell, for every method. -/
theorem C189_mesh_cells (m : AnomalyMethod) (P : ExtParams) (n k : Nat) (choice : Nat → Nat) (raw : Nat → List Sample)
    (out out' : PrepOut) (h : preprocess false m P 1 n (fun _ i => raw i) = .ok out)
    (h' : preprocess false m P 1 k (fun _ i => raw (choice i)) = .ok out') (i : Nat) :
    out'.mask 0 i = out.mask 0 (choice i) ∧ out'.anomalies 0 i = out.anomalies 0 (choice i) ∧
    out'.ext.extremes 0 i = out.ext.extremes 0 (choice i) ∧ out'.ext.thresholds 0 i = out.ext.thresholds 0 (choice i) := by
  unfold preprocess at h h'
  split at h
  · cases h
  split at h
  · cases h
  split at h'
  · cases h'
  split at h'
  · cases h'
  dsimp only at h h'
  split at h
  · cases h
  rename_i ext hext
  split at h'
  · cases h'
  rename_i ext' hext'
  simp only [Except.ok.injEq] at h h'
  subst h h'
  refine ⟨by cases m <;> rfl, rfl, ?_⟩
  unfold identifyExtremes at hext hext'
  split at hext
  · cases hext
  rename_i c hc
  rw [hc] at hext'
  dsimp only at hext'
  split at hext
  · cases hext
  split at hext'
  · cases hext'
  unfold runExtremes at hext hext'
  split at hext
  · cases hext
  rename_i hq
  rw [if_neg hq] at hext'
  cases c with
  | global =>
    simp only [Except.ok.injEq] at hext hext'
    subst hext hext'
    exact ⟨rfl, rfl⟩
  | hobday d sp =>
    dsimp only at hext hext'
    obtain ⟨hsp, -⟩ := poolSize_odd hc
    rw [mesh_no_window hc] at hsp
    subst hsp
    split at hext
    · cases hext
    rename_i hd
    rw [if_neg hd] at hext'
    split at hext
    · rename_i he
      rw [if_pos he] at hext'
      simp only [Except.ok.injEq] at hext hext'
      subst hext hext'
      exact ⟨rfl, rfl⟩
    · rename_i he
      rw [if_neg he] at hext'
      unfold runApproxDays at hext hext'
      split at hext
      · cases hext
      split at hext'
      · cases hext'
      simp only [Except.ok.injEq] at hext hext'
      subst hext hext'
      dsimp only [poolSize]
      rw [gridThresholds_alone _ _ _ _ k n choice (fun i => okAnomalies (anomalyCell m (raw i))) i]
      exact ⟨rfl, rfl⟩

theorem anomalies_ok (P : ExtParams) (gridded : Bool) (ny nx ny' nx' : Nat) (recs recs' : Nat → Nat → List Sample) (ext : ExtOut)
    (hl : layoutFails gridded P .global nx' = false) (h : identifyExtremes gridded P ny nx recs = .ok ext) :
    ∃ ext', identifyExtremes gridded P ny' nx' recs' = .ok ext' := by
  unfold identifyExtremes at h ⊢
  split at h
  · cases h
  rename_i c hc
  have hl' : layoutFails gridded P c nx' = false := by
    cases c with
    | global => exact hl
    | hobday d sp => simp [layoutFails]
  split at h
  · cases h
  rw [hl']
  simp only [Bool.false_eq_true, if_false]
  unfold runExtremes at h ⊢
  split at h
  · cases h
  rename_i hq
  rw [if_neg hq]
  cases c with
  | global => exact ⟨_, rfl⟩
  | hobday d sp =>
    dsimp only at h ⊢
    split at h
    · cases h
    rename_i hd
    rw [if_neg hd]
    split at h
    · rename_i he
      rw [if_pos he]
      exact ⟨_, rfl⟩
    · rename_i he
      rw [if_neg he]
      unfold runApproxDays at h ⊢
      split at h
      · cases h
      rename_i ts hts
      have : ∃ ts', gridThresholds P.precision P.maxAnomaly (P.percentile / 100) d.toNat (poolSize sp) ny' nx' recs' 0 0 = .ok ts' := by
        unfold gridThresholds thresholds2d at hts ⊢
        split at hts
        · cases hts
        rename_i rows hr
        obtain ⟨rows', hr'⟩ := windowedHist_ok (hist' := pooledHist P.precision P.maxAnomaly (poolSize sp) ny' nx' recs' 0 0) (by simp [pooledHist]) hr
        rw [hr']
        exact ⟨_, rfl⟩
      obtain ⟨ts', hts'⟩ := this
      rw [hts']
      exact ⟨_, rfl⟩

/-- C189: a piece of a grid that has an ocean cell can be processed by itself whenever the whole can. -/
theorem C189_piece_accepted {ny' nx' y0 x0 ny nx : Nat} (hp : PieceOf ny' nx' y0 x0 ny nx) (m : AnomalyMethod) (P : ExtParams)
    (raw : Nat → Nat → List Sample) (hdates : ∀ y x, SameDates (raw y x) (raw 0 0)) (out : PrepOut) (h : preprocess true m P ny nx raw = .ok out)
    (y x : Nat) (hy : y < ny') (hx : x < nx') (ho : ((raw (y0 + y) (x0 + x)).map Sample.val).headD none ≠ none) :
    ∃ out', preprocess true m P ny' nx' (fun y x => raw (y0 + y) (x0 + x)) = .ok out' := by
  unfold preprocess at h ⊢
  split at h
  · cases h
  rename_i hv
  have hv' : validateData ((List.range ny').flatMap fun y => (List.range nx').map fun x => (raw (y0 + y) (x0 + x)).map Sample.val) = .ok () := by
    unfold validateData at hv ⊢
    dsimp only at hv ⊢
    split at hv
    · cases hv
    split at hv
    · cases hv
    rename_i h1
    rw [if_neg, if_neg]
    · intro h2
      apply h1
      rw [fold_max_pos] at h2 ⊢
      rcases h2 with h2 | ⟨b, hb, h0⟩
      · exact Or.inl h2
      refine Or.inr ⟨b, ?_, h0⟩
      simp only [List.mem_map, List.mem_filter, List.mem_flatMap, List.mem_range] at hb ⊢
      obtain ⟨c, ⟨⟨a, ha, e, he, rfl⟩, hc⟩, rfl⟩ := hb
      have := hp.rows
      have := hp.columns
      exact ⟨_, ⟨⟨y0 + a, by omega, x0 + e, by omega, rfl⟩, hc⟩, rfl⟩
    · rw [List.isEmpty_iff, List.filter_eq_nil_iff]
      intro hall
      refine hall _ (List.mem_flatMap.2 ⟨y, List.mem_range.2 hy, List.mem_map.2 ⟨x, List.mem_range.2 hx, rfl⟩⟩) ?_
      rwa [Option.isSome_iff_ne_none]
  rw [hv']
  split at h
  · cases h
  rename_i r0 hr0
  obtain ⟨r', hr'⟩ := anomalyCell_ok_of_dates m (hdates (y0 + 0) (x0 + 0)) hr0
  dsimp only at h ⊢
  rw [hr']
  dsimp only
  split at h
  · cases h
  rename_i ext hext
  obtain ⟨ext', he⟩ := anomalies_ok P true ny nx ny' nx' _ (fun y x => okAnomalies (anomalyCell m (raw (y0 + y) (x0 + x)))) ext (by simp [layoutFails]) hext
  rw [he]
  exact ⟨_, rfl⟩

set_option maxHeartbeats 800000 in
/-- **C189 fails** at the edges of a piece: in a strip of any number of cells in which only the last but one has a positive anomaly, leaving out the last
one changes the threshold of the first, far away from the cut, because its window is closed around the piece. -/
theorem C189_edge_fails (p mx : ℚ) (hp : 0 < p) (hmx : 4 * p < mx) (nx : Nat) (hnx : 3 ≤ nx) :
    PieceOf 1 nx 0 0 1 (nx + 1) ∧
    ∃ ext ext', identifyExtremes true ⟨"hobday_extreme", 70, some 11, some 3, "approximate", p, mx⟩ 1 (nx + 1) (regionStrip nx (4 * p)) = .ok ext ∧
      identifyExtremes true ⟨"hobday_extreme", 70, some 11, some 3, "approximate", p, mx⟩ 1 nx (regionStrip nx (4 * p)) = .ok ext' ∧
      ext'.thresholds 0 0 ≠ ext.thresholds 0 0 := by
  refine ⟨⟨by omega, by omega⟩, ?_⟩
  have hrun : ∀ N, ∀ ts, gridThresholds p mx (7 / 10) 11 3 1 N (regionStrip nx (4 * p)) 0 0 = .ok ts →
      ∃ ext, identifyExtremes true ⟨"hobday_extreme", 70, some 11, some 3, "approximate", p, mx⟩ 1 N (regionStrip nx (4 * p)) = .ok ext ∧
        ext.thresholds 0 0 = ts := by
    intro N ts hts
    have hc : checkExtremes true ⟨"hobday_extreme", 70, some 11, some 3, "approximate", p, mx⟩ = .ok (.hobday 11 (some 3)) := by
      simp [checkExtremes, checkPercentile, checkSpatial, checkDays, checkSpatialOdd, effectiveSpatial, dispatch]
      norm_num
    have hrun : identifyExtremes true ⟨"hobday_extreme", 70, some 11, some 3, "approximate", p, mx⟩ 1 N (regionStrip nx (4 * p)) =
        runApproxDays ⟨"hobday_extreme", 70, some 11, some 3, "approximate", p, mx⟩ 11 3 1 N (regionStrip nx (4 * p)) := by
      unfold identifyExtremes
      rw [hc]
      simp [layoutFails, runExtremes, poolSize]
    have h70 : (70 : ℚ) / 100 = 7 / 10 := by norm_num
    rw [hrun]
    unfold runApproxDays
    simp only [h70, hts]
    refine ⟨_, rfl, ?_⟩
    dsimp only
    rw [hts, okThresholds]
  have key : ∀ N v, 3 ≤ N → 0 ≤ v → v < mx → windowSamples 3 1 N 11 (regionStrip nx (4 * p)) 0 0 0 = [some v, some 0, some 0] →
      JustAfter [v, 0, 0] (7 / 10 * 3) v → ∃ ts t, gridThresholds p mx (7 / 10) 11 3 1 N (regionStrip nx (4 * p)) 0 0 = .ok ts ∧
      ts[0]? = some (some t) ∧ -(3 / 2) * p < t - max p v ∧ t - max p v ≤ p / 2 := by
    intro N v hN hv0 hv hs hj
    have hnum : (windowSamples 3 1 N 11 (regionStrip nx (4 * p)) 0 0 0).filterMap id = [v, 0, 0] := by rw [hs]; rfl
    apply C39_hobday_partial p mx hp (by linarith) 11 3 1 N rfl (by norm_num) (by norm_num) rfl (by omega) (regionStrip nx (4 * p)) 0 0 (by norm_num) (by omega)
      (7 / 10) (by norm_num) (by norm_num) (by simp [regionStrip]) 0 (by norm_num)
    · rw [hnum]
      intro a ha
      simp only [List.mem_cons, List.not_mem_nil, or_false] at ha
      rcases ha with rfl | rfl | rfl
      · exact hv
      · linarith
      · linarith
    · rw [hnum]; exact hj
  obtain ⟨ts0, t0, e0, g0, _, hi⟩ := key (nx + 1) 0 (by omega) (le_refl 0) (by linarith) (by
      rw [← regionStrip_window (nx + 1) (by omega) 0]
      unfold windowSamples
      have hcells : ∀ c ∈ cellWindow 3 1 (nx + 1) 0 0, c.2 ≠ nx - 1 := by
        intro c hc
        obtain ⟨a, b⟩ := c
        obtain ⟨-, -, -, hb, j, hj, hj'⟩ := (C70_window_cells 3 1 (nx + 1) 0 0 rfl (by omega) (by omega) (by omega) a b).1 hc
        intro hb'
        simp only at hb'
        have hj1 : j ≤ 1 := hj
        rcases hj' with h | h
        · rw [Nat.mod_eq_of_lt (by omega)] at h; omega
        · rw [Nat.mod_eq_of_lt (by omega)] at h; omega
      refine List.flatMap_congr fun k _ => List.flatMap_congr fun c hc => ?_
      have := hcells c hc
      simp [regionStrip, this]) ⟨by simp, by simp [below], by simp [atMost]; norm_num⟩
  obtain ⟨ts4, t4, e4, g4, lo, _⟩ := key nx (4 * p) hnx (by linarith) hmx (regionStrip_window nx hnx _) ⟨by simp, by
      have : (0 : ℚ) < 4 * p := by linarith
      simp [below, this]; norm_num, by
      have : (0 : ℚ) ≤ 4 * p := by linarith
      simp [atMost, this]; norm_num⟩
  obtain ⟨ext, h1, h2⟩ := hrun _ _ e0
  obtain ⟨ext', h3, h4⟩ := hrun _ _ e4
  refine ⟨ext, ext', h1, h3, ?_⟩
  rw [h2, h4]
  intro hts
  rw [← hts, g4] at g0
  have ht : t4 = t0 := Option.some.inj (Option.some.inj g0)
  rw [max_eq_left hp.le] at hi
  rw [max_eq_right (by linarith)] at lo
  linarith

/-! The hypotheses are met: a grid of three by five cells, the piece without its last column and last row, and cells inside it. -/

/-- Fifteen cells that differ; one is land. -/
def fifteenCells (y x : Nat) : List Sample :=
  (List.range 6).map fun i => ⟨2000 + i / 2, i % 2 + 1, if y = 0 ∧ x = 3 then none else some ((i * (x + 1) + y : Nat) / 4 : ℚ)⟩

example : PieceOf 2 4 0 0 3 5 := ⟨by decide, by decide⟩
example : WindowInPiece 1 2 4 0 3 5 0 2 := by simp [WindowInPiece]
example : (∀ y x, SameDates (fifteenCells y x) (fifteenCells 0 0)) := by
  intro y x; simp [SameDates, fifteenCells, Function.comp_def]
example : (match preprocess true .fixed ⟨"hobday_extreme", 90, some 3, some 3, "approximate", 1, 3⟩ 3 5 fifteenCells,
    preprocess true .fixed ⟨"hobday_extreme", 90, some 3, some 3, "approximate", 1, 3⟩ 2 4 (fun y x => fifteenCells (0 + y) (0 + x)) with
    | .ok out, .ok _ => (out.ext.extremes 0 2).contains true | _, _ => false) = true := by
  decide +kernel
example : (match preprocess false .fixed ⟨"global_extreme", 90, some 3, none, "approximate", 1, 3⟩ 1 5 (fun _ i => fifteenCells 0 i),
    preprocess false .fixed ⟨"global_extreme", 90, some 3, none, "approximate", 1, 3⟩ 1 2 (fun _ i => fifteenCells 0 (2 * i)) with
    | .ok _, .ok _ => true | _, _ => false) = true := by
  decide +kernel

end MarEx.Props
