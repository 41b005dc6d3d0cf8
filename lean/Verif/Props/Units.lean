import Verif.Props.Preprocess
import Verif.Props.Threshold
import Verif.Props.Detrend
/-! Units of the data: C162, C163. -/
namespace MarEx.Spec

/-- The value in a unit that is `1/a` of the old one, with the zero point moved by `b` (kelvin to degrees Celsius: `a = 1`, `b = -273.15`). -/
def inUnit (a b : ℚ) (s : Sample) : Sample := { s with val := s.val.map fun x => a * x + b }

end MarEx.Spec

namespace MarEx.Props
open MarEx MarEx.Spec

/-- The change of unit on a value that may be missing. -/
def affine (a b : ℚ) (v : Option ℚ) : Option ℚ := v.map fun x => a * x + b

theorem inUnit_val (a b : ℚ) (s : Sample) : (inUnit a b s).val = affine a b s.val := rfl

theorem filterMap_affine (a b : ℚ) (l : List (Option ℚ)) : (l.map (affine a b)).filterMap id = (l.filterMap id).map fun x => a * x + b := by
  induction l with
  | nil => rfl
  | cons v l ih =>
    cases v with
    | none => exact ih
    | some x => exact congrArg (List.cons (a * x + b)) ih

theorem sum_affine (a b : ℚ) (l : List ℚ) : (l.map fun x => a * x + b).sum = a * l.sum + l.length * b := by
  induction l with
  | nil => simp
  | cons x l ih => simp only [List.map_cons, List.sum_cons, ih, List.length_cons]; push_cast; ring

theorem nanMean_affine (a b : ℚ) (l : List (Option ℚ)) : nanMean (l.map (affine a b)) = affine a b (nanMean l) := by
  unfold nanMean
  dsimp only
  rw [filterMap_affine]
  generalize l.filterMap id = v
  cases v with
  | nil => rfl
  | cons x v =>
    rw [if_neg (by simp), if_neg (by simp)]
    simp only [affine, Option.map_some, sum_affine, List.length_map]
    have : (((x :: v).length : Nat) : ℚ) ≠ 0 := by simp; positivity
    congr 1
    field_simp

theorem years_inUnit (a b : ℚ) (r : List Sample) : (r.map (inUnit a b)).map Sample.year = r.map Sample.year := by
  rw [List.map_map]; rfl

theorem vals_inUnit (a b : ℚ) (r : List Sample) : (r.map (inUnit a b)).map Sample.val = (r.map Sample.val).map (affine a b) := by
  rw [List.map_map, List.map_map]; rfl

theorem minYear_inUnit (a b : ℚ) (r : List Sample) : minYear (r.map (inUnit a b)) = minYear r := by unfold minYear; rw [years_inUnit]
theorem maxYear_inUnit (a b : ℚ) (r : List Sample) : maxYear (r.map (inUnit a b)) = maxYear r := by unfold maxYear; rw [years_inUnit]

theorem contributions_inUnit (a b : ℚ) (W : Nat) (r : List Sample) :
    contributions W (r.map (inUnit a b)) = (contributions W r).map fun e => (e.1, e.2.1, affine a b e.2.2) := by
  unfold contributions
  rw [years_inUnit, minYear_inUnit, List.flatMap_map, List.map_flatMap]
  congr 1; funext s
  dsimp only
  rw [List.map_map]
  rfl

theorem rollingClim_inUnit (a b : ℚ) (W : Nat) (r : List Sample) :
    rollingClim W (r.map (inUnit a b)) = (rollingClim W r).map (affine a b) := by
  unfold rollingClim
  dsimp only
  rw [contributions_inUnit, List.map_map, List.map_map]
  congr 1; funext s
  simp only [Function.comp]
  rw [List.filter_map, List.map_map, ← nanMean_affine, List.map_map]
  rfl

theorem getD_map_affine (a b : ℚ) (xs : List (Option ℚ)) (j : Nat) : (xs.map (affine a b)).getD j none = affine a b (xs.getD j none) := by
  rw [List.getD_eq_getElem?_getD, List.getD_eq_getElem?_getD, List.getElem?_map]
  cases xs[j]? <;> rfl

theorem isSome_affine (a b : ℚ) (v : Option ℚ) : (affine a b v).isSome = v.isSome := by cases v <;> rfl

theorem length_filterMap_of_all (l : List (Option ℚ)) (h : l.all Option.isSome = true) : (l.filterMap id).length = l.length := by
  induction l with
  | nil => rfl
  | cons v l ih =>
    rw [List.all_cons, Bool.and_eq_true] at h
    obtain ⟨x, rfl⟩ := Option.isSome_iff_exists.mp h.1
    exact congrArg Nat.succ (ih h.2)

theorem rollMean_affine (a b : ℚ) {w : Nat} (hw : 1 ≤ w) (xs : List (Option ℚ)) :
    rollMean w (xs.map (affine a b)) = (rollMean w xs).map (affine a b) := by
  unfold rollMean
  rw [List.length_map, List.map_map]
  congr 1; funext i
  simp only [Function.comp]
  have hwin : ((List.range w).map fun k => if i + k < w / 2 then none else (xs.map (affine a b)).getD (i + k - w / 2) none) =
      ((List.range w).map fun k => if i + k < w / 2 then none else xs.getD (i + k - w / 2) none).map (affine a b) := by
    rw [List.map_map]
    congr 1; funext k
    simp only [Function.comp, getD_map_affine]
    split <;> rfl
  rw [hwin]
  generalize hg : ((List.range w).map fun k => if i + k < w / 2 then none else xs.getD (i + k - w / 2) none) = win
  have hl : win.length = w := by rw [← hg]; simp
  have hall : (win.map (affine a b)).all Option.isSome = win.all Option.isSome := by
    rw [List.all_map]; congr 1; funext v; exact isSome_affine a b v
  rw [hall]
  by_cases h : win.all Option.isSome = true
  · rw [if_pos h, if_pos h, filterMap_affine, sum_affine, length_filterMap_of_all _ h, hl]
    have : (w : ℚ) ≠ 0 := by positivity
    simp only [affine, Option.map_some]
    congr 1
    field_simp
  · rw [if_neg h, if_neg h]; rfl

theorem withVals_inUnit (a b : ℚ) (a' b' : ℚ) (r : List Sample) (vs : List (Option ℚ)) :
    withVals (r.map (inUnit a b)) (vs.map (affine a' b')) = (withVals r vs).map (inUnit a' b') := by
  unfold withVals
  rw [List.zipWith_map, List.map_zipWith]
  rfl

theorem withVals_map_left (f : Sample → Sample) (hf : ∀ s, (f s).year = s.year ∧ (f s).doy = s.doy) (r : List Sample) (vs : List (Option ℚ)) :
    withVals (r.map f) vs = withVals r vs := by
  unfold withVals
  rw [List.zipWith_map_left]
  congr 1; funext s v
  rw [(hf s).1, (hf s).2]

theorem smoothedClim_inUnit (a b : ℚ) (W : Nat) {w : Nat} (hw : 1 ≤ w) (r : List Sample) :
    smoothedClim W w (r.map (inUnit a b)) = (smoothedClim W w r).map (affine a b) := by
  unfold smoothedClim
  rw [vals_inUnit, rollMean_affine a b hw, withVals_inUnit, rollingClim_inUnit]

theorem nanSub_affine (a b : ℚ) (x y : Option ℚ) : nanSub (affine a b x) (affine a b y) = affine a 0 (nanSub x y) := by
  cases x <;> cases y <;> simp [nanSub, affine]
  ring

theorem shiftingAnomaly_inUnit (a b : ℚ) (W : Nat) {w : Nat} (hw : 1 ≤ w) (r : List Sample) :
    shiftingAnomaly W w (r.map (inUnit a b)) = (shiftingAnomaly W w r).map (inUnit a 0) := by
  unfold shiftingAnomaly
  rw [smoothedClim_inUnit a b W hw, vals_inUnit]
  rw [show List.zipWith nanSub ((r.map Sample.val).map (affine a b)) ((smoothedClim W w r).map (affine a b)) =
      (List.zipWith nanSub (r.map Sample.val) (smoothedClim W w r)).map (affine a 0) by
    rw [List.zipWith_map, List.map_zipWith]
    congr 1; funext x y
    exact nanSub_affine a b x y]
  exact withVals_inUnit ..

theorem trimShifting_inUnit (a b : ℚ) (W : Nat) (r : List Sample) :
    trimShifting W (r.map (inUnit a b)) = (trimShifting W r).map (List.map (inUnit a b)) := by
  unfold trimShifting
  dsimp only
  rw [minYear_inUnit, maxYear_inUnit]
  split
  · rfl
  · simp only [Except.map]
    rw [List.filter_map]
    rfl

theorem shiftingBaseline_inUnit (a b : ℚ) (W : Nat) {w : Nat} (hw : 1 ≤ w) (r : List Sample) :
    shiftingBaseline W w (r.map (inUnit a b)) = (shiftingBaseline W w r).map (List.map (inUnit a 0)) := by
  unfold shiftingBaseline
  rw [shiftingAnomaly_inUnit a b W hw, trimShifting_inUnit]

theorem dailyClim_inUnit (a b : ℚ) (r : List Sample) (d : Nat) : dailyClim (r.map (inUnit a b)) d = affine a b (dailyClim r d) := by
  unfold dailyClim
  rw [List.filter_map, vals_inUnit, nanMean_affine]
  rfl

theorem fixedAnomaly_inUnit (a b : ℚ) (r : List Sample) : fixedAnomaly (r.map (inUnit a b)) = (fixedAnomaly r).map (inUnit a 0) := by
  unfold fixedAnomaly
  rw [List.map_map, List.map_map]
  congr 1; funext s
  simp only [Function.comp]
  rw [inUnit_val, dailyClim_inUnit]
  show Sample.mk _ _ _ = Sample.mk _ _ _
  congr 1
  exact nanSub_affine a b s.val _

/-- What is used of the numerical detrending: what is left scales with the data and does not change when a constant is added
(`C162_detrending_removes_constants` and `C163_detrending_scales` prove both of the code's detrending). -/
def FitLinear (fit : List ℚ → Nat → ℚ) (a b : ℚ) : Prop := ∀ xs i, i < xs.length → fit (xs.map fun x => a * x + b) i = a * fit xs i

theorem numbers_inUnit (a b : ℚ) (r : List Sample) : (r.map (inUnit a b)).filterMap Sample.val = (r.filterMap Sample.val).map fun x => a * x + b := by
  induction r with
  | nil => rfl
  | cons s r ih => rcases s with ⟨y, d, v⟩; cases v <;> simp [inUnit] <;> simpa [inUnit] using ih

theorem length_numbers (r : List Sample) (h : r.all (fun s => s.val.isSome) = true) : (r.filterMap Sample.val).length = r.length := by
  induction r with
  | nil => rfl
  | cons s r ih =>
    rw [List.all_cons, Bool.and_eq_true] at h
    obtain ⟨x, hx⟩ := Option.isSome_iff_exists.mp h.1
    rw [List.filterMap_cons, hx]
    simp [ih h.2]

theorem detrendCell_inUnit {fit : List ℚ → Nat → ℚ} {a b : ℚ} (hf : FitLinear fit a b) (r : List Sample) :
    detrendCell fit (r.map (inUnit a b)) = (detrendCell fit r).map (inUnit a 0) := by
  unfold detrendCell
  rw [List.length_map, numbers_inUnit]
  have hall : (r.map (inUnit a b)).all (fun s => s.val.isSome) = r.all (fun s => s.val.isSome) := by
    rw [List.all_map]; congr 1; funext s; exact isSome_affine a b s.val
  rw [hall, ← withVals_inUnit a b a 0, List.map_map]
  congr 1
  apply List.map_congr_left
  intro i hi
  simp only [Function.comp]
  by_cases h : r.all (fun s => s.val.isSome) = true
  · rw [if_pos h, if_pos h, hf _ _ (by rw [length_numbers r h]; exact List.mem_range.mp hi)]
    simp [affine]
  · rw [if_neg h, if_neg h]; rfl

/-- What is required of the anomaly method: a smoothing window of at least one step, and the property of the numerical detrending. -/
def MethodFits (m : AnomalyMethod) (a b : ℚ) : Prop := match m with
  | .shifting _ w => 1 ≤ w
  | .fixed => True
  | .detrend fit => FitLinear fit a b
  | .detrendFixed fit => FitLinear fit a b

theorem anomalyCell_inUnit {m : AnomalyMethod} {a b : ℚ} (hm : MethodFits m a b) (r : List Sample) :
    anomalyCell m (r.map (inUnit a b)) = (anomalyCell m r).map (List.map (inUnit a 0)) := by
  cases m with
  | shifting W w =>
    unfold anomalyCell
    dsimp only
    rw [shiftingBaseline_inUnit a b W hm]
    cases shiftingBaseline W w r <;> rfl
  | fixed => exact congrArg Except.ok (fixedAnomaly_inUnit a b r)
  | detrend fit => exact congrArg Except.ok (detrendCell_inUnit hm r)
  | detrendFixed fit =>
    show Except.ok _ = Except.ok _
    rw [detrendCell_inUnit hm, fixedAnomaly_inUnit]

theorem headD_map_affine (a b : ℚ) (l : List (Option ℚ)) : ((l.map (affine a b)).headD none).isSome = (l.headD none).isSome := by
  cases l with
  | nil => rfl
  | cons v l => exact isSome_affine a b v

theorem oceanMask_inUnit (a b : ℚ) (raw : Nat → Nat → List Sample) : (oceanMask fun y x => (raw y x).map (inUnit a b)) = oceanMask raw := by
  funext y x
  unfold oceanMask
  rw [vals_inUnit, headD_map_affine]

theorem methodMask_inUnit {m : AnomalyMethod} {a b : ℚ} (hm : MethodFits m a b) (raw : Nat → Nat → List Sample) :
    (methodMask m fun y x => (raw y x).map (inUnit a b)) = methodMask m raw := by
  cases m with
  | detrendFixed fit =>
    show (oceanMask fun y x => detrendCell fit ((raw y x).map (inUnit a b))) = _
    rw [show (fun y x => detrendCell fit ((raw y x).map (inUnit a b))) = fun y x => (detrendCell fit (raw y x)).map (inUnit a 0) by
      funext y x; exact detrendCell_inUnit hm _]
    exact oceanMask_inUnit ..
  | _ => exact oceanMask_inUnit ..

theorem validateData_affine (a b : ℚ) (cells : List (List (Option ℚ))) :
    validateData (cells.map (List.map (affine a b))) = validateData cells := by
  unfold validateData
  dsimp only
  have h1 : (cells.map (List.map (affine a b))).filter (fun c => (c.headD none).isSome) =
      (cells.filter fun c => (c.headD none).isSome).map (List.map (affine a b)) := by
    rw [List.filter_map]
    congr 2; funext c
    simp only [Function.comp]
    exact headD_map_affine a b c
  rw [h1, List.isEmpty_map, List.map_map]
  have h2 : ((fun c : List (Option ℚ) => (c.filter fun v => v.isNone).length) ∘ List.map (affine a b)) = fun c => (c.filter fun v => v.isNone).length := by
    funext c
    simp only [Function.comp]
    rw [List.filter_map, List.length_map]
    congr 2; funext v
    cases v <;> rfl
  rw [h2]

theorem validateRaw_inUnit (a b : ℚ) (ny nx : Nat) (raw : Nat → Nat → List Sample) :
    validateData ((List.range ny).flatMap fun y => (List.range nx).map fun x => ((raw y x).map (inUnit a b)).map Sample.val) =
    validateData ((List.range ny).flatMap fun y => (List.range nx).map fun x => (raw y x).map Sample.val) := by
  rw [← validateData_affine a b ((List.range ny).flatMap fun y => (List.range nx).map fun x => (raw y x).map Sample.val), List.map_flatMap]
  congr 2; funext y
  rw [List.map_map]
  congr 1; funext x
  exact vals_inUnit a b _

theorem okAnomalies_inUnit {m : AnomalyMethod} {a b : ℚ} (hm : MethodFits m a b) (r : List Sample) :
    okAnomalies (anomalyCell m (r.map (inUnit a b))) = (okAnomalies (anomalyCell m r)).map (inUnit a 0) := by
  rw [anomalyCell_inUnit hm]
  cases anomalyCell m r <;> rfl

theorem inUnit_one (s : Sample) : inUnit 1 0 s = s := by
  rcases s with ⟨y, d, v⟩
  cases v <;> simp [inUnit]

/-- The computation in another unit in terms of that in the first. -/
theorem preprocess_inUnit {m : AnomalyMethod} {a b : ℚ} (hm : MethodFits m a b) (gridded : Bool) (P : ExtParams) (ny nx : Nat) (raw : Nat → Nat → List Sample) :
    preprocess gridded m P ny nx (fun y x => (raw y x).map (inUnit a b)) =
      (match validateData ((List.range ny).flatMap fun y => (List.range nx).map fun x => (raw y x).map Sample.val) with
      | .error e => .error e
      | .ok _ =>
        match anomalyCell m (raw 0 0) with
        | .error e => .error e
        | .ok _ =>
          match identifyExtremes gridded P ny nx (fun y x => (okAnomalies (anomalyCell m (raw y x))).map (inUnit a 0)) with
          | .error e => .error e
          | .ok ext => .ok ⟨methodMask m raw, fun y x => (okAnomalies (anomalyCell m (raw y x))).map (inUnit a 0), ext⟩) := by
  unfold preprocess
  rw [validateRaw_inUnit, methodMask_inUnit hm]
  rw [show (fun y x => okAnomalies (anomalyCell m ((raw y x).map (inUnit a b)))) = fun y x => (okAnomalies (anomalyCell m (raw y x))).map (inUnit a 0) by
    funext y x; exact okAnomalies_inUnit hm _]
  cases validateData ((List.range ny).flatMap fun y => (List.range nx).map fun x => (raw y x).map Sample.val) with
  | error e => rfl
  | ok _ =>
    dsimp only
    rw [anomalyCell_inUnit hm]
    cases anomalyCell m (raw 0 0) <;> rfl

/-- C162: the zero point of the data does not matter: adding the same number to all data (kelvin instead of degrees Celsius) gives exactly the same
mask, anomalies, thresholds and extremes, or the same error, for all anomaly and extreme methods. -/
theorem C162_zero_point {m : AnomalyMethod} {b : ℚ} (hm : MethodFits m 1 b) (gridded : Bool) (P : ExtParams) (ny nx : Nat) (raw : Nat → Nat → List Sample) :
    preprocess gridded m P ny nx (fun y x => (raw y x).map (inUnit 1 b)) = preprocess gridded m P ny nx raw := by
  rw [preprocess_inUnit hm]
  have h : ∀ l : List Sample, l.map (inUnit 1 0) = l := fun l => by rw [show inUnit 1 0 = id from funext inUnit_one]; exact List.map_id l
  simp only [h]
  rfl

/-! ### The unit -/

theorem pairwise_le_scale {a : ℚ} (ha : 0 < a) {l : List ℚ} (h : l.Pairwise (· ≤ ·)) : (l.map (a * ·)).Pairwise (· ≤ ·) := by
  rw [List.pairwise_map]
  exact h.imp fun hxy => mul_le_mul_of_nonneg_left hxy ha.le

theorem mergeSort_scale {a : ℚ} (ha : 0 < a) (l : List ℚ) :
    (l.map (a * ·)).mergeSort (fun x y => decide (x ≤ y)) = (l.mergeSort fun x y => decide (x ≤ y)).map (a * ·) := by
  have hs : ∀ l : List ℚ, (l.mergeSort fun x y => decide (x ≤ y)).Pairwise (· ≤ ·) := by
    intro l
    have := List.pairwise_mergeSort (le := fun x y : ℚ => decide (x ≤ y)) (by intro a b c; simpa using le_trans) (by intro a b; simpa using le_total a b) l
    exact this.imp fun h => by simpa using h
  apply List.Perm.eq_of_pairwise (le := (· ≤ ·)) (fun _ _ _ _ => le_antisymm) (hs _) (pairwise_le_scale ha (hs l))
  exact (List.mergeSort_perm _ _).trans ((List.mergeSort_perm _ _).symm.map _)

theorem getD_scale (a : ℚ) (l : List ℚ) (k : Nat) : (l.map (a * ·)).getD k 0 = a * l.getD k 0 := by
  rw [List.getD_eq_getElem?_getD, List.getD_eq_getElem?_getD, List.getElem?_map]
  cases l[k]? <;> simp

theorem percentile_scale {a : ℚ} (ha : 0 < a) (l : List ℚ) (q : ℚ) : percentile (l.map (a * ·)) q = a * percentile l q := by
  unfold percentile
  dsimp only
  rw [mergeSort_scale ha, List.length_map, getD_scale, getD_scale]
  ring

theorem quantileExact_scale {a : ℚ} (ha : 0 < a) (q : ℚ) (vs : List (Option ℚ)) : quantileExact q (vs.map (affine a 0)) = affine a 0 (quantileExact q vs) := by
  unfold quantileExact
  dsimp only
  rw [filterMap_affine]
  have h : ((vs.filterMap id).map fun x => a * x + 0) = (vs.filterMap id).map (a * ·) := by congr 1; funext x; exact add_zero _
  rw [h, List.isEmpty_map, percentile_scale ha]
  split
  · rfl
  · simp [affine]

theorem geNaN_scale {a : ℚ} (ha : 0 < a) (v t : Option ℚ) : geNaN (affine a 0 v) (affine a 0 t) = geNaN v t := by
  cases v <;> cases t <;> simp [geNaN, affine]
  rw [mul_le_mul_iff_right₀ ha]

theorem thresholdExact_scale {a : ℚ} (ha : 0 < a) (q : ℚ) (w : Nat) (r : List Sample) (d : Nat) :
    thresholdExact q w (r.map (inUnit a 0)) d = affine a 0 (thresholdExact q w r d) := by
  unfold thresholdExact
  dsimp only
  rw [← quantileExact_scale ha, List.map_flatMap, List.length_map, vals_inUnit]
  rw [show (r.map (inUnit a 0)).map Sample.doy = r.map Sample.doy by rw [List.map_map]; rfl]
  congr 2; funext i
  split
  · conv_rhs => rw [List.map_map]
    apply List.map_congr_left
    intro k _
    simp only [Function.comp, getD_map_affine]
    split <;> rfl
  · rfl

/-- Thresholds in another unit; the extremes are the same. -/
def extInUnit (a : ℚ) (o : ExtOut) : ExtOut := ⟨o.extremes, fun y x => (o.thresholds y x).map (affine a 0)⟩

theorem identifyExtremes_exact_scale {a : ℚ} (ha : 0 < a) (gridded : Bool) (P : ExtParams) (hP : P.methodPercentile = "exact") (ny nx : Nat)
    (recs : Nat → Nat → List Sample) :
    identifyExtremes gridded P ny nx (fun y x => (recs y x).map (inUnit a 0)) = (identifyExtremes gridded P ny nx recs).map (extInUnit a) := by
  unfold identifyExtremes
  cases checkExtremes gridded P with
  | error e => rfl
  | ok c =>
    dsimp only
    split
    · rfl
    unfold runExtremes
    split
    · rfl
    · cases c with
      | global =>
        show Except.ok _ = Except.ok _
        unfold runGlobal extInUnit
        dsimp only
        congr 2
        · funext y x
          rw [if_pos hP, if_pos hP, vals_inUnit, quantileExact_scale ha]
          unfold extremesConstant
          rw [List.map_map]
          congr 1; funext v
          exact geNaN_scale ha ..
        · funext y x
          rw [if_pos hP, if_pos hP, vals_inUnit, quantileExact_scale ha]
          rfl
      | hobday w s =>
        dsimp only
        split
        · rfl
        · show Except.ok _ = Except.ok _
          unfold runExactDays extInUnit
          dsimp only
          have ht : ∀ y x, ((List.range 366).map fun d => thresholdExact (P.percentile / 100) w.toNat ((recs y x).map (inUnit a 0)) (d + 1)) =
              ((List.range 366).map fun d => thresholdExact (P.percentile / 100) w.toNat (recs y x) (d + 1)).map (affine a 0) := by
            intro y x
            rw [List.map_map]
            congr 1; funext d
            exact thresholdExact_scale ha ..
          congr 2
          · funext y x
            rw [ht]
            unfold extremesHobday
            rw [List.map_map]
            congr 1; funext r
            simp only [Function.comp]
            rw [inUnit_val, getD_map_affine, geNaN_scale ha]
            rfl
          · funext y x; exact ht y x

/-- C163 (partial: exact percentiles): the unit of the data does not matter: with all data multiplied by a positive number (and any number added) the mask
and the extremes are the same, the anomalies and the thresholds are multiplied by that number. Missing: the approximate percentiles, for which it is
false. -/
theorem C163_unit_exact_partial {m : AnomalyMethod} {a b : ℚ} (ha : 0 < a) (hm : MethodFits m a b) (gridded : Bool) (P : ExtParams)
    (hP : P.methodPercentile = "exact") (ny nx : Nat) (raw : Nat → Nat → List Sample) (out : PrepOut) (h : preprocess gridded m P ny nx raw = .ok out) :
    ∃ out', preprocess gridded m P ny nx (fun y x => (raw y x).map (inUnit a b)) = .ok out' ∧ out'.mask = out.mask ∧
      out'.ext.extremes = out.ext.extremes ∧ (∀ y x, out'.anomalies y x = (out.anomalies y x).map (inUnit a 0)) ∧
      ∀ y x, out'.ext.thresholds y x = (out.ext.thresholds y x).map fun t => t.map fun v => a * v := by
  rw [preprocess_inUnit hm]
  unfold preprocess at h
  cases hv : validateData ((List.range ny).flatMap fun y => (List.range nx).map fun x => (raw y x).map Sample.val) with
  | error e => rw [hv] at h; cases h
  | ok _ =>
    rw [hv] at h
    dsimp only at h ⊢
    cases hc : anomalyCell m (raw 0 0) with
    | error e => rw [hc] at h; cases h
    | ok _ =>
      rw [hc] at h
      dsimp only at h ⊢
      rw [identifyExtremes_exact_scale ha gridded P hP]
      cases hi : identifyExtremes gridded P ny nx (fun y x => okAnomalies (anomalyCell m (raw y x))) with
      | error e => rw [hi] at h; cases h
      | ok ext =>
        rw [hi] at h
        cases h
        refine ⟨_, rfl, rfl, rfl, fun _ _ => rfl, fun y x => ?_⟩
        show (ext.thresholds y x).map (affine a 0) = _
        congr 1; funext t
        cases t <;> simp [affine]

/-! ### The approximate percentiles have a unit of their own -/

theorem runExtremes_below_precision (P : ExtParams) (c : Chosen) (ny nx : Nat) (recs : Nat → Nat → List Sample) (out : ExtOut)
    (h : runExtremes P c ny nx recs = .ok out) (hP : P.methodPercentile ≠ "exact") (hp : 0 < P.precision) (hmx : 0 < P.maxAnomaly) (y x : Nat)
    (hs : ∀ s ∈ recs y x, ∀ v, s.val = some v → v < P.precision) : ∀ e ∈ out.extremes y x, e = false := by
  unfold runExtremes at h
  split at h
  · cases h
  · cases c with
    | global =>
      cases h
      intro e he
      unfold runGlobal at he
      dsimp only at he
      rw [if_neg hP] at he
      obtain ⟨i, hi⟩ := List.mem_iff_getElem?.mp he
      cases hv : ((recs y x).map Sample.val)[i]? with
      | none => unfold extremesConstant at hi; rw [List.getElem?_map, hv] at hi; cases hi
      | some o =>
        cases o with
        | none => unfold extremesConstant at hi; rw [List.getElem?_map, hv] at hi; exact (Option.some.inj hi).symm
        | some v =>
          rw [List.getElem?_map, Option.map_eq_some_iff] at hv
          obtain ⟨s, hs1, hs2⟩ := hv
          have hlt := hs s (List.mem_of_getElem? hs1) v hs2
          have := (C41_constant_floor P.precision P.maxAnomaly (P.percentile / 100) hp hmx ((recs y x).map Sample.val)).2 i v
            (by rw [List.getElem?_map, hs1, ← hs2]; rfl) hlt
          rw [this] at hi
          exact (Option.some.inj hi).symm
    | hobday w s =>
      dsimp only at h
      split at h
      · cases h
      · unfold runApproxDays at h
        split at h
        · cases h
        · cases h
          dsimp only
          intro e he
          cases hg : gridThresholds P.precision P.maxAnomaly (P.percentile / 100) w.toNat (poolSize s) ny nx recs y x with
          | error er =>
            rw [hg] at he
            obtain ⟨r, _, rfl⟩ := List.mem_map.mp he
            show geNaN r.val none = false
            cases r.val <;> rfl
          | ok ts =>
            rw [hg] at he
            have hh : hobdayApprox P.precision P.maxAnomaly (P.percentile / 100) w.toNat (poolSize s) ny nx recs y x = .ok (extremesHobday (recs y x) ts, ts) := by
              unfold hobdayApprox; rw [hg]
            obtain ⟨_, hf⟩ := C41_hobday_floor _ _ _ hp hmx _ _ _ _ recs y x _ _ hh
            obtain ⟨i, hi⟩ := List.mem_iff_getElem?.mp he
            cases hv : (recs y x)[i]? with
            | none => unfold okThresholds extremesHobday at hi; rw [List.getElem?_map, hv] at hi; cases hi
            | some r =>
              cases hrv : r.val with
              | none =>
                unfold okThresholds extremesHobday at hi
                rw [List.getElem?_map, hv, Option.map_some, hrv] at hi
                exact (Option.some.inj hi).symm
              | some v =>
                have := hf i r v hv hrv (hs r (List.mem_of_getElem? hv) v hrv)
                rw [okThresholds, this] at hi
                exact (Option.some.inj hi).symm

theorem exists_small (l : List Sample) {p : ℚ} (hp : 0 < p) :
    ∃ k : ℚ, 0 < k ∧ ∀ a, 0 < a → a < k → ∀ s ∈ l.map (inUnit a 0), ∀ v, s.val = some v → v < p := by
  induction l with
  | nil => exact ⟨1, one_pos, fun _ _ _ s hs => by simp at hs⟩
  | cons s l ih =>
    obtain ⟨k, hk, h⟩ := ih
    refine ⟨min k (p / (|s.val.getD 0| + 1)), lt_min hk (by positivity), fun a ha hak r hr v hv => ?_⟩
    rcases List.mem_cons.mp hr with rfl | hr
    · have h2 := lt_of_lt_of_le hak (min_le_right _ _)
      rw [lt_div_iff₀ (by positivity)] at h2
      cases hs : s.val with
      | none => rw [inUnit_val, hs] at hv; cases hv
      | some u =>
        rw [inUnit_val, hs] at hv
        simp only [affine, Option.map_some, Option.some.injEq, add_zero] at hv
        rw [hs] at h2
        simp only [Option.getD_some] at h2
        have := mul_le_mul_of_nonneg_left (le_abs_self u) ha.le
        nlinarith
    · exact h a ha (lt_of_lt_of_le hak (min_le_left _ _)) r hr v hv

theorem exists_small_all (n : Nat) (Q : Nat → ℚ → Prop) (h : ∀ i < n, ∃ k : ℚ, 0 < k ∧ ∀ a, 0 < a → a < k → Q i a) :
    ∃ k : ℚ, 0 < k ∧ ∀ a, 0 < a → a < k → ∀ i < n, Q i a := by
  induction n with
  | zero => exact ⟨1, one_pos, fun _ _ _ i hi => absurd hi (Nat.not_lt_zero i)⟩
  | succ n ih =>
    obtain ⟨k, hk, hq⟩ := ih fun i hi => h i (by omega)
    obtain ⟨k', hk', hq'⟩ := h n (by omega)
    refine ⟨min k k', lt_min hk hk', fun a ha hak i hi => ?_⟩
    rcases Nat.lt_succ_iff_lt_or_eq.mp hi with hi | rfl
    · exact hq a ha (lt_of_lt_of_le hak (min_le_left _ _)) i hi
    · exact hq' a ha (lt_of_lt_of_le hak (min_le_right _ _))

/-- **C163 fails** for the approximate percentiles: whatever the data and the (positive) precision, in a coarse enough unit the same data have no extreme
anywhere, whatever the percentile. -/
theorem C163_unit_approximate_fails {m : AnomalyMethod} (hm : ∀ a, 0 < a → MethodFits m a 0) (gridded : Bool) (P : ExtParams)
    (hP : P.methodPercentile = "approximate") (hp : 0 < P.precision) (hmx : 0 < P.maxAnomaly) (ny nx : Nat) (raw : Nat → Nat → List Sample) :
    ∃ k : ℚ, 0 < k ∧ ∀ a, 0 < a → a < k → ∀ out', preprocess gridded m P ny nx (fun y x => (raw y x).map (inUnit a 0)) = .ok out' →
      ∀ y < ny, ∀ x < nx, ∀ e ∈ out'.ext.extremes y x, e = false := by
  have hne : P.methodPercentile ≠ "exact" := by rw [hP]; decide
  obtain ⟨k, hk, hall⟩ := exists_small_all ny
    (fun y a => ∀ x < nx, ∀ s ∈ (okAnomalies (anomalyCell m (raw y x))).map (inUnit a 0), ∀ v, s.val = some v → v < P.precision)
    (fun y _ => exists_small_all nx _ fun x _ => exists_small (okAnomalies (anomalyCell m (raw y x))) hp)
  refine ⟨k, hk, fun a ha hak out' h y hy x hx => ?_⟩
  rw [preprocess_inUnit (hm a ha)] at h
  split at h
  · cases h
  · split at h
    · cases h
    · split at h
      · cases h
      · rename_i ext hext
        cases h
        unfold identifyExtremes at hext
        split at hext
        · cases hext
        · exact runExtremes_below_precision P _ ny nx _ ext (ite_error_ok hext) hne hp hmx y x (hall a ha hak y hy x hx)

/-- Ten steps of one location, the last one 9 units higher. -/
def oneWarmStep : List Sample := (List.range 10).map fun i => ⟨2000 + i, 1, some (if i = 9 then 9 else 0)⟩

/-- The extremes of `oneWarmStep` in another unit with the fixed baseline, a constant threshold and histogram bins of width 1. -/
def warmExtremes (a b : ℚ) : Option (List Bool) :=
  match preprocess false .fixed ⟨"global_extreme", 90, some 11, none, "approximate", 1, 5⟩ 1 1 (fun _ _ => oneWarmStep.map (inUnit a b)) with
  | .ok out => some (out.ext.extremes 0 0)
  | .error _ => none

-- the last step is extreme, with any zero point, but not in a unit a hundred times coarser
example : warmExtremes 1 0 = some [false, false, false, false, false, false, false, false, false, true] := by decide +kernel
example : warmExtremes 1 273 = some [false, false, false, false, false, false, false, false, false, true] := by decide +kernel
example : warmExtremes (1 / 100) 0 = some [false, false, false, false, false, false, false, false, false, false] := by decide +kernel

-- every method but the detrending ones meets the requirement, and so does detrending by the mean (order 0)
example (a b : ℚ) : MethodFits (.shifting 15 21) a b ∧ MethodFits .fixed a b := ⟨Nat.le_add_left 1 20, trivial⟩
example (a b : ℚ) : MethodFits (.detrend fun xs i => xs.getD i 0 - xs.sum / xs.length) a b := by
  intro xs i hi
  have h0 : (xs.length : ℚ) ≠ 0 := by have : 0 < xs.length := by omega
                                      positivity
  dsimp only
  rw [sum_affine, List.length_map, List.getD_eq_getElem?_getD, List.getD_eq_getElem?_getD, List.getElem?_map, List.getElem?_eq_getElem hi]
  simp only [Option.map_some, Option.getD_some]
  field_simp
  ring

/-! ### The detrending of the code meets the requirement -/

/-- C162: the code's detrending does not change when a constant is added to the data. -/
theorem C162_detrending_removes_constants {n : Nat} (orders : List Nat) (harmonics forceZeroMean : Bool) (dy : Fin n → ℝ)
    (P : Matrix (Fin n) (Fin (modelRows orders harmonics dy).length) ℝ) (hP : IsPinv (modelMatrix orders harmonics dy) P) (d : Fin n → ℝ) (b : ℝ) :
    detrended orders harmonics forceZeroMean dy P (fun t => d t + b) = detrended orders harmonics forceZeroMean dy P d := by
  refine C36_component_invariance orders harmonics forceZeroMean dy P hP d (fun _ => b) ?_
  rw [show (fun _ : Fin n => b) = b • (fun _ : Fin n => (1 : ℝ)) by funext t; simp]
  exact Submodule.smul_mem _ _ (Submodule.subset_span Fitted.constant)

/-- C163: the code's detrending scales with the data. -/
theorem C163_detrending_scales {n : Nat} (orders : List Nat) (harmonics forceZeroMean : Bool) (dy : Fin n → ℝ)
    (P : Matrix (Fin n) (Fin (modelRows orders harmonics dy).length) ℝ) (d : Fin n → ℝ) (a : ℝ) :
    detrended orders harmonics forceZeroMean dy P (fun t => a * d t) = fun t => a * detrended orders harmonics forceZeroMean dy P d t := by
  have hfit : ∀ c, fitCoeffs P (fun t => a * d t) c = a * fitCoeffs P d c := by
    intro c
    unfold fitCoeffs
    rw [Finset.mul_sum]
    exact Finset.sum_congr rfl fun t _ => by ring
  have hr : removeFit (modelMatrix orders harmonics dy) P (fun t => a * d t) = fun t => a * removeFit (modelMatrix orders harmonics dy) P d t := by
    funext t
    unfold removeFit
    rw [mul_sub, Finset.mul_sum]
    congr 1
    exact Finset.sum_congr rfl fun c _ => by rw [hfit]; ring
  unfold detrended
  dsimp only
  rw [hr]
  cases forceZeroMean with
  | false => rfl
  | true =>
    funext t
    simp only [timeMean, if_true, ← Finset.mul_sum]
    ring

end MarEx.Props
