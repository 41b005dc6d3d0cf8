import Verif.Props.Preprocess
import Verif.Props.Climatology
import Verif.Props.Detrend
/-! C89 (ocean mask), C90 (anomaly method names and parameters), C91 (steps of the output). -/
namespace MarEx.Props
open MarEx Spec

/-! ### C89 -/

theorem withVals_some {record : List Sample} {vs : List (Option ℚ)} (h : ∀ v ∈ vs, v.isSome = true) : ∀ s ∈ withVals record vs, s.val.isSome = true := by
  intro s hs
  unfold withVals at hs
  obtain ⟨i, hi, rfl⟩ := List.mem_iff_getElem.1 hs
  rw [List.getElem_zipWith]
  exact h _ (List.getElem_mem _)

theorem detrendCell_length (fit : List ℚ → Nat → ℚ) (record : List Sample) : (detrendCell fit record).length = record.length := by
  simp [detrendCell, withVals]

theorem head_some_of_complete {record : List Sample} (hne : record ≠ []) (h : ∀ s ∈ record, s.val.isSome = true) :
    ((record.map Sample.val).headD none).isSome = true := by
  cases record with
  | nil => exact absurd rfl hne
  | cons r t => exact h r List.mem_cons_self

theorem mask_complete (gridded : Bool) (m : AnomalyMethod) (P : ExtParams) (ny nx : Nat) (raw : Nat → Nat → List Sample)
    (out : PrepOut) (h : preprocess gridded m P ny nx raw = .ok out) (y x : Nat) (hy : y < ny) (hx : x < nx) :
    out.mask y x = true ↔ raw y x ≠ [] ∧ ∀ s ∈ raw y x, ∃ v, s.val = some v := by
  unfold preprocess at h
  split at h
  · cases h
  · rename_i hv
    have hval := ((C43_validation_iff _).1 hv).2
    have hcell : (raw y x).map Sample.val ∈ (List.range ny).flatMap fun y => (List.range nx).map fun x => (raw y x).map Sample.val :=
      List.mem_flatMap.2 ⟨y, List.mem_range.2 hy, List.mem_map.2 ⟨x, List.mem_range.2 hx, rfl⟩⟩
    have hmask : out.mask = methodMask m raw := by
      split at h
      · cases h
      · dsimp only at h
        split at h
        · cases h
        · cases h; rfl
    rw [hmask]
    have hfirst : oceanMask raw y x = true ↔ raw y x ≠ [] ∧ ∀ s ∈ raw y x, ∃ v, s.val = some v := by
      unfold oceanMask
      constructor
      · intro ho
        have hne : raw y x ≠ [] := by rintro h0; rw [h0] at ho; cases ho
        refine ⟨hne, ?_⟩
        have hh : ∃ v, ((raw y x).map Sample.val).head? = some (some v) := by
          cases hr : raw y x with
          | nil => exact absurd hr hne
          | cons r t =>
            rw [hr] at ho
            obtain ⟨v, hv⟩ := Option.isSome_iff_exists.1 ho
            exact ⟨v, by simpa using hv⟩
        intro s hs
        exact hval _ hcell hh _ (List.mem_map_of_mem (f := Sample.val) hs)
      · rintro ⟨hne, hall⟩
        exact head_some_of_complete hne fun s hs => by obtain ⟨v, hv⟩ := hall s hs; rw [hv]; rfl
    unfold methodMask
    split
    · rename_i fit
      rw [← hfirst]
      unfold oceanMask
      constructor
      · intro ho
        dsimp only at ho
        by_contra hc
        rw [Bool.not_eq_true, Option.isSome_eq_false_iff, Option.isNone_iff_eq_none] at hc
        have hd := detrendCell_missing fit (raw y x) hc
        cases hr : detrendCell fit (raw y x) with
        | nil => rw [hr] at ho; cases ho
        | cons r t =>
          rw [hr] at ho
          have := hd r (by rw [hr]; exact List.mem_cons_self)
          simp [this] at ho
      · intro ho
        have hc := hfirst.1 ho
        apply head_some_of_complete
        · rw [← List.length_pos_iff_ne_nil, detrendCell_length, List.length_pos_iff_ne_nil]; exact hc.1
        · have hall : ((raw y x).all fun s => s.val.isSome) = true := by
            rw [List.all_eq_true]
            intro s hs
            obtain ⟨v, hv⟩ := hc.2 s hs
            simp [hv]
          unfold detrendCell
          dsimp only
          rw [hall]
          exact withVals_some (by simp)
    · exact hfirst

/-- C89: whatever the anomaly method, the returned ocean mask marks exactly the locations whose series is complete. -/
theorem C89_mask_is_complete_series (gridded : Bool) (fit : List Nat → Bool → List ℚ → Nat → ℚ) (A : AnomParams) (P : ExtParams) (ny nx : Nat)
    (raw : Nat → Nat → List Sample) (out : PrepOut) (h : preprocessData gridded fit A P ny nx raw = .ok out) (y x : Nat) (hy : y < ny) (hx : x < nx) :
    out.mask y x = true ↔ raw y x ≠ [] ∧ ∀ s ∈ raw y x, ∃ v, s.val = some v := by
  unfold preprocessData at h
  split at h
  · cases h
  · split at h
    · cases h
    · exact mask_complete gridded _ P ny nx raw out h y x hy hx

/-! ### C90 -/

/-- C90: preprocess_data succeeds only with one of the four documented method names, and with a detrending method only if the orders are omitted or are a
non-empty list of integers of at least one. -/
theorem C90_accepted_methods (gridded : Bool) (fit : List Nat → Bool → List ℚ → Nat → ℚ) (A : AnomParams) (P : ExtParams) (ny nx : Nat)
    (raw : Nat → Nat → List Sample) (out : PrepOut) (h : preprocessData gridded fit A P ny nx raw = .ok out) :
    A.method ∈ ["detrend_harmonic", "shifting_baseline", "fixed_baseline", "detrend_fixed_baseline"] ∧
    (A.method ∈ ["detrend_harmonic", "detrend_fixed_baseline"] → ∀ l, A.orders = some l → l ≠ [] ∧ ∀ o ∈ l, 1 ≤ o) := by
  have hord : ∀ os, checkOrders A.orders = .ok os → ∀ l, A.orders = some l → l ≠ [] ∧ ∀ o ∈ l, 1 ≤ o := by
    intro os hos l hl
    rcases (C67_orders_accepted_iff _ _).1 hos with ⟨h1, _⟩ | ⟨l', h1, h2, h3, _⟩
    · rw [h1] at hl; cases hl
    · rw [h1] at hl; cases hl; exact ⟨h2, h3⟩
  unfold preprocessData at h
  split at h
  · cases h
  · split at h
    · cases h
    · rename_i m hm
      unfold chooseAnomaly at hm
      split at hm
      · rename_i h1
        split at hm
        · cases hm
        · rename_i os hos
          exact ⟨by simp [h1], fun _ => hord os hos⟩
      · split at hm
        · rename_i h1
          exact ⟨by simp [h1], by simp [h1]⟩
        · split at hm
          · rename_i h1
            exact ⟨by simp [h1], by simp [h1]⟩
          · split at hm
            · rename_i h1
              split at hm
              · cases hm
              · rename_i os hos
                exact ⟨by simp [h1], fun _ => hord os hos⟩
            · cases hm

/-- C90: any other name is rejected with a configuration error, whatever the other arguments, once the data have passed their check. -/
theorem C90_unknown_rejected (gridded : Bool) (fit : List Nat → Bool → List ℚ → Nat → ℚ) (A : AnomParams) (P : ExtParams) (ny nx : Nat)
    (raw : Nat → Nat → List Sample)
    (hA : A.method ∉ ["detrend_harmonic", "shifting_baseline", "fixed_baseline", "detrend_fixed_baseline"]) :
    preprocessData gridded fit A P ny nx raw = .error .configuration ∨ preprocessData gridded fit A P ny nx raw = .error .dataValidation := by
  simp only [List.mem_cons, List.not_mem_nil, or_false, not_or] at hA
  unfold preprocessData
  split
  · rename_i e he
    right
    unfold validateData at he
    dsimp only at he
    split at he
    · cases he; rfl
    · split at he
      · cases he; rfl
      · cases he
  · left
    simp [chooseAnomaly, hA.1, hA.2.1, hA.2.2.1, hA.2.2.2]

/-- C34: with the shifting baseline, preprocess_data rejects every record whose calendar years, first to last, are fewer than the window, with a data
validation error and whatever the values. -/
theorem C34_short_record_rejected (gridded : Bool) (fit : List Nat → Bool → List ℚ → Nat → ℚ) (A : AnomParams) (P : ExtParams) (ny nx : Nat)
    (raw : Nat → Nat → List Sample) (hA : A.method = "shifting_baseline") (first last : Nat)
    (hf : ∃ r ∈ raw 0 0, r.year = first) (hf' : ∀ r ∈ raw 0 0, first ≤ r.year)
    (hl : ∃ r ∈ raw 0 0, r.year = last) (hl' : ∀ r ∈ raw 0 0, r.year ≤ last) (hshort : last - first + 1 < A.years) :
    preprocessData gridded fit A P ny nx raw = .error .dataValidation := by
  have hs := (C34_trimmed_years A.years A.smooth (raw 0 0) first last hf hf' hl hl').1 hshort
  have hc : chooseAnomaly fit A = .ok (.shifting A.years A.smooth) := by
    unfold chooseAnomaly; simp [hA]
  unfold preprocessData
  split
  · rename_i e he
    unfold validateData at he
    dsimp only at he
    split at he
    · cases he; rfl
    · split at he
      · cases he; rfl
      · cases he
  · rename_i u hu
    rw [hc]
    dsimp only
    unfold preprocess
    rw [hu]
    dsimp only
    unfold anomalyCell
    dsimp only
    rw [hs]

-- non-vacuity: one year of data and a window of fifteen
example : let raw : Nat → Nat → List Sample := fun _ _ => [⟨2000, 1, some 1⟩, ⟨2000, 2, some 2⟩]
    (∃ r ∈ raw 0 0, r.year = 2000) ∧ (∀ r ∈ raw 0 0, r.year = 2000) := by decide

/-- C90: the result depends on the baseline windows only with the shifting baseline and on the orders only with a detrending method; orders that
are left out mean a linear trend. -/
theorem C90_parameters_used (gridded : Bool) (fit : List Nat → Bool → List ℚ → Nat → ℚ) (A B : AnomParams) (P : ExtParams) (ny nx : Nat)
    (raw : Nat → Nat → List Sample) (hm : A.method = B.method)
    (hs : A.method = "shifting_baseline" → A.years = B.years ∧ A.smooth = B.smooth)
    (hd : A.method ∈ ["detrend_harmonic", "detrend_fixed_baseline"] → A.orders.getD [1] = B.orders.getD [1]) :
    preprocessData gridded fit A P ny nx raw = preprocessData gridded fit B P ny nx raw := by
  have hc : chooseAnomaly fit A = chooseAnomaly fit B := by
    unfold chooseAnomaly
    rw [← hm]
    have ho : A.orders.getD [1] = B.orders.getD [1] → checkOrders A.orders = checkOrders B.orders := by
      intro h; unfold checkOrders; rw [h]
    split
    · rename_i h1; rw [ho (hd (by simp [h1]))]
    · split
      · rename_i h1; rw [(hs h1).1, (hs h1).2]
      · split
        · rfl
        · split
          · rename_i h1; rw [ho (hd (by simp [h1]))]
          · rfl
  unfold preprocessData
  rw [hc]

/-- C90: the annual and semi-annual cycle is part of the fit with `detrend_harmonic` and never with
`detrend_fixed_baseline`; the other two methods fit nothing.  (`fit orders cycle` is the fit; only the one with the
cycle, respectively without it, matters.) -/
theorem C90_cycle_fitted (gridded : Bool) (fit fit' : List Nat → Bool → List ℚ → Nat → ℚ) (A : AnomParams) (P : ExtParams) (ny nx : Nat)
    (raw : Nat → Nat → List Sample)
    (h : A.method = "detrend_harmonic" → ∀ os, fit os true = fit' os true)
    (h' : A.method = "detrend_fixed_baseline" → ∀ os, fit os false = fit' os false) :
    preprocessData gridded fit A P ny nx raw = preprocessData gridded fit' A P ny nx raw := by
  have hc : chooseAnomaly fit A = chooseAnomaly fit' A := by
    unfold chooseAnomaly
    split
    · rename_i h1; simp only [h h1]
    · split
      · rfl
      · split
        · rfl
        · split
          · rename_i h1; simp only [h' h1]
          · rfl
  unfold preprocessData
  rw [hc]

/-- Fits that differ in the cycle only. -/
example : ∃ fit fit' : List Nat → Bool → List ℚ → Nat → ℚ, (∀ os, fit os false = fit' os false) ∧ ∀ os, fit os true ≠ fit' os true := by
  refine ⟨fun _ b _ _ => if b then 1 else 0, fun _ _ _ _ => 0, fun _ => rfl, fun _ h => ?_⟩
  have := congrFun (congrFun h []) 0
  norm_num at this

/-! ### C91 -/

theorem extremes_length (P : ExtParams) (c : Chosen) (ny nx : Nat) (recs : Nat → Nat → List Sample) (ext : ExtOut)
    (h : runExtremes P c ny nx recs = .ok ext) (y x : Nat) : (ext.extremes y x).length = (recs y x).length := by
  unfold runExtremes at h
  split at h
  · cases h
  · split at h
    · have h := Except.ok.inj h; subst h; simp [runGlobal, extremesConstant]
    · split at h
      · cases h
      · split at h
        · have h := Except.ok.inj h; subst h; simp [runExactDays, extremesHobday]
        · unfold runApproxDays at h
          split at h
          · cases h
          · have h := Except.ok.inj h; subst h; simp [extremesHobday]

/-- C91: at every location there is one extreme flag for every anomaly; with every method but the shifting baseline the anomalies have the dates of the
input, with the shifting baseline over `W` years those of the input that are at least `W` years after its first year. -/
theorem C91_steps_of_output (gridded : Bool) (fit : List Nat → Bool → List ℚ → Nat → ℚ) (A : AnomParams) (P : ExtParams) (ny nx : Nat)
    (raw : Nat → Nat → List Sample) (out : PrepOut) (h : preprocessData gridded fit A P ny nx raw = .ok out) (y x : Nat)
    (hdates : SameDates (raw y x) (raw 0 0)) :
    (out.ext.extremes y x).length = (out.anomalies y x).length ∧
    (A.method ≠ "shifting_baseline" → SameDates (out.anomalies y x) (raw y x)) ∧
    (A.method = "shifting_baseline" → ∀ first, (∃ r ∈ raw y x, r.year = first) → (∀ r ∈ raw y x, first ≤ r.year) →
      (out.anomalies y x).map (fun s => (s.year, s.doy)) = ((raw y x).map fun s => (s.year, s.doy)).filter fun p => first + A.years ≤ p.1) := by
  unfold preprocessData at h
  split at h
  · cases h
  split at h
  · cases h
  rename_i m hm
  unfold preprocess at h
  split at h
  · cases h
  split at h
  · cases h
  rename_i an0 han0
  dsimp only at h
  split at h
  · cases h
  rename_i ext hext
  cases h
  dsimp only
  refine ⟨?_, ?_, ?_⟩
  · unfold identifyExtremes at hext
    split at hext
    · cases hext
    · exact extremes_length P _ ny nx _ ext (ite_error_ok hext) y x
  · intro hne
    unfold chooseAnomaly at hm
    have hdt : ∀ f, SameDates (detrendCell f (raw y x)) (raw y x) := fun f => sameDates_withVals (by simp)
    split at hm
    · split at hm
      · cases hm
      · cases hm
        exact hdt _
    · split at hm
      · cases hm
        exact (C35_fixed_baseline _).1
      · split at hm
        · split at hm
          · cases hm
          · cases hm
            exact (C35_fixed_baseline _).1.trans (hdt _)
        · cases hm
  · intro heq first hf hf'
    unfold chooseAnomaly at hm
    rw [heq] at hm
    simp only [String.reduceEq, if_false, if_true] at hm
    cases hm
    -- the last year
    obtain ⟨last, hl, hl'⟩ : ∃ last, (∃ r ∈ raw y x, r.year = last) ∧ ∀ r ∈ raw y x, r.year ≤ last := by
      obtain ⟨r0, hr0, _⟩ := hf
      have hne : ((raw y x).map Sample.year).toFinset.Nonempty := ⟨r0.year, by simpa using ⟨r0, hr0, rfl⟩⟩
      exact ⟨((raw y x).map Sample.year).toFinset.max' hne, by simpa using Finset.max'_mem _ hne,
        fun r hr => Finset.le_max' ((raw y x).map Sample.year).toFinset r.year (by simpa using ⟨r, hr, rfl⟩)⟩
    obtain ⟨hbad, hgood⟩ := C34_trimmed_years A.years A.smooth (raw y x) first last hf hf' hl hl'
    have hyrs : ∀ yr, (∃ r ∈ raw y x, r.year = yr) ↔ ∃ r ∈ raw 0 0, r.year = yr := by
      intro yr
      have hm' : ∀ l : List Sample, (∃ r ∈ l, r.year = yr) ↔ yr ∈ l.map Sample.year := by intro l; simp
      rw [hm', hm', sameDates_years hdates]
    have hle : ∀ (q : Nat → Prop), (∀ r ∈ raw y x, q r.year) → ∀ r ∈ raw 0 0, q r.year := by
      intro q hq r hr
      obtain ⟨r', hr', he⟩ := (hyrs r.year).2 ⟨r, hr, rfl⟩
      rw [← he]; exact hq r' hr'
    by_cases hW : A.years ≤ last - first + 1
    · obtain ⟨o, ho, hd⟩ := hgood hW
      simp only [anomalyCell]
      rw [ho]
      exact hd
    · have := (C34_trimmed_years A.years A.smooth (raw 0 0) first last ((hyrs _).1 hf) (hle _ hf') ((hyrs _).1 hl) (hle (· ≤ last) hl')).1 (by omega)
      simp only [anomalyCell] at han0
      rw [this] at han0
      cases han0

/-- A land cell (no values) and an ocean cell with two steps. -/
def landSea (_ x : Nat) : List Sample := if x = 0 then [⟨1, 1, none⟩, ⟨2, 1, none⟩] else [⟨1, 1, some 3⟩, ⟨2, 1, some 5⟩]

/-- Whether a run succeeded. -/
def succeeded {ε α : Type} : Except ε α → Bool | .ok _ => true | .error _ => false

/-- Runs that meet the hypotheses of C89, C90 and C91: detrending by the mean, and the shifting baseline, on a grid of a land and an ocean cell; and one
with a name that is not among the four. -/
example : succeeded (preprocessData true (fun _ _ l i => l.getD i 0 - l.sum / l.length) ⟨"detrend_fixed_baseline", 15, 21, some [1, 2]⟩
    ⟨"global_extreme", 95, some 11, none, "exact", 1 / 100, 5⟩ 1 2 landSea) = true := by decide +kernel
example : succeeded (preprocessData true (fun _ _ l i => l.getD i 0) ⟨"shifting_baseline", 1, 1, none⟩
    ⟨"global_extreme", 95, some 11, none, "exact", 1 / 100, 5⟩ 1 2 landSea) = true := by decide +kernel
example : preprocessData true (fun _ _ l i => l.getD i 0) ⟨"fixed", 15, 21, none⟩
    ⟨"global_extreme", 95, some 11, none, "exact", 1 / 100, 5⟩ 1 2 landSea = .error .configuration := rfl

end MarEx.Props
