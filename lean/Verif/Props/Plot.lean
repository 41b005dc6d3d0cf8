import Verif.Model.Plot
import Verif.Lemmas.Util
import Verif.Lemmas.Quantiles
import Mathlib.Tactic.Ring
import Mathlib.Tactic.FieldSimp
import Mathlib.Algebra.Order.Floor.Ring
/-! C52, C80–C84: plots. -/
namespace MarEx.Props
open MarEx

/-! ### C52 -/

theorem percentile_mono (xs : List ℚ) (hne : xs ≠ []) (q q' : ℚ) (h0 : 0 ≤ q) (hqq : q ≤ q') (h1 : q' ≤ 1) :
    percentile xs q ≤ percentile xs q' := by
  have hb := percentile_between xs q hne h0 (le_trans hqq h1)
  have hb' := percentile_between xs q' hne (le_trans h0 hqq) h1
  have hlen := length_sortQ xs
  have hpos : 0 < xs.length := List.length_pos_of_ne_nil hne
  have hs := sorted_sortQ xs
  unfold percentile
  unfold percentile at hb hb'
  simp only [] at hb hb' ⊢
  generalize xs.mergeSort (fun a b => decide (a ≤ b)) = s at *
  have hposq : (1 : ℚ) ≤ s.length := by rw [hlen]; exact_mod_cast hpos
  have hvv : q * ((s.length : ℚ) - 1) ≤ q' * ((s.length : ℚ) - 1) := mul_le_mul_of_nonneg_right hqq (by linarith)
  have hk : ⌊q * ((s.length : ℚ) - 1)⌋.toNat ≤ ⌊q' * ((s.length : ℚ) - 1)⌋.toNat :=
    Int.toNat_le_toNat (Int.floor_le_floor hvv)
  rcases Nat.lt_or_eq_of_le hk with hlt | heq
  · refine le_trans hb.2.2 (le_trans ?_ hb'.2.1)
    apply sorted_getD hs _ hb'.1
    omega
  · rw [← heq]
    have hlo : s.getD ⌊q * ((s.length : ℚ) - 1)⌋.toNat 0 ≤ s.getD (min (⌊q * ((s.length : ℚ) - 1)⌋.toNat + 1) (s.length - 1)) 0 := by
      apply sorted_getD hs
      · have := hb.1; omega
      · omega
    have := mul_le_mul_of_nonneg_right hvv (sub_nonneg.2 hlo)
    nlinarith

/-- C52 (colour limits): symmetric automatic limits are `(-c, c)`, where `c` is the larger absolute value of the two percentiles of the data. -/
theorem C52_symmetric_limits (xs : List ℚ) (hne : xs ≠ []) (p0 p1 : ℚ) (h0 : 0 ≤ p0 ∧ p0 ≤ 100) (h1 : 0 ≤ p1 ∧ p1 ≤ 100) :
    ∃ lo hi : ℚ, Spec.IsQuantile (xs : Multiset ℚ) (p0 / 100) lo ∧ Spec.IsQuantile (xs : Multiset ℚ) (p1 / 100) hi ∧
      climRobust xs true p0 p1 = (-max |lo| |hi|, max |lo| |hi|) := by
  have hr : ∀ p : ℚ, 0 ≤ p ∧ p ≤ 100 → 0 ≤ p / 100 ∧ p / 100 ≤ 1 := fun p h =>
    ⟨div_nonneg h.1 (by norm_num), by rw [div_le_one (by norm_num)]; exact h.2⟩
  exact ⟨_, _, percentile_isQuantile xs _ hne (hr p0 h0).1 (hr p0 h0).2, percentile_isQuantile xs _ hne (hr p1 h1).1 (hr p1 h1).2, by simp [climRobust]⟩

example : (climRobust [-3] true 4 96) = (-3, 3) := by
  have h : ∀ q, percentile [-3] q = -3 := fun q => by simp [percentile]
  unfold climRobust
  rw [h, h]
  decide +kernel

/-- C133 (other limits), partial: for increasing percentiles above 0 the limits are in order and are the percentiles of
the data.  Missing: a lower percentile of 0. -/
theorem C133_limits_ordered_partial (xs : List ℚ) (hne : xs ≠ []) (p0 p1 : ℚ) (h0 : 0 < p0) (h01 : p0 ≤ p1) (h1 : p1 ≤ 100) :
    (climRobust xs false p0 p1).1 ≤ (climRobust xs false p0 p1).2 ∧
      Spec.IsQuantile (xs : Multiset ℚ) (p0 / 100) (climRobust xs false p0 p1).1 ∧
      Spec.IsQuantile (xs : Multiset ℚ) (p1 / 100) (climRobust xs false p0 p1).2 := by
  have h : climRobust xs false p0 p1 = (percentile xs (p0 / 100), percentile xs (p1 / 100)) := by
    simp [climRobust, h0.ne']
  have a0 : 0 ≤ p0 / 100 := by positivity
  have a01 : p0 / 100 ≤ p1 / 100 := div_le_div_of_nonneg_right h01 (by norm_num)
  have a1 : p1 / 100 ≤ 1 := by rw [div_le_one (by norm_num)]; exact h1
  rw [h]
  exact ⟨percentile_mono xs hne _ _ a0 a01 a1, percentile_isQuantile xs _ hne a0 (a01.trans a1), percentile_isQuantile xs _ hne (a0.trans a01) a1⟩

example : ([3, 1, 2] : List ℚ) ≠ [] ∧ (0 : ℚ) < 4 ∧ (4 : ℚ) ≤ 96 ∧ (96 : ℚ) ≤ 100 := ⟨by simp, by norm_num, by norm_num, by norm_num⟩

/-- C133 fails with a lower percentile of 0 for every data set of negative values: the limits are upside down. -/
theorem C133_zero_percentile_fails (xs : List ℚ) (hne : xs ≠ []) (hneg : ∀ x ∈ xs, x < 0) (p1 : ℚ) (h0 : 0 ≤ p1) (h1 : p1 ≤ 100) :
    (climRobust xs false 0 p1).2 < (climRobust xs false 0 p1).1 := by
  have hb := (percentile_bounds xs (p1 / 100) hne (by positivity) (by rw [div_le_one (by norm_num)]; exact h1)).2
  obtain ⟨b, hb, hle⟩ := hb
  have h : climRobust xs false 0 p1 = (0, percentile xs (p1 / 100)) := by simp [climRobust]
  rw [h]
  exact lt_of_le_of_lt hle (hneg b hb)

example : ([-2, -1] : List ℚ) ≠ [] ∧ ∀ x ∈ ([-2, -1] : List ℚ), x < 0 := by decide +kernel

/-- C52 (grid selection): a call is rejected iff it names a type that is, up to letter case, neither "gridded" nor
"unstructured"; a rejected call changes nothing. -/
theorem C52_rejected_iff (type tgrid ckdtree : Option String) (g : GridSpec) :
    (specifyGrid type tgrid ckdtree = none ↔ ∃ t, type = some t ∧ t.toLower ≠ "gridded" ∧ t.toLower ≠ "unstructured") ∧
    (specifyGrid type tgrid ckdtree = none → specifyRun g [(type, tgrid, ckdtree)] = g) := by
  constructor
  · cases type with
    | none => simp [specifyGrid]
    | some t =>
      simp only [specifyGrid, Option.some.injEq, exists_eq_left']
      by_cases h : t.toLower = "gridded" ∨ t.toLower = "unstructured"
      · simp only [if_pos h, reduceCtorEq, false_iff]
        rintro ⟨h1, h2⟩
        exact h.elim h1 h2
      · simp only [if_neg h, true_iff]
        exact ⟨fun h1 => h (Or.inl h1), fun h1 => h (Or.inr h1)⟩
  · intro h
    simp [specifyRun, h]

/-- C52 (grid selection): after any history, a call naming a known type (in any letter case) and then any number of
rejected calls, every plot uses that type, whatever the dimensions of its data. -/
theorem C52_type_persists (g : GridSpec) (before rest : List (Option String × Option String × Option String))
    (t : String) (tgrid ckdtree : Option String) (ht : t.toLower = "gridded" ∨ t.toLower = "unstructured")
    (hrest : ∀ c ∈ rest, specifyGrid c.1 c.2.1 c.2.2 = none) (y : Option String) (dims : List String) :
    let s := specifyRun g (before ++ (some t, tgrid, ckdtree) :: rest)
    s.type = some t.toLower ∧ (usesUnstructured s y dims = true ↔ t.toLower = "unstructured") := by
  have hnoop : ∀ (rest : List (Option String × Option String × Option String)) (g : GridSpec),
      (∀ c ∈ rest, specifyGrid c.1 c.2.1 c.2.2 = none) → specifyRun g rest = g := by
    intro rest
    induction rest with
    | nil => intro g _; rfl
    | cons c rest ih =>
      intro g h
      have h1 := h c (List.mem_cons_self ..)
      have : specifyRun g (c :: rest) = specifyRun ((specifyGrid c.1 c.2.1 c.2.2).getD g) rest := rfl
      rw [this, h1]
      exact ih g fun c hc => h c (List.mem_cons_of_mem _ hc)
  intro s
  have hs : s.type = some t.toLower := by
    have h1 : s = specifyRun ((specifyGrid (some t) tgrid ckdtree).getD (specifyRun g before)) rest := by
      simp [s, specifyRun, List.foldl_append]
    rw [h1, hnoop rest _ hrest]
    simp [specifyGrid, ht]
  refine ⟨hs, ?_⟩
  unfold usesUnstructured
  rw [hs, Option.getD_some, beq_iff_eq]
  rcases ht with h | h
  · rw [h]; decide +kernel
  · rw [h]; decide +kernel

theorem orNone_iff (p : Option String) (f : String) : orNone p = some f ↔ p = some f ∧ f ≠ "" := by
  unfold orNone
  cases p with
  | none => simp
  | some t =>
    dsimp only
    by_cases h : t = ""
    · rw [if_pos h]
      subst h
      simp only [reduceCtorEq, Option.some.injEq, false_iff, not_and, ne_eq, not_not]
      exact fun h => h.symm
    · rw [if_neg h]
      simp only [Option.some.injEq]
      exact ⟨fun e => ⟨e, e ▸ h⟩, fun e => e.1⟩

/-- C52 (grid selection): every accepted call replaces the whole specification – type and files are then exactly those of this call (an empty path
counts as none) –, and after a call without a type the type is found from the data: unstructured iff "y" is not mapped or the dimension
mapped to it is absent. -/
theorem C52_call_replaces_all (g : GridSpec) (type tgrid ckdtree : Option String) (hacc : specifyGrid type tgrid ckdtree ≠ none)
    (y : Option String) (dims : List String) :
    let s := specifyRun g [(type, tgrid, ckdtree)]
    s.type = type.map String.toLower ∧ (∀ f, s.tgrid = some f ↔ tgrid = some f ∧ f ≠ "") ∧
    (∀ f, s.ckdtree = some f ↔ ckdtree = some f ∧ f ≠ "") ∧
    (type = none → (usesUnstructured s y dims = true ↔ ∀ d, y = some d → d ∉ dims)) := by
  intro s
  have hs : s = ⟨type.map String.toLower, orNone tgrid, orNone ckdtree⟩ := by
    have h1 : s = (specifyGrid type tgrid ckdtree).getD g := rfl
    rw [h1]
    cases type with
    | none => rfl
    | some t =>
      unfold specifyGrid at hacc ⊢
      dsimp only at hacc ⊢
      split at hacc
      · rename_i h; rw [if_pos h]; rfl
      · exact absurd rfl hacc
  rw [hs]
  refine ⟨rfl, orNone_iff tgrid, orNone_iff ckdtree, ?_⟩
  rintro rfl
  simp only [usesUnstructured, Option.map_none, Option.getD_none, detectGrid]
  cases y with
  | none =>
    simp only [reduceCtorEq, false_imp_iff, implies_true, iff_true]
    decide +kernel
  | some y =>
    simp only [Option.some.injEq, forall_eq']
    by_cases h : y ∈ dims
    · simp only [h, not_true_eq_false, iff_false]
      decide +kernel
    · simp only [h, not_false_eq_true, iff_true]
      decide +kernel

example : specifyGrid (some "Gridded") (some "grid.nc") none = some ⟨some "gridded", some "grid.nc", none⟩ := by decide +kernel

example : usesUnstructured (specifyRun {} [(some "UnStructured", none, none), (some "mesh", none, none)]) (some "lat") ["time", "lat", "lon"] = true := by
  decide +kernel

/-! ### C84 -/

theorem everyTenth_indices (L : Nat) : (List.range ((L + 9) / 10)).map (10 * ·) = (List.range L).filter fun i => decide (i % 10 = 0) := by
  induction L with
  | zero => rfl
  | succ L ih =>
    rw [List.range_succ, List.filter_append, ← ih]
    by_cases h : L % 10 = 0
    · rw [show (L + 1 + 9) / 10 = (L + 9) / 10 + 1 by omega, List.range_succ, List.map_append]
      have : 10 * ((L + 9) / 10) = L := by omega
      simp [h, this]
    · rw [show (L + 1 + 9) / 10 = (L + 9) / 10 by omega]
      simp [h]

theorem everyTenth_eq (steps : List (List ℚ)) :
    (everyTenth steps).flatten = ((List.range steps.length).filter fun i => decide (i % 10 = 0)).flatMap fun i => steps.getD i [] := by
  unfold everyTenth
  rw [← everyTenth_indices, List.flatMap_map]
  induction List.range ((steps.length + 9) / 10) with
  | nil => rfl
  | cons i l ih =>
    rw [List.flatMap_cons, ← ih, List.filterMap_cons, List.getD_eq_getElem?_getD]
    cases steps[10 * i]? with
    | none => simp
    | some x => simp

theorem mem_everyTenth {α} (steps : List α) (x : α) (h : x ∈ everyTenth steps) : ∃ i, steps[10 * i]? = some x := by
  unfold everyTenth at h
  obtain ⟨i, _, hi⟩ := List.mem_filterMap.1 h
  exact ⟨i, hi⟩

/-- C84, exactly: for percentiles above 0 the automatic limits are these percentiles of the values at the steps 0, 10, 20, … of the record.  Missing: the
values at the other steps, so C84 holds for records of one step only. -/
theorem C84_limits_of_data_partial (steps : List (List ℚ)) (p0 p1 : ℚ) (h0 : 0 < p0) (h01 : p0 ≤ p1) (h1 : p1 ≤ 100)
    (used : List ℚ) (hu : used = ((List.range steps.length).filter fun i => decide (i % 10 = 0)).flatMap fun i => steps.getD i []) (hne : used ≠ []) :
    Spec.IsQuantile (used : Multiset ℚ) (p0 / 100) (autoClim steps false p0 p1).1 ∧
    Spec.IsQuantile (used : Multiset ℚ) (p1 / 100) (autoClim steps false p0 p1).2 := by
  unfold autoClim
  rw [everyTenth_eq, ← hu]
  exact (C133_limits_ordered_partial used hne p0 p1 h0 h01 h1).2

-- one step: all the data
example (step : List ℚ) : ((List.range [step].length).filter fun i => decide (i % 10 = 0)).flatMap (fun i => [step].getD i []) = step := by simp

/-- C84 fails: the automatic limits do not depend on the steps between every tenth step at all; two records that agree
on the steps 0, 10, 20, … get the same limits, however different their other values. -/
theorem C84_sampled_fails (a b : List (List ℚ)) (hlen : a.length = b.length) (h : ∀ i, a[10 * i]? = b[10 * i]?)
    (issym : Bool) (p0 p1 : ℚ) : autoClim a issym p0 p1 = autoClim b issym p0 p1 := by
  have : everyTenth a = everyTenth b := by
    unfold everyTenth
    rw [hlen]
    congr 1
    funext i
    exact h i
  unfold autoClim
  rw [this]

example : ∀ i, ([[1], [2], [3]] : List (List ℚ))[10 * i]? = ([[1], [200], [-300]] : List (List ℚ))[10 * i]? := by
  intro i
  rcases Nat.eq_zero_or_pos i with rfl | h
  · rfl
  · rw [List.getElem?_eq_none (by simp; omega), List.getElem?_eq_none (by simp; omega)]

/-! ### C80 -/

/-- `n` longitudes from `a` in steps of `d`. -/
def uniformLon (a d : ℚ) (n : Nat) : List ℚ := (List.range n).map fun i : Nat => a + (i : ℚ) * d

theorem foldl_max_mono (l : List ℚ) (m : ℚ) (M : ℚ) (hM : M ∈ m :: l) (h : ∀ x ∈ m :: l, x ≤ M) : l.foldl max m = M := by
  induction l generalizing m with
  | nil => exact (List.mem_singleton.1 hM).symm
  | cons a l ih =>
    rw [List.foldl_cons]
    apply ih
    · rcases List.mem_cons.1 hM with rfl | h1
      · rw [max_eq_left (h a (by simp))]; exact List.mem_cons_self ..
      · rcases List.mem_cons.1 h1 with rfl | h2
        · rw [max_eq_right (h m (by simp))]; exact List.mem_cons_self ..
        · exact List.mem_cons_of_mem _ h2
    · intro x hx
      rcases List.mem_cons.1 hx with rfl | h1
      · exact max_le (h _ (by simp)) (h _ (by simp))
      · exact h x (by simp [h1])

theorem foldl_min_mono (l : List ℚ) (m : ℚ) (M : ℚ) (hM : M ∈ m :: l) (h : ∀ x ∈ m :: l, M ≤ x) : l.foldl min m = M := by
  induction l generalizing m with
  | nil => exact (List.mem_singleton.1 hM).symm
  | cons a l ih =>
    rw [List.foldl_cons]
    apply ih
    · rcases List.mem_cons.1 hM with rfl | h1
      · rw [min_eq_left (h a (by simp))]; exact List.mem_cons_self ..
      · rcases List.mem_cons.1 h1 with rfl | h2
        · rw [min_eq_right (h m (by simp))]; exact List.mem_cons_self ..
        · exact List.mem_cons_of_mem _ h2
    · intro x hx
      rcases List.mem_cons.1 hx with rfl | h1
      · exact le_min (h _ (by simp)) (h _ (by simp))
      · exact h x (by simp [h1])

theorem uniformLon_eq (a d : ℚ) (m : Nat) :
    uniformLon a d (m + 2) = a :: (a + d) :: (List.range m).map (fun i : Nat => a + ((i : ℚ) + 2) * d) := by
  unfold uniformLon
  rw [List.range_succ_eq_map, List.range_succ_eq_map]
  simp only [List.map_cons, List.map_map, Nat.cast_zero, zero_mul, add_zero, List.cons.injEq, true_and]
  refine ⟨by simp, ?_⟩
  apply List.map_congr_left
  intro i _
  simp only [Function.comp]
  push_cast
  ring

theorem mem_uniformLon (a d : ℚ) (n : Nat) (x : ℚ) : x ∈ uniformLon a d n ↔ ∃ i < n, x = a + (i : ℚ) * d := by
  unfold uniformLon
  simp only [List.mem_map, List.mem_range]
  constructor
  · rintro ⟨i, hi, rfl⟩; exact ⟨i, hi, rfl⟩
  · rintro ⟨i, hi, rfl⟩; exact ⟨i, hi, rfl⟩

theorem wrapLon_uniform {α} (a d : ℚ) (hd : 0 < d) (m : Nat) (c : α) (cs : List α) :
    wrapLon (uniformLon a d (m + 2)) (c :: cs) =
      if |360 - ((m : ℚ) + 1) * d| < 2 * d then
        some (uniformLon a d (m + 2) ++ [a + 360], (c :: cs) ++ [c])
      else some (uniformLon a d (m + 2), c :: cs) := by
  have hmem := mem_uniformLon a d (m + 2)
  have hmx : (uniformLon a d (m + 2)).foldl max a = a + ((m : ℚ) + 1) * d := by
    apply foldl_max_mono
    · refine List.mem_cons_of_mem _ ((hmem _).2 ⟨m + 1, by omega, by push_cast; ring⟩)
    · intro x hx
      rcases List.mem_cons.1 hx with rfl | h
      · have : (0 : ℚ) ≤ ((m : ℚ) + 1) * d := by positivity
        linarith
      · obtain ⟨i, hi, rfl⟩ := (hmem _).1 h
        have : (i : ℚ) ≤ (m : ℚ) + 1 := by exact_mod_cast (by omega : i ≤ m + 1)
        have := mul_le_mul_of_nonneg_right this hd.le
        linarith
  have hmn : (uniformLon a d (m + 2)).foldl min a = a := by
    apply foldl_min_mono
    · exact List.mem_cons_self ..
    · intro x hx
      rcases List.mem_cons.1 hx with rfl | h
      · exact le_refl _
      · obtain ⟨i, hi, rfl⟩ := (hmem _).1 h
        have : (0 : ℚ) ≤ (i : ℚ) * d := by positivity
        linarith
  rw [uniformLon_eq] at *
  simp only [wrapLon]
  rw [hmx, hmn]
  have e1 : a + ((m : ℚ) + 1) * d - a = ((m : ℚ) + 1) * d := by ring
  have e2 : 2 * (a + d - a) = 2 * d := by ring
  rw [e1, e2]

/-- C80, partial: data on `n ≥ 2` evenly spaced increasing longitudes that together go once around the globe are
wrapped: one column is added one step after the last, 360° after the first, holding the data of the first.  Data whose
longitudes leave out at least two steps of the globe are not changed.  Missing: see the `_fails` theorems. -/
theorem C80_wraps_global_partial {α} (a d : ℚ) (hd : 0 < d) (n : Nat) (hn : 2 ≤ n) (c : α) (cs : List α) :
    ((n : ℚ) * d = 360 →
      wrapLon (uniformLon a d n) (c :: cs) = some (uniformLon a d (n + 1), (c :: cs) ++ [c])) ∧
    ((n : ℚ) * d + d ≤ 360 → wrapLon (uniformLon a d n) (c :: cs) = some (uniformLon a d n, c :: cs)) := by
  obtain ⟨m, rfl⟩ : ∃ m, n = m + 2 := ⟨n - 2, by omega⟩
  rw [wrapLon_uniform a d hd]
  push_cast
  constructor
  · intro h
    have h1 : (360 : ℚ) - ((m : ℚ) + 1) * d = d := by linarith
    rw [h1, abs_of_pos hd, if_pos (by linarith)]
    have : uniformLon a d (m + 2 + 1) = uniformLon a d (m + 2) ++ [a + 360] := by
      unfold uniformLon
      rw [List.range_succ, List.map_append, List.map_singleton]
      push_cast
      rw [h]
    rw [this]
  · intro h
    rw [if_neg]
    rw [not_lt]
    refine le_trans ?_ (le_abs_self _)
    linarith

example : (4 : ℚ) * 90 = 360 ∧ wrapLon (uniformLon 0 90 4) [1, 2, 3, 4] = some ([0, 90, 180, 270, 360], [1, 2, 3, 4, 1]) := by
  decide +kernel

/-- C80 fails for grids that contain both ends (0° and 360°): the longitude 360° after the first is already there and is
added a second time. -/
theorem C80_closed_grid_fails {α} (a d : ℚ) (hd : 0 < d) (n : Nat) (hn : 2 ≤ n) (h : ((n : ℚ) - 1) * d = 360) (c : α) (cs : List α) :
    ∃ l, wrapLon (uniformLon a d n) (c :: cs) = some (l, (c :: cs) ++ [c]) ∧ ¬ l.Nodup := by
  obtain ⟨m, rfl⟩ : ∃ m, n = m + 2 := ⟨n - 2, by omega⟩
  push_cast at h
  have h1 : ((m : ℚ) + 1) * d = 360 := by linarith
  refine ⟨uniformLon a d (m + 2) ++ [a + 360], ?_, ?_⟩
  · rw [wrapLon_uniform a d hd, h1, if_pos]
    simp only [sub_self, abs_zero]
    linarith
  · intro hnd
    rw [List.nodup_append] at hnd
    have hm : a + 360 ∈ uniformLon a d (m + 2) :=
      (mem_uniformLon ..).2 ⟨m + 1, by omega, by push_cast; rw [h1]⟩
    exact hnd.2.2 _ hm _ (by simp) rfl

/-- C80 fails for data with a single longitude: the plot raises an IndexError. -/
theorem C80_single_column_fails {α} (l : ℚ) (cs : List α) : wrapLon [l] cs = none := by
  cases cs <;> rfl

/-- C80 fails for decreasing longitudes: global data are never wrapped. -/
theorem C80_descending_fails {α} (l0 l1 : ℚ) (h : l1 < l0) (ls : List ℚ) (c : α) (cs : List α) :
    wrapLon (l0 :: l1 :: ls) (c :: cs) = some (l0 :: l1 :: ls, c :: cs) := by
  simp only [wrapLon]
  rw [if_neg]
  rw [not_lt]
  exact le_trans (by linarith) (abs_nonneg _)

/-! ### C81 -/

/-- C81, partial: a multi-panel plot of at least two steps draws every step exactly once, in order, and deletes the
remaining axes; there are fewer than `col_wrap` of those.  Missing: one step. -/
theorem C81_panels_partial (n w : Nat) (hn : 2 ≤ n) (hw : 1 ≤ w) :
    ∃ axes, multiPanels n w = some axes ∧ axes.filterMap id = List.range n ∧ n ≤ axes.length ∧
      axes.length < n + w := by
  have hq : n ≤ (n + w - 1) / w * min n w ∧ (n + w - 1) / w * min n w < n + w := by
    have h1 := Nat.div_add_mod (n + w - 1) w
    have h2 := Nat.mod_lt (n + w - 1) (by omega : w > 0)
    rcases Nat.le_total n w with h | h
    · rw [Nat.min_eq_left h]
      have hq1 : (n + w - 1) / w = 1 := by
        rw [Nat.div_eq_iff (by omega)]; omega
      rw [hq1]; omega
    · rw [Nat.min_eq_right h, Nat.mul_comm]
      omega
  refine ⟨(List.range ((n + w - 1) / w * min n w)).map fun i => if i < n then some i else none, ?_, ?_, ?_, ?_⟩
  · unfold multiPanels
    rw [if_neg (by omega)]
    simp only []
    rw [if_neg (by omega)]
  · rw [List.filterMap_map]
    obtain ⟨k, hk⟩ : ∃ k, (n + w - 1) / w * min n w = n + k := ⟨(n + w - 1) / w * min n w - n, by omega⟩
    rw [hk, List.range_add, List.filterMap_append]
    have e1 : (List.range n).filterMap (id ∘ fun i => if i < n then some i else none) = List.range n := by
      rw [List.filterMap_congr (g := some)]
      · simp
      · intro i hi
        simp [List.mem_range.1 hi]
    have e2 : ((List.range k).map (n + ·)).filterMap (id ∘ fun i => if i < n then some i else none) = [] := by
      rw [List.filterMap_eq_nil_iff]
      intro i hi
      obtain ⟨j, _, rfl⟩ := List.mem_map.1 hi
      simp
    rw [e1, e2, List.append_nil]
  · simpa using hq.1
  · simpa using hq.2

example : multiPanels 4 3 = some [some 0, some 1, some 2, some 3, none, none] := by decide +kernel

/-- C81 fails for one step, whatever `col_wrap`: the call raises. -/
theorem C81_one_step_fails (w : Nat) : multiPanels 1 w = none := by
  unfold multiPanels
  by_cases h : w = 0
  · simp [h]
  · rw [if_neg h]
    have h1 : (1 + w - 1) / w = 1 := by
      rw [Nat.add_sub_cancel_left]; exact Nat.div_self (by omega)
    have h2 : min 1 w = 1 := by omega
    simp only [h1, h2]
    rfl

/-! ### C82 -/

theorem idBounds_count (maxId id : Nat) (h : id ≤ maxId + 1) :
    (idBounds maxId).countP (fun b => decide (b ≤ (id : ℚ))) = id := by
  unfold idBounds
  rw [List.countP_map]
  have e : (List.range (maxId + 1)).countP ((fun b : ℚ => decide (b ≤ (id : ℚ))) ∘ fun j : Nat => (j : ℚ) + 1 - 1 / 2)
      = (List.range (maxId + 1)).countP (fun j => decide (j < id)) := by
    apply List.countP_congr
    intro j _
    simp only [Function.comp, decide_eq_true_eq]
    constructor
    · intro h1
      have : (j : ℚ) < id := by linarith
      exact_mod_cast this
    · intro h1
      have : (j : ℚ) + 1 ≤ id := by exact_mod_cast h1
      linarith
  rw [e]
  obtain ⟨k, hk⟩ : ∃ k, maxId + 1 = id + k := ⟨maxId + 1 - id, by omega⟩
  rw [hk, List.range_add, List.countP_append]
  have e1 : (List.range id).countP (fun j => decide (j < id)) = id := by
    rw [List.countP_eq_length.2]
    · simp
    · intro j hj; simpa using hj
  have e2 : ((List.range k).map (id + ·)).countP (fun j => decide (j < id)) = 0 := by
    rw [List.countP_eq_zero]
    intro j hj
    obtain ⟨i, _, rfl⟩ := List.mem_map.1 hj
    simp
  rw [e1, e2, Nat.add_zero]

/-- C82, partial: with at least one object and at least as many colours as objects, every ID has a colour of the table,
and different IDs have different colours of the table.  Missing: no objects, fewer colours than objects. -/
theorem C82_distinct_colours_partial (maxId N : Nat) (hm : 1 ≤ maxId) (hN : maxId ≤ N) (a b : Nat) (ha : 1 ≤ a) (hab : a < b) (hb : b ≤ maxId) :
    ∃ i j, idColour maxId N a = some i ∧ idColour maxId N b = some j ∧ i < j ∧ j < N := by
  have hm2 : 2 ≤ maxId := by omega
  unfold idColour
  rw [if_neg (by omega), if_neg (by omega)]
  simp only [idBounds_count maxId a (by omega), idBounds_count maxId b (by omega)]
  by_cases hNm : N = maxId
  · rw [if_pos hNm, if_pos hNm]
    exact ⟨a - 1, b - 1, rfl, rfl, by omega, by omega⟩
  · rw [if_neg hNm, if_neg hNm, if_neg (by omega), if_neg (by omega)]
    refine ⟨_, _, rfl, rfl, ?_, ?_⟩
    · have h1 : (N - 1) * (a - 1) + (maxId - 1) ≤ (N - 1) * (b - 1) := by
        have h2 : (N - 1) * (a - 1) + (N - 1) = (N - 1) * a := by
          obtain ⟨a', rfl⟩ : ∃ a', a = a' + 1 := ⟨a - 1, by omega⟩
          simp [Nat.mul_succ]
        have h3 : (N - 1) * a ≤ (N - 1) * (b - 1) := Nat.mul_le_mul_left _ (by omega)
        omega
      calc (N - 1) * (a - 1) / (maxId - 1) < (N - 1) * (a - 1) / (maxId - 1) + 1 := by omega
        _ = ((N - 1) * (a - 1) + (maxId - 1)) / (maxId - 1) := by rw [Nat.add_div_right _ (by omega)]
        _ ≤ _ := Nat.div_le_div_right h1
    · have h1 : (N - 1) * (b - 1) ≤ (N - 1) * (maxId - 1) := Nat.mul_le_mul_left _ (by omega)
      have h2 : (N - 1) * (b - 1) / (maxId - 1) ≤ N - 1 := by
        calc _ ≤ (N - 1) * (maxId - 1) / (maxId - 1) := Nat.div_le_div_right h1
          _ = N - 1 := Nat.mul_div_cancel _ (by omega)
      omega

example : idColour 3 3 1 = some 0 ∧ idColour 3 3 3 = some 2 ∧ idColour 3 256 2 = some 127 := by decide +kernel

/-- C82 fails for an ID field without objects (the colour norm of zero bins is refused), and for a colour map with fewer
colours than there are objects (for example any standard map of 256 colours with 257 objects). -/
theorem C82_refused_fails (N : Nat) (maxId : Nat) (x : ℚ) (h : maxId = 0 ∨ N < maxId) : idColour maxId N x = none := by
  simp [idColour, h]

example : idColour 257 256 3 = none := by decide +kernel

/-! ### C83 -/

/-- A plot made after the operations `ops` uses the content that the file has then, if the file was not written since it
was first loaded (or since the cache was last cleared). -/
theorem C83_fresh_partial {β} (files : String → β) (before after : List (CacheOp β)) (p : String)
    (hclr : before = [] ∨ ∃ l, before = l ++ [CacheOp.clear])
    (hw : ∀ c, CacheOp.write p c ∉ after) :
    let s := (before ++ after).foldl cacheStep ⟨files, fun _ => none⟩
    loaded s p = s.files p := by
  have key : ∀ (after : List (CacheOp β)) (s : CacheState β), (∀ c, CacheOp.write p c ∉ after) →
      (s.cache p = none ∨ s.cache p = some (s.files p)) →
      ((after.foldl cacheStep s).cache p = none ∨ (after.foldl cacheStep s).cache p = some ((after.foldl cacheStep s).files p)) := by
    intro after
    induction after with
    | nil => intro s _ h; exact h
    | cons o after ih =>
      intro s hw h
      rw [List.foldl_cons]
      apply ih _ (fun c hc => hw c (List.mem_cons_of_mem _ hc))
      cases o with
      | write q c =>
        have hq : p ≠ q := by rintro rfl; exact hw c (List.mem_cons_self ..)
        simpa [cacheStep, hq] using h
      | load q =>
        by_cases hq : p = q
        · subst hq
          right
          rcases h with h | h <;> simp [cacheStep, h]
        · simpa [cacheStep, hq] using h
      | clear => left; rfl
  intro s
  have hs : s = after.foldl cacheStep (before.foldl cacheStep ⟨files, fun _ => none⟩) := by
    simp [s, List.foldl_append]
  have hb : (before.foldl cacheStep ⟨files, fun _ => none⟩).cache p = none := by
    rcases hclr with rfl | ⟨l, rfl⟩
    · rfl
    · rw [List.foldl_append]; rfl
  have := key after _ hw (Or.inl hb)
  rw [← hs] at this
  unfold loaded
  rcases this with h | h <;> rw [h] <;> rfl

/-- C83 fails: a grid file rewritten after it was used once is not read again: the plot shows the old grid. -/
theorem C83_stale_fails {β} (s : CacheState β) (p : String) (new : β) :
    loaded (cacheStep (cacheStep s (.load p)) (.write p new)) p = loaded s p := by
  simp [loaded, cacheStep]

example : loaded (cacheStep (cacheStep ⟨fun _ => 1, fun _ => none⟩ (.load "grid.nc")) (.write "grid.nc" 2)) "grid.nc" = 1 := by
  decide +kernel

end MarEx.Props
