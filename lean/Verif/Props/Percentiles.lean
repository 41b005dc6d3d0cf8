import Verif.Props.Threshold
import Verif.Props.Preprocess
import Verif.Props.Plot
/-! C183: raising the percentile never adds an extreme. -/
namespace MarEx.Props
open MarEx Spec

/-- A comparison with a larger threshold holds less often. -/
theorem geNaN_anti {v t₁ t₂ : Option ℚ} (h : ∀ b, t₂ = some b → ∃ a, t₁ = some a ∧ a ≤ b) (hv : geNaN v t₂ = true) : geNaN v t₁ = true := by
  cases v with
  | none => simp [geNaN] at hv
  | some x =>
    cases t₂ with
    | none => simp [geNaN] at hv
    | some b =>
      obtain ⟨a, rfl, hab⟩ := h b rfl
      simp only [geNaN, decide_eq_true_eq] at hv ⊢
      linarith

theorem quantileExact_mono {q₁ q₂ : ℚ} (h0 : 0 ≤ q₁) (h12 : q₁ ≤ q₂) (h1 : q₂ ≤ 1) (vs : List (Option ℚ)) (b : ℚ)
    (h : quantileExact q₂ vs = some b) : ∃ a, quantileExact q₁ vs = some a ∧ a ≤ b := by
  unfold quantileExact at *
  simp only [] at h ⊢
  by_cases he : (vs.filterMap id).isEmpty
  · rw [if_pos he] at h; cases h
  · rw [if_neg he] at h ⊢
    simp only [Option.some.injEq] at h
    refine ⟨_, rfl, h ▸ percentile_mono _ ?_ _ _ h0 h12 h1⟩
    intro hn
    rw [hn] at he
    exact he rfl

theorem length_addRows (m : Nat) (rows : List (List Nat)) : (addRows m rows).length = m := by simp [addRows]

theorem length_windowedHist {w m : Nat} {hist rows : List (List Nat)} (h : windowedHist w m hist = .ok rows) : ∀ r ∈ rows, r.length = m := by
  unfold windowedHist at h
  simp only [] at h
  split at h
  · cases h
  · split at h
    · simp only [Except.ok.injEq] at h
      subst h
      intro r hr
      obtain ⟨i, _, rfl⟩ := List.mem_map.1 hr
      exact length_addRows _ _
    · cases h

/-- One entry of the approximate thresholds, for any windows. -/
theorem thresholds2d_mono {p mx : ℚ} (hp : 0 < p) (hmx : p < mx) {q₁ q₂ : ℚ} (h0 : 0 ≤ q₁) (h12 : q₁ ≤ q₂) (h1 : q₂ ≤ 1) {w : Nat} {fm : Bool}
    {hist : List (List Nat)} (d : Nat) (b : ℚ) (h : (okThresholds (thresholds2d p mx q₂ w fm hist)).getD d none = some b) :
    ∃ a, (okThresholds (thresholds2d p mx q₁ w fm hist)).getD d none = some a ∧ a ≤ b := by
  unfold thresholds2d at h ⊢
  cases hr : windowedHist w (nBins p mx) hist with
  | error e => rw [hr] at h; simp [okThresholds] at h
  | ok rows =>
    rw [hr] at h
    simp only [okThresholds] at h ⊢
    simp only [List.getD_eq_getElem?_getD, List.getElem?_map] at h ⊢
    cases hd : rows[d]? with
    | none => rw [hd] at h; simp at h
    | some row =>
      rw [hd] at h
      simp only [Option.map_some, Option.getD_some] at h ⊢
      cases fm with
      | true => simp at h
      | false =>
        simp only [Bool.false_eq_true, if_false] at h ⊢
        have hl : row.length = nBins p mx := length_windowedHist hr row (List.mem_of_getElem? hd)
        by_cases hz : row.sum = 0
        · rw [rowQuantile_none _ _ _ hz] at h; cases h
        · obtain ⟨t₁, t₂, e1, e2, hle, _⟩ := row_mono hp (by have := nBins_ge4 hp hmx; omega : 3 ≤ nBins p mx) h0 h12 h1 row row hl hl rfl
            (Nat.pos_of_ne_zero hz) (fun k => le_refl _) (fun _ => Or.inr rfl)
          rw [e2] at h
          simp only [Option.some.injEq] at h
          exact ⟨t₁, e1, h ▸ hle⟩

/-- The constant approximate threshold: where raising the percentile lowers it, no anomaly lies in between. -/
theorem threshold1d_nested {p mx : ℚ} (hp : 0 < p) (hmx : p < mx) {q₁ q₂ : ℚ} (h12 : q₁ ≤ q₂) (h1 : q₂ ≤ 1) (vs : List (Option ℚ))
    (hn : vs.length ≤ 1000000000) (v : Option ℚ) (hv : v ∈ vs) (h : geNaN v (threshold1d p mx q₂ vs) = true) :
    geNaN v (threshold1d p mx q₁ vs) = true := by
  by_cases hnone : vs.any (fun v => v = none) = true
  · unfold threshold1d at h
    rw [if_pos hnone] at h
    cases v <;> simp [geNaN] at h
  obtain ⟨S, rfl⟩ : ∃ S : List ℚ, vs = S.map some := by
    refine ⟨vs.filterMap id, ?_⟩
    clear h hv hn
    induction vs with
    | nil => rfl
    | cons x xs ih =>
      simp only [List.any_cons, Bool.or_eq_true, not_or, decide_eq_true_eq] at hnone
      cases x with
      | none => exact absurd rfl hnone.1
      | some x => exact congrArg (some x :: ·) (ih hnone.2)
  have h4 := nBins_ge4 hp hmx
  have hl := length_histCounts1d (p := p) (mx := mx) (S.map some)
  have hs := sum_le_length (p := p) (mx := mx) (S.map some) (by omega)
  rw [threshold1d_numbers (by omega)] at h ⊢
  obtain ⟨x, hx, rfl⟩ := List.mem_map.1 hv
  simp only [geNaN, decide_eq_true_eq] at h ⊢
  rcases quantile1d_order hp h4 h12 h1 _ hl (le_trans hs hn) with ho | ⟨_, hflat, hle⟩
  · exact le_trans ho h
  · have hpx : p ≤ x := le_trans (le_max_left _ _) h
    refine max_le hpx ?_
    by_contra hcon
    push Not at hcon
    have hxc : x < centreOf p (nBins p mx - 2) := lt_of_lt_of_le hcon hle
    have hcast : ((nBins p mx - 2 : ℕ) : ℚ) = (nBins p mx : ℚ) - 2 := by rw [Nat.cast_sub (by omega)]; norm_num
    rw [centreOf_pos (by omega), hcast] at hxc
    obtain ⟨_, hsp⟩ := digitize_spec (mx := mx) hp x
    have hlow : 2 < digitize p mx (some x) := (hsp 2 (by omega)).1 (by norm_num; linarith)
    have hup : ¬ (nBins p mx - 2 < digitize p mx (some x)) := fun hc => by
      have := (hsp _ (by omega)).2 hc
      rw [hcast] at this
      nlinarith
    have hlast : some x ≠ some (lastEdge p mx) := by
      intro he
      have := (digitize_lt_iff (mx := mx) hp (by omega) x).1 (by omega)
      simp only [Option.some.injEq] at he
      linarith
    have hb : bin1 p mx (some x) = digitize p mx (some x) := by unfold bin1; rw [if_neg hlast]
    have hflat' := hflat (nBins p mx - 2) (by omega)
    have hcum : cumOf (histCounts1d p mx (S.map some)) (nBins p mx - 2) = cumOf (histCounts1d p mx (S.map some)) 0 := by
      unfold cdfOf at hflat'
      have hN : (((histCounts1d p mx (S.map some)).sum : ℚ) + 1 / 10000000000) ≠ 0 := by positivity
      rw [div_left_inj' hN] at hflat'
      exact_mod_cast hflat'
    rw [cumOf_histCounts1d (by omega), cumOf_histCounts1d (by omega)] at hcum
    have hsub : ((S.map some).filter fun v => decide (bin1 p mx v ≤ 0)) =
        ((S.map some).filter fun v => decide (bin1 p mx v ≤ nBins p mx - 2)).filter fun v => decide (bin1 p mx v ≤ 0) := by
      rw [List.filter_filter]
      apply List.filter_congr
      intro v _
      by_cases hv0 : bin1 p mx v ≤ 0
      · have : bin1 p mx v ≤ nBins p mx - 2 := by omega
        simp [hv0, this]
      · simp [hv0]
    rw [hsub] at hcum
    have hall := List.length_filter_eq_length_iff.1 hcum.symm
    have := hall (some x) (List.mem_filter.2 ⟨hv, by rw [hb]; simp only [decide_eq_true_eq]; omega⟩)
    rw [hb] at this
    simp only [decide_eq_true_eq] at this
    omega

/-- The checks treat the larger percentile like the smaller one. -/
theorem checkExtremes_raise {gridded : Bool} {P : ExtParams} {c : Chosen} (h : checkExtremes gridded P = .ok c) {pc : ℚ} (hpc : P.percentile ≤ pc) :
    checkExtremes gridded { P with percentile := pc } = .ok c := by
  have hp : checkPercentile P = .ok () := by
    unfold checkExtremes at h
    split at h
    · cases h
    · assumption
  have hp' : checkPercentile { P with percentile := pc } = .ok () := by
    unfold checkPercentile at hp ⊢
    simp only [] at hp ⊢
    split at hp
    · cases hp
    · rename_i a1
      split at hp
      · cases hp
      · rename_i a2
        split at hp
        · cases hp
        · rename_i a3
          split at hp
          · cases hp
          · rename_i a4
            rw [if_neg a1, if_neg a2, if_neg a3, if_neg (fun hc => a4 ⟨lt_of_le_of_lt hpc hc.1, hc.2⟩)]
  unfold checkExtremes at h ⊢
  rw [hp] at h
  rw [hp']
  exact h

/-- **C183**: whenever `identify_extremes` succeeds, it succeeds with every larger percentile up to 100, and every extreme it then reports, at every
cell and step, is one it reports with the smaller percentile.  All methods, all windows; for the histogram method the bins must be proper
(`0 < precision < max_anomaly`), for one threshold per cell the record must have at most 10⁹ steps. -/
theorem C183_nested (gridded : Bool) (P : ExtParams) (ny nx : Nat) (recs : Nat → Nat → List Sample) (pc : ℚ) (hpc : P.percentile ≤ pc) (h100 : pc ≤ 100)
    (hbins : P.methodPercentile = "approximate" → 0 < P.precision ∧ P.precision < P.maxAnomaly)
    (hlen : P.methodPercentile = "approximate" → P.methodExtreme = "global_extreme" → ∀ y x, (recs y x).length ≤ 1000000000)
    (out : ExtOut) (h : identifyExtremes gridded P ny nx recs = .ok out) :
    ∃ out', identifyExtremes gridded { P with percentile := pc } ny nx recs = .ok out' ∧
      ∀ y x (i : Nat), (out'.extremes y x)[i]? = some true → (out.extremes y x)[i]? = some true := by
  have hrange := C75_percentile_range_partial gridded P ny nx recs out h
  have hexact : P.methodPercentile = "exact" ∨ P.methodPercentile ≠ "exact" ∧ P.methodPercentile = "approximate" := by
    rcases hrange with h | h
    · exact Or.inl h.1
    · exact Or.inr ⟨by rw [h.1]; decide, h.1⟩
  have h0 : 0 ≤ P.percentile / 100 := by
    rcases hrange with h | h
    · linarith [h.2.1]
    · linarith [h.2]
  have h12 : P.percentile / 100 ≤ pc / 100 := by linarith
  have h1 : pc / 100 ≤ 1 := by linarith
  unfold identifyExtremes at h ⊢
  cases hc : checkExtremes gridded P with
  | error e => rw [hc] at h; cases h
  | ok c =>
    rw [hc] at h
    rw [checkExtremes_raise hc hpc]
    have hm := ((checkExtremes_error gridded P).1 c hc).2
    have hlay : layoutFails gridded { P with percentile := pc } c nx = layoutFails gridded P c nx := rfl
    simp only [] at h ⊢
    rw [hlay]
    split at h
    · cases h
    rename_i hnl
    rw [if_neg hnl]
    unfold runExtremes at h ⊢
    split at h
    · cases h
    rw [if_neg (by rintro ⟨_, h | h⟩ <;> simp only [] at h <;> linarith)]
    rcases hm with ⟨hme, rfl⟩ | ⟨hme, w, hw, rfl⟩
    · simp only [Except.ok.injEq] at h
      subst h
      refine ⟨_, rfl, fun y x i => ?_⟩
      simp only [runGlobal, extremesConstant, List.getElem?_map]
      cases hi : (recs y x)[i]? with
      | none => simp
      | some s =>
        simp only [Option.map_some, Option.some.injEq]
        intro hg
        rcases hexact with he | ⟨hne, ha⟩
        · rw [if_pos he] at hg ⊢
          exact geNaN_anti (fun b hb => quantileExact_mono h0 h12 h1 _ b hb) hg
        · rw [if_neg hne] at hg ⊢
          obtain ⟨b1, b2⟩ := hbins ha
          exact threshold1d_nested b1 b2 h12 h1 _ (by rw [List.length_map]; exact hlen ha hme y x) _
            (List.mem_map_of_mem (List.mem_of_getElem? hi)) hg
    · simp only [] at h ⊢
      split at h
      · cases h
      rename_i hw1
      rw [if_neg hw1]
      rcases hexact with he | ⟨hne, ha⟩
      · rw [if_pos he] at h ⊢
        simp only [Except.ok.injEq] at h
        subst h
        refine ⟨_, rfl, fun y x i => ?_⟩
        simp only [runExactDays, extremesHobday, List.getElem?_map]
        cases hi : (recs y x)[i]? with
        | none => simp
        | some s =>
          simp only [Option.map_some, Option.some.injEq]
          refine fun hg => geNaN_anti (fun b hb => ?_) hg
          simp only [List.getD_eq_getElem?_getD, List.getElem?_map] at hb ⊢
          cases hd : (List.range 366)[s.doy - 1]? with
          | none => rw [hd] at hb; simp at hb
          | some d =>
            rw [hd] at hb
            simp only [Option.map_some, Option.getD_some] at hb ⊢
            exact quantileExact_mono h0 h12 h1 _ b hb
      · rw [if_neg hne] at h ⊢
        obtain ⟨b1, b2⟩ := hbins ha
        unfold runApproxDays at h ⊢
        simp only [] at h ⊢
        split at h
        · cases h
        rename_i ts hts
        have hok : ∃ ts', gridThresholds P.precision P.maxAnomaly (pc / 100) w.toNat (poolSize (effectiveSpatial gridded P)) ny nx recs 0 0 = .ok ts' := by
          unfold gridThresholds thresholds2d at hts ⊢
          split at hts
          · cases hts
          · exact ⟨_, rfl⟩
        obtain ⟨ts', hts'⟩ := hok
        rw [hts']
        simp only [Except.ok.injEq] at h
        subst h
        refine ⟨_, rfl, fun y x i => ?_⟩
        simp only [extremesHobday, List.getElem?_map]
        cases hi : (recs y x)[i]? with
        | none => simp
        | some s =>
          simp only [Option.map_some, Option.some.injEq]
          exact fun hg => geNaN_anti (fun b hb => thresholds2d_mono b1 b2 h0 h12 h1 _ b hb) hg

theorem length_anomalies_le (m : AnomalyMethod) (record : List Sample) : (okAnomalies (anomalyCell m record)).length ≤ record.length := by
  have hw : ∀ vs, (withVals record vs).length ≤ record.length := fun vs => by
    unfold withVals; rw [List.length_zipWith]; exact Nat.min_le_left _ _
  cases m with
  | fixed => simp [anomalyCell, okAnomalies, fixedAnomaly]
  | shifting W w =>
    simp only [anomalyCell]
    cases hs : shiftingBaseline W w record with
    | error e => simp [okAnomalies]
    | ok r =>
      simp only [okAnomalies]
      unfold shiftingBaseline trimShifting at hs
      simp only [] at hs
      split at hs
      · cases hs
      · simp only [Except.ok.injEq] at hs
        subst hs
        exact le_trans (List.length_filter_le _ _) (hw _)
  | detrend fit => simp only [anomalyCell, okAnomalies]; exact hw _
  | detrendFixed fit =>
    simp only [anomalyCell, okAnomalies, fixedAnomaly, List.length_map]
    exact hw _

/-- Ten steps whose largest anomalies differ. -/
def tenSteps : List Sample := [⟨2000, 1, some 0⟩, ⟨2000, 2, some 0⟩, ⟨2000, 3, some 0⟩, ⟨2000, 4, some 0⟩, ⟨2000, 5, some 0⟩, ⟨2000, 6, some (1 / 2)⟩,
  ⟨2000, 7, some (1 / 2)⟩, ⟨2000, 8, some (3 / 2)⟩, ⟨2000, 9, some (5 / 2)⟩, ⟨2000, 10, some (27 / 10)⟩]

/-- With one threshold per cell the steps reported at the 75th and at the 95th percentile differ. -/
example : (match identifyExtremes true ⟨"global_extreme", 75, some 11, none, "approximate", 1, 3⟩ 1 1 (fun _ _ => tenSteps),
      identifyExtremes true ⟨"global_extreme", 95, some 11, none, "approximate", 1, 3⟩ 1 1 (fun _ _ => tenSteps) with
    | .ok a, .ok b => decide ((a.extremes 0 0).count true = 3 ∧ (b.extremes 0 0).count true = 2)
    | _, _ => false) = true := by decide +kernel

/-- The hypotheses of the theorem hold there and for the other methods. -/
example : (match identifyExtremes true ⟨"hobday_extreme", 75, some 11, none, "exact", 1 / 100, 5⟩ 1 1 (fun _ _ => tenSteps) with
    | .ok _ => true | .error _ => false) = true := by decide +kernel

example : (match identifyExtremes true ⟨"hobday_extreme", 75, some 3, some 1, "approximate", 1, 3⟩ 1 1 (fun _ _ => tenSteps) with
    | .ok _ => true | .error _ => false) = true := by decide +kernel

/-- C183 for the whole of `preprocess_data`: with a larger percentile the mask and the anomalies are the same and no extreme is added. -/
theorem C183_preprocess (gridded : Bool) (m : AnomalyMethod) (P : ExtParams) (ny nx : Nat) (raw : Nat → Nat → List Sample) (pc : ℚ)
    (hpc : P.percentile ≤ pc) (h100 : pc ≤ 100)
    (hbins : P.methodPercentile = "approximate" → 0 < P.precision ∧ P.precision < P.maxAnomaly)
    (hlen : P.methodPercentile = "approximate" → P.methodExtreme = "global_extreme" → ∀ y x, (raw y x).length ≤ 1000000000)
    (out : PrepOut) (h : preprocess gridded m P ny nx raw = .ok out) :
    ∃ out', preprocess gridded m { P with percentile := pc } ny nx raw = .ok out' ∧ out'.mask = out.mask ∧ out'.anomalies = out.anomalies ∧
      ∀ y x (i : Nat), (out'.ext.extremes y x)[i]? = some true → (out.ext.extremes y x)[i]? = some true := by
  unfold preprocess at h ⊢
  split at h
  · cases h
  split at h
  · cases h
  simp only [] at h ⊢
  split at h
  · cases h
  rename_i ext hext
  simp only [Except.ok.injEq] at h
  subst h
  have hl : P.methodPercentile = "approximate" → P.methodExtreme = "global_extreme" →
      ∀ y x, (okAnomalies (anomalyCell m (raw y x))).length ≤ 1000000000 := by
    intro ha hg y x
    refine le_trans ?_ (hlen ha hg y x)
    exact length_anomalies_le m (raw y x)
  obtain ⟨e', he', hn⟩ := C183_nested gridded P ny nx _ pc hpc h100 hbins hl ext hext
  rw [he']
  exact ⟨_, rfl, rfl, rfl, hn⟩

example : (match preprocess true .fixed ⟨"global_extreme", 75, some 11, none, "approximate", 1, 3⟩ 1 1 (fun _ _ => tenSteps) with
    | .ok _ => true | .error _ => false) = true := by decide +kernel

end MarEx.Props
