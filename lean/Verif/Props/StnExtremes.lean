import Verif.Model.StnExtremes
import Verif.Props.Workflow
/-! Property C181: standardised extremes. -/
namespace MarEx.Props
open MarEx MarEx.Spec

/-- Whether the windows fit does not depend on the data. -/
theorem windowedHist_ok_of_length (w m : Nat) (h h' : List (List Nat)) (hl : h.length = h'.length) {r : List (List Nat)} (hr : windowedHist w m h = .ok r) :
    ∃ r', windowedHist w m h' = .ok r' := by
  have hp : (pyTail (w / 2) h ++ h ++ h.take (w / 2)).length = (pyTail (w / 2) h' ++ h' ++ h'.take (w / 2)).length := by
    unfold pyTail
    split <;> simp [hl]
  unfold windowedHist at hr ⊢
  dsimp only at hr ⊢
  rw [List.length_map, List.length_range] at hr ⊢
  rw [← hp, ← hl]
  split at hr
  · cases hr
  rename_i h1
  split at hr
  · rename_i h2
    exact ⟨_, by rw [if_neg h1, if_pos h2]⟩
  · cases hr

/-- Whether `identify_extremes` succeeds does not depend on the data. -/
theorem identify_ok_of_ok {gridded : Bool} {P : ExtParams} {ny nx : Nat} {recs : Nat → Nat → List Sample} {out : ExtOut}
    (h : identifyExtremes gridded P ny nx recs = .ok out) (recs' : Nat → Nat → List Sample) : ∃ out', identifyExtremes gridded P ny nx recs' = .ok out' := by
  unfold identifyExtremes at h ⊢
  split at h
  · cases h
  split at h
  · cases h
  unfold runExtremes at h ⊢
  split at h
  · cases h
  rename_i c _ hl hp
  rw [if_neg hp]
  rename_i hc
  cases c with
  | global => exact ⟨_, by rw [if_neg hl]⟩
  | hobday w s =>
    rw [if_neg hl]
    dsimp only at h ⊢
    split at h
    · cases h
    rename_i h1
    rw [if_neg h1]
    split at h
    · rename_i h2; exact ⟨_, by rw [if_pos h2]⟩
    rename_i h2
    rw [if_neg h2]
    unfold runApproxDays at h ⊢
    split at h
    · cases h
    rename_i ts hts
    have : ∃ ts', gridThresholds P.precision P.maxAnomaly (P.percentile / 100) w.toNat (poolSize s) ny nx recs' 0 0 = .ok ts' := by
      unfold gridThresholds thresholds2d at hts ⊢
      split at hts
      · cases hts
      rename_i hw
      obtain ⟨r', hr'⟩ := windowedHist_ok_of_length _ _ _ (pooledHist P.precision P.maxAnomaly (poolSize s) ny nx recs' 0 0) (by simp [pooledHist]) hw
      exact ⟨_, by rw [hr']⟩
    obtain ⟨ts', h'⟩ := this
    exact ⟨_, by rw [h']⟩

theorem preprocess_anomalies {gridded : Bool} {m : AnomalyMethod} {P : ExtParams} {ny nx : Nat} {raw : Nat → Nat → List Sample} {out : PrepOut}
    (h : preprocess gridded m P ny nx raw = .ok out) :
    out.anomalies = (fun y x => okAnomalies (anomalyCell m (raw y x))) ∧ identifyExtremes gridded P ny nx out.anomalies = .ok out.ext := by
  unfold preprocess at h
  split at h
  · cases h
  split at h
  · cases h
  dsimp only at h
  split at h
  · cases h
  · rename_i he
    cases h
    exact ⟨rfl, he⟩

/-- **C181**: asking for standardisation never changes the mask, the anomalies, their thresholds or their extremes. Standardised extremes are added iff they are
asked for with `detrend_harmonic`; they are found in the standardised anomalies by the rule used for the anomalies, with the same arguments: a step is
marked iff its standardised anomaly is at least the standardised threshold of its cell and day. -/
theorem C181_standardised_extremes (gridded : Bool) (fit : List Nat → Bool → List ℚ → Nat → ℚ) (std : List Sample → Option (List Sample)) (b : Bool)
    (A : AnomParams) (P : ExtParams) (ny nx : Nat) (raw : Nat → Nat → List Sample) (out : PrepOut) (s : Option StnOut)
    (h : preprocessStn gridded fit std b A P ny nx raw = .ok (out, s)) :
    preprocessData gridded fit A P ny nx raw = .ok out ∧
    (s.isSome = true ↔ b = true ∧ A.method = "detrend_harmonic") ∧
    ∀ so, s = some so →
      (∀ y x l, std (out.anomalies y x) = some l → so.stn y x = l) ∧
      identifyExtremes gridded P ny nx so.stn = .ok so.ext ∧
      ∀ y x t, (so.ext.extremes y x)[t]? = some true ↔ Exceeds (P.methodExtreme = "hobday_extreme") (so.stn y x) (so.ext.thresholds y x) t := by
  unfold preprocessStn at h
  split at h
  · rename_i hb
    split at h
    · cases h
    rename_i hv
    split at h
    · cases h
    rename_i m hm
    dsimp only at h
    split at h
    · cases h
    split at h
    · cases h
    rename_i out' hp
    split at h
    · cases h
    rename_i ext hext
    cases h
    obtain ⟨ha, _⟩ := preprocess_anomalies hp
    refine ⟨?_, by simp [hb], ?_⟩
    · unfold preprocessData
      rw [hv]
      dsimp only
      rw [hm]
      exact hp
    · rintro so hso
      cases hso
      refine ⟨?_, hext, fun y x => (identify_exceeds hext y x).2⟩
      intro y x l hl
      rw [ha] at hl
      dsimp only at hl ⊢
      rw [hl]
      rfl
  · rename_i hb
    split at h
    · cases h
    rename_i out' ho
    cases h
    exact ⟨ho, by simpa using hb, fun so hso => by cases hso⟩

/-- **C181**, failures: standardised extremes never fail on their own. Where `preprocess_data` succeeds without standardisation, it succeeds with it, unless the
division by the standard deviations fails (C129). -/
theorem C181_no_other_failure (gridded : Bool) (fit : List Nat → Bool → List ℚ → Nat → ℚ) (std : List Sample → Option (List Sample)) (b : Bool)
    (A : AnomParams) (P : ExtParams) (ny nx : Nat) (raw : Nat → Nat → List Sample) (out : PrepOut)
    (h : preprocessData gridded fit A P ny nx raw = .ok out) :
    (∃ s, preprocessStn gridded fit std b A P ny nx raw = .ok (out, s)) ↔
      ¬ (b = true ∧ A.method = "detrend_harmonic" ∧ std (out.anomalies 0 0) = none) := by
  unfold preprocessStn
  by_cases hb : b = true ∧ A.method = "detrend_harmonic"
  · rw [if_pos hb]
    unfold preprocessData at h
    split at h
    · cases h
    rename_i hv
    split at h
    · cases h
    rename_i m hm
    obtain ⟨ha, he⟩ := preprocess_anomalies h
    rw [ha] at he ⊢
    rw [hv]
    dsimp only
    rw [hm]
    dsimp only
    rw [h]
    dsimp only
    by_cases hs : std (okAnomalies (anomalyCell m (raw 0 0))) = none
    · rw [if_pos hs]
      constructor
      · rintro ⟨_, h⟩; cases h
      · intro hc; exact absurd ⟨hb.1, hb.2, hs⟩ hc
    · rw [if_neg hs]
      obtain ⟨e, hext⟩ := identify_ok_of_ok he fun y x => okStn (std (okAnomalies (anomalyCell m (raw y x))))
      rw [hext]
      exact ⟨fun _ hc => hs hc.2.2, fun _ => ⟨_, rfl⟩⟩
  · rw [if_neg hb, h]
    exact ⟨fun _ hc => hb ⟨hc.1, hc.2.1⟩, fun _ => ⟨_, rfl⟩⟩

/-- Six years of one day; the standardisation divides by 2. -/
example : (match preprocessStn true (fun _ _ l i => l.getD i 0) (fun l => some (l.map fun s => { s with val := s.val.map (· / 2) })) true
    ⟨"detrend_harmonic", 15, 21, none⟩ flowExt 1 4 flowRaw with
    | .ok (_, some so) => (List.range 4).map fun x => so.ext.extremes 0 x
    | _ => []) = (match preprocessData true (fun _ _ l i => l.getD i 0) ⟨"detrend_harmonic", 15, 21, none⟩ flowExt 1 4 flowRaw with
    | .ok out => (List.range 4).map fun x => out.ext.extremes 0 x
    | _ => [[true]]) := by decide +kernel

/-- Without all days of year nothing is returned. -/
example : (match preprocessStn true (fun _ _ l i => l.getD i 0) (fun _ => none) true ⟨"detrend_harmonic", 15, 21, none⟩ flowExt 1 4 flowRaw with
    | .error e => decide (e = .valueError)
    | _ => false) = true := by decide +kernel

end MarEx.Props
