import Verif.Model.NameUse
import Verif.Props.Preprocess
import Verif.Props.Extremes
/-! C173 (names that pass the check do not fail later), C174 (exact constant percentiles on meshes), C175 (`dask_chunks`). -/
namespace MarEx.Props
open MarEx Spec

/-! ### C173 -/

theorem needKeys_iff (stage : NameStage) (dict : List (String × String)) (ks : List String) :
    (needKeys stage dict ks = .ok () ↔ ∀ k ∈ ks, HasKey dict k) ∧
    (needKeys stage dict ks = .error (stage, .keyError) ↔ ¬ ∀ k ∈ ks, HasKey dict k) := by
  have : ks.all (hasKey dict) = true ↔ ∀ k ∈ ks, HasKey dict k := by
    rw [List.all_eq_true]; exact forall₂_congr fun k _ => hasKey_iff dict k
  rw [← this]
  unfold needKeys
  by_cases h : ks.all (hasKey dict) = true
  · simp [h]
  · simp [h]

theorem needKeys_ite (stage : NameStage) (dict : List (String × String)) (ks : List String) [Decidable (∀ k ∈ ks, HasKey dict k)] :
    needKeys stage dict ks = if ∀ k ∈ ks, HasKey dict k then .ok () else .error (stage, .keyError) := by
  split
  · exact (needKeys_iff _ _ _).1.mpr ‹_›
  · exact (needKeys_iff _ _ _).2.mpr ‹_›

/-- **C173**, exactly when it holds: once the names have been accepted, the call finishes with them iff coordinates for x and y are named, and a dimension
for x is named or not needed: it is needed by the detrending methods if one for y is named, by day-of-year percentiles of the approximate method, and by exact
constant percentiles if none for y is named.  Otherwise a KeyError is raised after the check.  Missing: the other accepted names. -/
theorem C173_accepted_names_partial (da : DataInfo) (dimensions coordinates : Option (List (String × String))) (method : String) (P : ExtParams)
    (d c : List (String × String)) (h : inferDimsCoords da dimensions coordinates = .ok (d, c)) :
    let finishes := HasKey c "x" ∧ HasKey c "y" ∧ (HasKey d "x" ∨
      (((method = "detrend_harmonic" ∨ method = "detrend_fixed_baseline") → ¬ HasKey d "y") ∧
        (P.methodExtreme = "hobday_extreme" → P.methodPercentile = "exact") ∧
        (P.methodExtreme ≠ "hobday_extreme" → P.methodPercentile = "exact" → HasKey d "y")))
    (finishes → preprocessNames da dimensions coordinates method P = .ok (d, c)) ∧
    (¬ finishes → ∃ stage, stage ≠ .check ∧ preprocessNames da dimensions coordinates method P = .error (stage, .keyError)) := by
  classical
  unfold preprocessNames anomalyNames extremeNames finalNames
  rw [h]
  dsimp only
  have hy := hasKey_iff d "y"
  have hx := hasKey_iff d "x"
  simp only [needKeys_ite, ← Bool.not_eq_true, hy, hx, List.mem_cons, List.not_mem_nil, or_false, forall_eq, forall_eq_or_imp]
  by_cases h1 : HasKey c "x" <;> by_cases h2 : HasKey c "y" <;> by_cases h3 : HasKey d "x" <;> by_cases h4 : HasKey d "y" <;>
    by_cases h5 : (method = "detrend_harmonic" ∨ method = "detrend_fixed_baseline") <;> by_cases h6 : P.methodExtreme = "hobday_extreme" <;>
    by_cases h7 : P.methodPercentile = "exact" <;> simp [h1, h2, h3, h4, h5, h6, h7]

/-- C173, where a call stops: rejected names stop it at the check.  Accepted ones stop it in the anomalies iff the method detrends and misses, on a grid, the
dimension x or a coordinate for x or y, and on a mesh a coordinate for x; otherwise in the extremes iff the dimension x is needed there and not named; otherwise
when the result is written, iff a coordinate for x or y is not named.  Missing: C173 asks that none of the later stops occur. -/
theorem C173_stage_partial (da : DataInfo) (dimensions coordinates : Option (List (String × String))) (method : String) (P : ExtParams) :
    (∀ e, inferDimsCoords da dimensions coordinates = .error e → preprocessNames da dimensions coordinates method P = .error (.check, e)) ∧
    (∀ d c, inferDimsCoords da dimensions coordinates = .ok (d, c) →
      let inAnomalies := (method = "detrend_harmonic" ∨ method = "detrend_fixed_baseline") ∧
        ((HasKey d "y" ∧ ¬ (HasKey d "x" ∧ HasKey c "x" ∧ HasKey c "y")) ∨ (¬ HasKey d "y" ∧ HasKey d "x" ∧ ¬ HasKey c "x"))
      let inExtremes := ¬ HasKey d "x" ∧ ((P.methodExtreme = "hobday_extreme" ∧ P.methodPercentile ≠ "exact") ∨
        (P.methodExtreme ≠ "hobday_extreme" ∧ P.methodPercentile = "exact" ∧ ¬ HasKey d "y"))
      (preprocessNames da dimensions coordinates method P = .error (.anomalies, .keyError) ↔ inAnomalies) ∧
      (preprocessNames da dimensions coordinates method P = .error (.extremes, .keyError) ↔ ¬ inAnomalies ∧ inExtremes) ∧
      (preprocessNames da dimensions coordinates method P = .error (.writing, .keyError) ↔
        ¬ inAnomalies ∧ ¬ inExtremes ∧ ¬ (HasKey c "x" ∧ HasKey c "y"))) := by
  classical
  refine ⟨fun e h => by unfold preprocessNames; rw [h], fun d c h => ?_⟩
  unfold preprocessNames anomalyNames extremeNames finalNames
  rw [h]
  dsimp only
  have hy := hasKey_iff d "y"
  have hx := hasKey_iff d "x"
  simp only [needKeys_ite, ← Bool.not_eq_true, hy, hx, List.mem_cons, List.not_mem_nil, or_false, forall_eq, forall_eq_or_imp]
  by_cases h1 : HasKey c "x" <;> by_cases h2 : HasKey c "y" <;> by_cases h3 : HasKey d "x" <;> by_cases h4 : HasKey d "y" <;>
    by_cases h5 : (method = "detrend_harmonic" ∨ method = "detrend_fixed_baseline") <;> by_cases h6 : P.methodExtreme = "hobday_extreme" <;>
    by_cases h7 : P.methodPercentile = "exact" <;> simp [h1, h2, h3, h4, h5, h6, h7]

/-- Gridded data by the default names, and a mesh with both coordinates named: every method finishes. -/
example (method : String) (P : ExtParams) :
    (∃ r, preprocessNames ⟨["time", "lat", "lon"], ["time", "lat", "lon"]⟩ none none method P = .ok r) ∧
    (∃ r, preprocessNames ⟨["time", "ncells"], ["time", "lat", "lon"]⟩ (some [("time", "time"), ("x", "ncells")])
      (some [("x", "lon"), ("y", "lat")]) method P = .ok r) :=
  ⟨⟨_, (C173_accepted_names_partial _ none none method P [("time", "time"), ("x", "lon"), ("y", "lat")]
      [("time", "time"), ("x", "lon"), ("y", "lat")] (by decide +kernel)).1 ⟨⟨"lon", by simp⟩, ⟨"lat", by simp⟩, .inl ⟨"lon", by simp⟩⟩⟩,
   ⟨_, (C173_accepted_names_partial _ _ _ method P [("time", "time"), ("x", "ncells")]
      [("time", "time"), ("x", "lon"), ("y", "lat")] (by decide +kernel)).1 ⟨⟨"lon", by simp⟩, ⟨"lat", by simp⟩, .inl ⟨"ncells", by simp⟩⟩⟩⟩

/-- **C173 fails** for every mesh whose names are accepted without a coordinate for y, with every method: the KeyError comes when everything has been
computed. -/
theorem C173_mesh_without_y_fails (da : DataInfo) (dimensions coordinates : Option (List (String × String))) (method : String) (P : ExtParams)
    (d c : List (String × String)) (h : inferDimsCoords da dimensions coordinates = .ok (d, c)) (hx : HasKey d "x") (hd : ¬ HasKey d "y")
    (hcx : HasKey c "x") (hc : ¬ HasKey c "y") : preprocessNames da dimensions coordinates method P = .error (.writing, .keyError) := by
  classical
  unfold preprocessNames anomalyNames extremeNames finalNames
  rw [h]
  dsimp only
  have hy := hasKey_iff d "y"
  have hx' := hasKey_iff d "x"
  simp only [needKeys_ite, ← Bool.not_eq_true, hy, hx', List.mem_cons, List.not_mem_nil, or_false, forall_eq, forall_eq_or_imp, hx, hd, hcx, hc]
  by_cases h5 : (method = "detrend_harmonic" ∨ method = "detrend_fixed_baseline") <;> by_cases h6 : P.methodExtreme = "hobday_extreme" <;>
    by_cases h7 : P.methodPercentile = "exact" <;> simp [h5, h6, h7]

/-- Such names are accepted. -/
example : inferDimsCoords ⟨["time", "ncells"], ["time", "lat", "lon"]⟩ (some [("time", "time"), ("x", "ncells")]) (some [("x", "lon")]) =
    .ok ([("time", "time"), ("x", "ncells")], [("time", "time"), ("x", "lon")]) := by decide +kernel

/-- **C173 fails** for a single series: names of a time series are accepted if coordinates are given, whatever the method, and the code has
branches for such data, but no call finishes. -/
theorem C173_time_series_fails (da : DataInfo) (t : String) (c : List (String × String)) (method : String) (P : ExtParams) (ht : t ∈ da.dims)
    (hc : ∀ k v, Maps c k v → v ∈ da.coords) (h1 : HasKey c "time") (h2 : ¬ HasKey c "x") :
    ∃ stage, stage ≠ .check ∧ preprocessNames da (some [("time", t)]) (some c) method P = .error (stage, .keyError) := by
  refine (C173_accepted_names_partial da _ _ method P [("time", t)] c ?_).2 fun h => h2 h.1
  have hk : hasKey c "time" = true := (hasKey_iff _ _).mpr h1
  have hp : allPresent da.coords c = true := (allPresent_iff _ _).mpr hc
  have hd : allPresent da.dims [("time", t)] = true := (allPresent_iff _ _).mpr (by
    intro k v hm
    simp only [Maps, List.mem_singleton, Prod.mk.injEq] at hm
    rw [hm.2]; exact ht)
  have hi : inferDims (some [("time", t)]) = [("time", t)] := by simp [inferDims, hasKey]
  unfold inferDimsCoords
  rw [hi]
  simp [inferCoords, hk, hp, hd]

example : HasKey [("time", "time")] "time" ∧ ¬ HasKey [("time", "time")] "x" := by
  refine ⟨⟨"time", by simp⟩, ?_⟩
  rintro ⟨v, h⟩
  simp at h

/-! ### C174 -/

theorem meshChunk_zero (n : Nat) : meshChunk n = 0 ↔ n < 4445 := by
  unfold meshChunk
  have : Nat.sqrt (9 * n) < 200 ↔ 9 * n < 200 * 200 := Nat.sqrt_lt
  omega

/-- Exact constant percentiles of an accepted percentile. -/
def ExactConstant (P : ExtParams) : Prop :=
  P.methodExtreme = "global_extreme" ∧ P.methodPercentile = "exact" ∧ P.precision = 1 / 100 ∧ P.maxAnomaly = 5 ∧ P.windowSpatial = none ∧
    0 ≤ P.percentile ∧ P.percentile ≤ 100

theorem exactConstant_check (gridded : Bool) (P : ExtParams) (h : ExactConstant P) : checkExtremes gridded P = .ok .global := by
  obtain ⟨h1, h2, h3, h4, h5, _, _⟩ := h
  unfold checkExtremes
  rw [(checkPercentile_ok P).mpr ⟨.inl h2, fun _ => ⟨h3, h4⟩, fun h => absurd (h2.symm.trans h) (by decide)⟩]
  have hd : checkDays P = .ok () := by
    unfold checkDays
    split
    · rfl
    · rw [if_neg (by rw [h1]; simp)]
  simp [checkSpatial, hd, checkSpatialOdd, effectiveSpatial, dispatch, h1, h5]

theorem exactConstant_run (P : ExtParams) (h : ExactConstant P) (ny nx : Nat) (recs : Nat → Nat → List Sample) :
    runExtremes P .global ny nx recs = .ok (runGlobal P recs) := by
  unfold runExtremes
  rw [if_neg (by rintro ⟨_, h' | h'⟩ <;> [linarith [h.2.2.2.2.2.1]; linarith [h.2.2.2.2.2.2]])]

/-- **C174**, exactly when it holds: on a grid exact constant percentiles are always computed; on a mesh iff it has at least 4445 cells.  Missing: smaller
meshes. -/
theorem C174_exact_constant_partial (P : ExtParams) (h : ExactConstant P) (ny nx : Nat) (recs : Nat → Nat → List Sample) :
    (∃ out, identifyExtremes true P ny nx recs = .ok out) ∧
    (0 < nx → ((∃ out, identifyExtremes false P 1 nx recs = .ok out) ↔ 4445 ≤ nx)) := by
  unfold identifyExtremes
  rw [exactConstant_check true P h, exactConstant_check false P h]
  dsimp only
  rw [exactConstant_run P h, exactConstant_run P h]
  refine ⟨⟨_, by rw [if_neg (by simp [layoutFails])]⟩, fun hn => ?_⟩
  have hl : layoutFails false P .global nx = true ↔ nx < 4445 := by
    simp [layoutFails, h.2.1, hn, meshChunk_zero]
  by_cases hlt : nx < 4445
  · rw [if_pos (hl.mpr hlt)]
    constructor
    · rintro ⟨_, h⟩; cases h
    · intro h; omega
  · rw [if_neg (fun hc => hlt (hl.mp hc))]
    exact ⟨fun _ => by omega, fun _ => ⟨_, rfl⟩⟩

/-- **C174 fails** on every mesh of fewer than 4445 cells: the chunk length along the cells comes out as 0, and dask divides by it. -/
theorem C174_small_mesh_fails (P : ExtParams) (h : ExactConstant P) (n : Nat) (h0 : 0 < n) (hn : n < 4445) (recs : Nat → Nat → List Sample) :
    identifyExtremes false P 1 n recs = .error .zeroDivision := by
  unfold identifyExtremes
  rw [exactConstant_check false P h]
  dsimp only
  rw [if_pos (by simp [layoutFails, h.2.1, h0, meshChunk_zero, hn])]

/-- The documented call. -/
example : ExactConstant ⟨"global_extreme", 95, some 11, none, "exact", 1 / 100, 5⟩ := by
  unfold ExactConstant; norm_num

/-! ### C175 -/

/-- **C175** along time: the output has the chunk length given for the time dimension, under its own name or, failing that, under "time"; 25 if no
chunks are given, 10 if they are given for other dimensions only.  Missing: entries for the other dimensions, see below. -/
theorem C175_time_chunk_partial (dc : Option (List (String × Int))) (d : List (String × String)) (hobday : Bool) (t : String)
    (ht : d.lookup "time" = some t) (hne : t ≠ "dayofyear") :
    (∀ u k, dc = some u → u.lookup t = some k → (finalChunks dc d hobday).lookup t = some k) ∧
    (∀ u k, dc = some u → u.lookup t = none → u.lookup "time" = some k → (finalChunks dc d hobday).lookup t = some k) ∧
    (dc = none → (finalChunks dc d hobday).lookup t = some 25) ∧
    (∀ u, dc = some u → u.lookup t = none → u.lookup "time" = none → (finalChunks dc d hobday).lookup t = some 10) := by
  have hk : (getKey d "time").getD "time" = t := by rw [getKey_lookup, ht]; rfl
  have hl : (finalChunks dc d hobday).lookup t = some (timeChunk dc t) := by
    unfold finalChunks
    rw [hk]
    have : (t == "dayofyear") = false := by simpa using hne
    cases hobday <;> simp [List.lookup, this]
  rw [hl]
  refine ⟨?_, ?_, ?_, ?_⟩
  · rintro u k rfl h; simp [timeChunk, h]
  · rintro u k rfl h1 h2; simp [timeChunk, h1, h2]
  · rintro rfl
    by_cases h : t = "time"
    · simp [timeChunk, h]
    · have : (t == "time") = false := by simpa using h
      simp [timeChunk, List.lookup, this]
  · rintro u rfl h1 h2; simp [timeChunk, h1, h2]

example : (finalChunks (some [("time", 15)]) [("time", "t"), ("x", "lon"), ("y", "lat")] true).lookup "t" = some 15 := by decide +kernel

/-- C175: day-of-year thresholds are chunked along their days as the data along time; without them there is no such entry.  Missing: the spatial
dimensions, see below. -/
theorem C175_thresholds_partial (dc : Option (List (String × Int))) (t x y : String) (ht : t ≠ "dayofyear") (hx : x ≠ "dayofyear")
    (hy : y ≠ "dayofyear") :
    let d := [("time", t), ("x", x), ("y", y)]
    (finalChunks dc d true).lookup "dayofyear" = (finalChunks dc d true).lookup t ∧ (finalChunks dc d false).lookup "dayofyear" = none := by
  have a1 : (t == "dayofyear") = false := by simpa using ht
  have a2 : ("dayofyear" == t) = false := by simpa using ht.symm
  have a3 : ("dayofyear" == x) = false := by simpa using hx.symm
  have a4 : ("dayofyear" == y) = false := by simpa using hy.symm
  simp [finalChunks, getKey, List.lookup, a1, a2, a3, a4]

example : (finalChunks none [("time", "time"), ("x", "lon"), ("y", "lat")] true).lookup "dayofyear" = some 25 := by decide +kernel

/-- **C175 fails** for the other dimensions: whatever chunk length is asked for along x and y, they are put into one chunk each. -/
theorem C175_space_ignored_fails (dc : Option (List (String × Int))) (t x y : String) (hobday : Bool) (h1 : x ≠ t) (h2 : y ≠ t)
    (h3 : x ≠ "dayofyear") (h4 : y ≠ "dayofyear") :
    (finalChunks dc [("time", t), ("x", x), ("y", y)] hobday).lookup x = some (-1) ∧
    (finalChunks dc [("time", t), ("x", x), ("y", y)] hobday).lookup y = some (-1) := by
  have a1 : (x == t) = false := by simpa using h1
  have a2 : (y == t) = false := by simpa using h2
  have a3 : (x == "dayofyear") = false := by simpa using h3
  have a4 : (y == "dayofyear") = false := by simpa using h4
  have hy : getKey [("time", t), ("x", x), ("y", y)] "y" = some y := by simp [getKey]
  have hx : getKey [("time", t), ("x", x), ("y", y)] "x" = some x := by simp [getKey]
  have ht : getKey [("time", t), ("x", x), ("y", y)] "time" = some t := by simp [getKey]
  unfold finalChunks
  by_cases hxy : x = y
  · subst hxy
    cases hobday <;> simp [hx, hy, ht, List.lookup, a1, a3]
  · have a5 : (x == y) = false := by simpa using hxy
    cases hobday <;> simp [hx, hy, ht, List.lookup, a1, a2, a3, a4, a5]

/-- The call of the documentation (docs/modules/detect.rst 520). -/
example : (finalChunks (some [("time", 25), ("lat", 200), ("lon", 200)]) [("time", "time"), ("x", "lon"), ("y", "lat")] true).lookup "lat" = some (-1) := by
  decide +kernel

end MarEx.Props
