import Verif.Model.Preprocess
import Verif.Lemmas.Quantile
import Verif.Lemmas.Climatology
import Verif.Props.Threshold
/-! C43–C45 and C73–C77: argument handling and composition of the preprocessing. -/
namespace MarEx.Props
open MarEx Spec

/-! ### C43 -/

theorem foldl_max_pos (l : List Nat) (m : Nat) : 0 < l.foldl max m ↔ 0 < m ∨ ∃ a ∈ l, 0 < a := by
  induction l generalizing m with
  | nil => simp
  | cons a t ih =>
    rw [List.foldl_cons, ih, show (0 < max m a ↔ 0 < m ∨ 0 < a) from lt_max_iff]
    simp only [List.mem_cons, exists_eq_or_imp]
    tauto

/-- C43: the data are accepted iff some location is finite at the first step and every such location is finite at every step. -/
theorem C43_validation_iff (cells : List (List (Option ℚ))) :
    validateData cells = .ok () ↔
      (∃ c ∈ cells, ∃ v, c.head? = some (some v)) ∧
      (∀ c ∈ cells, (∃ v, c.head? = some (some v)) → ∀ o ∈ c, ∃ v, o = some v) := by
  have hhead : ∀ c : List (Option ℚ), ((c.headD none).isSome = true ↔ ∃ v, c.head? = some (some v)) := by
    intro c
    cases c with
    | nil => simp
    | cons a t => cases a <;> simp
  unfold validateData
  dsimp only
  by_cases h1 : (cells.filter fun c => (c.headD none).isSome).isEmpty = true
  · rw [if_pos h1]
    constructor
    · intro h; cases h
    · rintro ⟨⟨c, hc, hv⟩, _⟩
      rw [List.isEmpty_iff, List.filter_eq_nil_iff] at h1
      exact absurd ((hhead c).2 hv) (by simpa using h1 c hc)
  · rw [if_neg h1]
    have hex : ∃ c ∈ cells, ∃ v, c.head? = some (some v) := by
      rw [List.isEmpty_iff, List.filter_eq_nil_iff] at h1
      simp only [not_forall] at h1
      obtain ⟨c, hc, h⟩ := h1
      exact ⟨c, hc, (hhead c).1 (not_not.1 h)⟩
    by_cases h2 : 0 < ((cells.filter fun c => (c.headD none).isSome).map fun c => (c.filter fun v => v.isNone).length).foldl max 0
    · rw [if_pos h2]
      rw [foldl_max_pos] at h2
      constructor
      · intro h; cases h
      · rintro ⟨_, hall⟩
        rcases h2 with h2 | ⟨n, hn, hpos⟩
        · omega
        · obtain ⟨c, hc, rfl⟩ := List.mem_map.1 hn
          obtain ⟨hc1, hc2⟩ := List.mem_filter.1 hc
          obtain ⟨o, ho⟩ := List.exists_mem_of_length_pos hpos
          obtain ⟨ho1, ho2⟩ := List.mem_filter.1 ho
          obtain ⟨v, rfl⟩ := hall c hc1 ((hhead c).1 hc2) o ho1
          cases ho2
    · rw [if_neg h2]
      refine ⟨fun _ => ⟨hex, ?_⟩, fun _ => rfl⟩
      intro c hc hv o ho
      cases o with
      | some v => exact ⟨v, rfl⟩
      | none =>
        exfalso
        apply h2
        rw [foldl_max_pos]
        right
        exact ⟨_, List.mem_map.2 ⟨c, List.mem_filter.2 ⟨hc, (hhead c).2 hv⟩, rfl⟩,
          List.length_pos_of_mem (List.mem_filter.2 ⟨ho, rfl⟩)⟩

example : validateData [[some 1, some 2], [none, none], [none, some 3]] = .ok () ∧
    validateData [[some 1, none], [none, none]] = .error .dataValidation ∧ validateData [[none, some 1]] = .error .dataValidation := by
  decide +kernel

/-! ### C44 -/

theorem hasKey_iff (d : List (String × String)) (k : String) : hasKey d k = true ↔ HasKey d k := by
  unfold hasKey HasKey
  rw [List.any_eq_true]
  constructor
  · rintro ⟨⟨a, b⟩, h, e⟩
    simp only [decide_eq_true_eq] at e
    subst e
    exact ⟨b, h⟩
  · rintro ⟨v, h⟩
    exact ⟨(k, v), h, by simp⟩

theorem allPresent_iff (av : List String) (d : List (String × String)) : allPresent av d = true ↔ ∀ k v, Maps d k v → v ∈ av := by
  unfold allPresent Maps
  rw [List.all_eq_true]
  constructor
  · intro h k v hm; simpa using h (k, v) hm
  · rintro h ⟨k, v⟩ hm; simpa using h k v hm

/-- The dimensions in force: the user's, or the defaults, with time added if missing. -/
theorem inferDims_maps (dimensions : Option (List (String × String))) (k v : String) :
    Maps (inferDims dimensions) k v ↔
      Maps (dimensions.getD [("time", "time"), ("x", "lon"), ("y", "lat")]) k v ∨
      (k = "time" ∧ v = "time" ∧ ¬ HasKey (dimensions.getD [("time", "time"), ("x", "lon"), ("y", "lat")]) "time") := by
  unfold inferDims
  dsimp only
  generalize dimensions.getD [("time", "time"), ("x", "lon"), ("y", "lat")] = d
  by_cases h : hasKey d "time" = true
  · rw [if_pos h]
    have := (hasKey_iff d "time").1 h
    simp [this]
  · rw [if_neg h]
    have h' : ¬ HasKey d "time" := fun hc => h ((hasKey_iff d "time").2 hc)
    simp only [Maps, List.mem_cons, Prod.mk.injEq, h', not_false_eq_true, and_true]
    tauto

theorem infer_iff_aux (da : DataInfo) (dimensions coordinates : Option (List (String × String))) (d c : List (String × String)) :
    inferDimsCoords da dimensions coordinates = .ok (d, c) ↔
      d = inferDims dimensions ∧
      ((coordinates = none ∧ HasKey d "y" ∧ c = d) ∨
       (∃ u, coordinates = some u ∧ (HasKey u "time" ∧ c = u ∨ ¬ HasKey u "time" ∧ c = ("time", (getKey d "time").getD "time") :: u))) ∧
      (∀ k v, Maps d k v → v ∈ da.dims) ∧ (∀ k v, Maps c k v → v ∈ da.coords) := by
  unfold inferDimsCoords inferCoords
  dsimp only
  generalize inferDims dimensions = d'
  have tail : ∀ c', (if allPresent da.dims d' = false then (.error .dataValidation : Except PrepErr _)
      else if allPresent da.coords c' = false then .error .dataValidation else .ok (d', c')) = .ok (d, c) ↔
      d = d' ∧ c = c' ∧ (∀ k v, Maps d' k v → v ∈ da.dims) ∧ (∀ k v, Maps c' k v → v ∈ da.coords) := by
    intro c'
    rw [← allPresent_iff, ← allPresent_iff]
    cases allPresent da.dims d' <;> cases allPresent da.coords c' <;> simp
    constructor <;> (rintro ⟨rfl, rfl⟩; simp)
  cases coordinates with
  | none =>
    by_cases hy : hasKey d' "y" = true
    · simp only [hy, if_true]
      rw [tail]
      have hy' := (hasKey_iff _ _).1 hy
      constructor
      · rintro ⟨rfl, rfl, h1, h2⟩; exact ⟨rfl, Or.inl ⟨trivial, hy', rfl⟩, h1, h2⟩
      · rintro ⟨rfl, h | h, h1, h2⟩
        · exact ⟨rfl, h.2.2, h1, by rw [h.2.2] at h2; exact h2⟩
        · obtain ⟨u', hu, _⟩ := h; cases hu
    · simp only [hy, Bool.false_eq_true, if_false]
      have hy' : ¬ HasKey d' "y" := fun hc => hy ((hasKey_iff _ _).2 hc)
      constructor
      · intro h
        split at h <;> rename_i he
        · cases h
        · split at he <;> cases he
      · rintro ⟨rfl, h | h, _⟩
        · exact absurd h.2.1 hy'
        · obtain ⟨u', hu, _⟩ := h; cases hu
  | some u =>
    dsimp only
    rw [tail]
    by_cases ht : hasKey u "time" = true
    · have ht' := (hasKey_iff _ _).1 ht
      simp only [ht, if_true]
      constructor
      · rintro ⟨rfl, rfl, h1, h2⟩; exact ⟨rfl, Or.inr ⟨_, rfl, Or.inl ⟨ht', rfl⟩⟩, h1, h2⟩
      · rintro ⟨rfl, h | ⟨u', hu, h⟩, h1, h2⟩
        · cases h.1
        · cases hu
          rcases h with ⟨_, rfl⟩ | ⟨h, _⟩
          · exact ⟨rfl, rfl, h1, h2⟩
          · exact absurd ht' h
    · have ht' : ¬ HasKey u "time" := fun hc => ht ((hasKey_iff _ _).2 hc)
      simp only [ht, Bool.false_eq_true, if_false]
      constructor
      · rintro ⟨rfl, rfl, h1, h2⟩; exact ⟨rfl, Or.inr ⟨u, rfl, Or.inr ⟨ht', rfl⟩⟩, h1, h2⟩
      · rintro ⟨rfl, h | ⟨u', hu, h⟩, h1, h2⟩
        · cases h.1
        · cases hu
          rcases h with ⟨h, _⟩ | ⟨_, rfl⟩
          · exact absurd h ht'
          · exact ⟨rfl, rfl, h1, h2⟩

theorem getKey_lookup (d : List (String × String)) (k : String) : getKey d k = d.lookup k := by
  unfold getKey
  induction d with
  | nil => rfl
  | cons e t ih =>
    obtain ⟨a, b⟩ := e
    rw [List.find?_cons, List.lookup_cons]
    by_cases h : a = k
    · subst h; simp
    · have h' : (k == a) = false := by simpa using fun e => h e.symm
      simp only [h, decide_false, h']
      exact ih

theorem inferDims_lookup (dimensions : Option (List (String × String))) : ∃ t, (inferDims dimensions).lookup "time" = some t := by
  have hk : HasKey (inferDims dimensions) "time" := by
    unfold inferDims
    dsimp only
    split
    · rename_i h; exact (hasKey_iff _ _).1 h
    · exact ⟨"time", List.mem_cons_self⟩
  rw [← getKey_lookup]
  unfold getKey
  obtain ⟨v, hv⟩ := hk
  cases hf : (inferDims dimensions).find? fun e => e.1 = "time" with
  | some e => exact ⟨e.2, rfl⟩
  | none =>
    rw [List.find?_eq_none] at hf
    exact absurd (decide_eq_true rfl) (hf ("time", v) hv)

theorem inferDims_iff (dimensions : Option (List (String × String))) (d : List (String × String)) :
    d = inferDims dimensions ↔ ∃ u, u = dimensions.getD [("time", "time"), ("x", "lon"), ("y", "lat")] ∧
        (HasKey u "time" ∧ d = u ∨ ¬ HasKey u "time" ∧ d = ("time", "time") :: u) := by
  unfold inferDims
  dsimp only
  rw [exists_eq_left, ← hasKey_iff]
  by_cases h : hasKey (dimensions.getD [("time", "time"), ("x", "lon"), ("y", "lat")]) "time" = true
  · simp [h]
  · simp [h]

/-- C44: the call succeeds iff coordinates are given or the data are gridded, and every dimension and coordinate name in force exists in the data. The
dimensions in force are the user's (or time/lon/lat) plus a default time; the coordinates in force are the user's plus the time dimension, or, when not
given, the dimensions in force.  So user entries always stand. -/
theorem C44_infer_iff (da : DataInfo) (dimensions coordinates : Option (List (String × String))) (d c : List (String × String)) :
    inferDimsCoords da dimensions coordinates = .ok (d, c) ↔
      (∃ u, u = dimensions.getD [("time", "time"), ("x", "lon"), ("y", "lat")] ∧
        (HasKey u "time" ∧ d = u ∨ ¬ HasKey u "time" ∧ d = ("time", "time") :: u)) ∧
      ((coordinates = none ∧ HasKey d "y" ∧ c = d) ∨
       (∃ u, coordinates = some u ∧
        (HasKey u "time" ∧ c = u ∨ ¬ HasKey u "time" ∧ ∃ t, d.lookup "time" = some t ∧ c = ("time", t) :: u))) ∧
      (∀ k v, Maps d k v → v ∈ da.dims) ∧ (∀ k v, Maps c k v → v ∈ da.coords) := by
  rw [infer_iff_aux, ← inferDims_iff]
  apply and_congr_right
  rintro rfl
  obtain ⟨t, ht⟩ := inferDims_lookup dimensions
  simp only [getKey_lookup, ht, Option.getD_some, Option.some.injEq, exists_eq_left']

example : inferDimsCoords ⟨["time", "lat", "lon"], ["time", "lat", "lon"]⟩ none none =
    .ok ([("time", "time"), ("x", "lon"), ("y", "lat")], [("time", "time"), ("x", "lon"), ("y", "lat")]) := by decide +kernel
example : inferDimsCoords ⟨["t", "ncells"], ["t", "lat", "lon"]⟩ (some [("time", "t"), ("x", "ncells")]) (some [("x", "lon"), ("y", "lat")]) =
    .ok ([("time", "t"), ("x", "ncells")], [("time", "t"), ("x", "lon"), ("y", "lat")]) := by decide +kernel

/-- C123: every rejection is a data validation error, except that unstructured data given neither coordinates nor an x dimension raise KeyError. -/
theorem C123_rejections_partial (da : DataInfo) (dimensions coordinates : Option (List (String × String))) (e : PrepErr)
    (h : inferDimsCoords da dimensions coordinates = .error e) :
    e = .dataValidation ∨ (e = .keyError ∧ coordinates = none ∧ ¬ HasKey (inferDims dimensions) "y" ∧ ¬ HasKey (inferDims dimensions) "x") := by
  unfold inferDimsCoords at h
  dsimp only at h
  split at h
  · rename_i e' he
    cases h
    unfold inferCoords at he
    split at he
    · split at he
      · cases he
      · rename_i hy
        split at he
        · cases he; left; rfl
        · rename_i hx
          cases he
          right
          exact ⟨rfl, rfl, fun hc => hy ((hasKey_iff _ _).2 hc), fun hc => hx ((hasKey_iff _ _).2 hc)⟩
    · cases he
  · split at h
    · cases h; left; rfl
    · split at h
      · cases h; left; rfl
      · cases h

/-- C123 fails in one corner: a mapping with neither x nor y and no coordinates (a plain time series) raises KeyError instead of the documented
DataValidationError, for every data set. -/
theorem C123_key_error_fails (da : DataInfo) (t : String) : inferDimsCoords da (some [("time", t)]) none = .error .keyError := by
  simp [inferDimsCoords, inferDims, inferCoords, hasKey]

/-! ### C45 -/

theorem checkPercentile_ok (P : ExtParams) : checkPercentile P = .ok () ↔
    (P.methodPercentile = "exact" ∨ P.methodPercentile = "approximate") ∧
    (P.methodPercentile = "exact" → P.precision = 1 / 100 ∧ P.maxAnomaly = 5) ∧ (P.methodPercentile = "approximate" → 60 ≤ P.percentile) := by
  have hne : ("exact" : String) ≠ "approximate" := by decide
  unfold checkPercentile
  by_cases h1 : P.methodPercentile = "exact"
  · have h2 : P.methodPercentile ≠ "approximate" := by rw [h1]; exact hne
    by_cases h3 : P.precision = 1 / 100 <;> by_cases h4 : P.maxAnomaly = 5 <;> simp [h1, h3, h4, hne]
  · by_cases h2 : P.methodPercentile = "approximate"
    · by_cases h3 : P.percentile < 60
      · simp [h2, h3, hne.symm]
      · simp [h2, h3, hne.symm, not_lt.1 h3]
    · simp [h1, h2]

/-- The outcome of all checks, in one place. -/
theorem checkExtremes_error (gridded : Bool) (P : ExtParams) :
    (∀ c, checkExtremes gridded P = .ok c → ¬ Rejected (gridded = true) P ∧
      ((P.methodExtreme = "global_extreme" ∧ c = .global) ∨
       (P.methodExtreme = "hobday_extreme" ∧ ∃ w, P.windowDays = some w ∧ c = .hobday w (effectiveSpatial gridded P)))) ∧
    (checkExtremes gridded P = .error .configuration → Rejected (gridded = true) P) ∧
    (∀ e, checkExtremes gridded P = .error e → e = .configuration ∨ (e = .typeError ∧ P.methodExtreme = "hobday_extreme" ∧ P.windowDays = none)) := by
  have hne : ("exact" : String) ≠ "approximate" := by decide
  have hne2 : ("global_extreme" : String) ≠ "hobday_extreme" := by decide
  unfold checkExtremes
  cases hp : checkPercentile P with
  | error e =>
    have he : e = .configuration := by
      unfold checkPercentile at hp
      repeat' split at hp
      all_goals first | (cases hp; rfl) | cases hp
    subst he
    refine ⟨fun c h => (by cases h), fun _ => ?_, fun e h => (by cases h; left; rfl)⟩
    by_contra hr
    have : checkPercentile P = .ok () := by
      rw [checkPercentile_ok]
      unfold Rejected at hr
      push Not at hr
      obtain ⟨a, _, b, c, _⟩ := hr
      refine ⟨?_, b, c⟩
      by_cases h : P.methodPercentile = "exact"
      · exact Or.inl h
      · exact Or.inr (a h)
    rw [this] at hp
    cases hp
  | ok u =>
    have hp' := (checkPercentile_ok P).1 hp
    dsimp only
    cases hs : checkSpatial gridded P with
    | error e =>
      unfold checkSpatial at hs
      split at hs
      · cases hs
      · rename_i s hsp
        have hsn : P.windowSpatial ≠ none := by rw [hsp]; simp
        split at hs
        · cases hs
          rename_i hg
          refine ⟨fun c h => (by cases h), fun _ => ?_, fun e h => (by cases h; left; rfl)⟩
          exact Or.inr (Or.inr (Or.inr (Or.inr (Or.inl ⟨hsn, Or.inl (by simpa using hg)⟩))))
        · split at hs
          · cases hs
            rename_i hm
            refine ⟨fun c h => (by cases h), fun _ => ?_, fun e h => (by cases h; left; rfl)⟩
            by_cases hgl : P.methodExtreme = "global_extreme"
            · exact Or.inr (Or.inr (Or.inr (Or.inr (Or.inl ⟨hsn, Or.inr (Or.inl hgl)⟩))))
            · exact Or.inr (Or.inl ⟨hgl, hm⟩)
          · split at hs
            · cases hs
              rename_i hm
              refine ⟨fun c h => (by cases h), fun _ => ?_, fun e h => (by cases h; left; rfl)⟩
              exact Or.inr (Or.inr (Or.inr (Or.inr (Or.inl ⟨hsn, Or.inr (Or.inr hm)⟩))))
            · cases hs
    | ok u2 =>
      have hs' : P.windowSpatial ≠ none → gridded = true ∧ P.methodExtreme = "hobday_extreme" ∧ P.methodPercentile ≠ "exact" := by
        intro h
        unfold checkSpatial at hs
        split at hs
        · rename_i hn; exact absurd hn h
        · split at hs
          · cases hs
          · rename_i hg
            split at hs
            · cases hs
            · rename_i hm
              split at hs
              · cases hs
              · rename_i hx
                exact ⟨by simpa using hg, by simpa using hm, hx⟩
      dsimp only
      cases hd : checkDays P with
      | error e =>
        unfold checkDays at hd
        split at hd
        · cases hd
        · rename_i w hw
          split at hd
          · rename_i hc
            cases hd
            refine ⟨fun c h => (by cases h), fun _ => ?_, fun e h => (by cases h; left; rfl)⟩
            exact Or.inr (Or.inr (Or.inr (Or.inr (Or.inr (Or.inl ⟨hc.1, w, hw, hc.2⟩)))))
          · cases hd
      | ok u3 =>
        have hd' : ∀ w, P.windowDays = some w → P.methodExtreme = "hobday_extreme" → ¬ w % 2 = 0 := by
          intro w hw hm h0
          unfold checkDays at hd
          rw [hw] at hd
          dsimp only at hd
          rw [if_pos ⟨hm, h0⟩] at hd
          cases hd
        dsimp only
        cases ho : checkSpatialOdd gridded P with
        | error e =>
          unfold checkSpatialOdd at ho
          split at ho
          · cases ho
          · rename_i s hes
            split at ho
            · rename_i hc
              have hsp : P.windowSpatial = some s := by
                unfold effectiveSpatial at hes
                split at hes
                · rename_i s' hs2; rw [hs2]; exact hes
                · split at hes
                  · cases hes; exact absurd hc.2 (by decide)
                  · cases hes
              split at ho
              · rename_i hwn
                cases ho
                exact ⟨fun c h => (by cases h), fun h => (by cases h), fun e h => (by cases h; right; exact ⟨rfl, hc.1, hwn⟩)⟩
              · cases ho
                refine ⟨fun c h => (by cases h), fun _ => ?_, fun e h => (by cases h; left; rfl)⟩
                exact Or.inr (Or.inr (Or.inr (Or.inr (Or.inr (Or.inr ⟨hc.1, s, hsp, hc.2⟩)))))
            · cases ho
        | ok u4 =>
          have ho' : ∀ s, P.windowSpatial = some s → P.methodExtreme = "hobday_extreme" → ¬ s % 2 = 0 := by
            intro s hsp hm h0
            unfold checkSpatialOdd effectiveSpatial at ho
            rw [hsp] at ho
            dsimp only at ho
            rw [if_pos ⟨hm, h0⟩] at ho
            split at ho <;> cases ho
          have hnr : (P.methodExtreme = "global_extreme" ∨ P.methodExtreme = "hobday_extreme") → ¬ Rejected (gridded = true) P := by
            rintro hm (⟨a, b⟩ | ⟨a, b⟩ | ⟨a, b⟩ | ⟨a, b⟩ | ⟨a, b⟩ | ⟨a, w, b, c⟩ | ⟨a, s, b, c⟩)
            · exact hp'.1.elim a b
            · exact hm.elim a b
            · obtain ⟨h1, h2⟩ := hp'.2.1 a
              exact b.elim (fun h => h h1) (fun h => h h2)
            · exact absurd (hp'.2.2 a) (not_le.2 b)
            · obtain ⟨h1, h2, h3⟩ := hs' a
              rcases b with b | b | b
              · exact b h1
              · rw [h2] at b; exact hne2 b.symm
              · exact h3 b
            · exact hd' w b a c
            · exact ho' s b a c
          dsimp only
          unfold dispatch
          by_cases hg : P.methodExtreme = "global_extreme"
          · rw [if_pos hg]
            refine ⟨fun c h => ?_, fun h => (by cases h), fun e h => (by cases h)⟩
            cases h
            exact ⟨hnr (Or.inl hg), Or.inl ⟨hg, rfl⟩⟩
          · rw [if_neg hg]
            by_cases hh : P.methodExtreme = "hobday_extreme"
            · rw [if_pos hh]
              cases hw : P.windowDays with
              | none => exact ⟨fun c h => (by cases h), fun h => (by cases h), fun e h => (by cases h; right; exact ⟨rfl, hh, rfl⟩)⟩
              | some w =>
                refine ⟨fun c h => ?_, fun h => (by cases h), fun e h => (by cases h)⟩
                cases h
                exact ⟨hnr (Or.inr hh), Or.inr ⟨hh, w, rfl, rfl⟩⟩
            · rw [if_neg hh]
              refine ⟨fun c h => (by cases h), fun _ => Or.inr (Or.inl ⟨hg, hh⟩), fun e h => (by cases h; left; rfl)⟩

/-- C45: with a temporal window given (its type is `int`), identify_extremes raises ConfigurationError exactly for the documented combinations, and
otherwise runs the requested method with the requested temporal window and the requested spatial window (5 by default on grids). -/
theorem C45_configuration_error_iff (gridded : Bool) (P : ExtParams) (hw : P.windowDays ≠ none) :
    (checkExtremes gridded P = .error .configuration ↔ Rejected (gridded = true) P) ∧
    (¬ Rejected (gridded = true) P ↔
      (P.methodExtreme = "global_extreme" ∧ checkExtremes gridded P = .ok .global) ∨
      (P.methodExtreme = "hobday_extreme" ∧ ∃ w, P.windowDays = some w ∧
        checkExtremes gridded P = .ok (.hobday w (if P.windowSpatial = none ∧ gridded = true then some 5 else P.windowSpatial)))) := by
  obtain ⟨h1, h2, h3⟩ := checkExtremes_error gridded P
  have heff : P.methodExtreme = "hobday_extreme" →
      effectiveSpatial gridded P = if P.windowSpatial = none ∧ gridded = true then some 5 else P.windowSpatial := by
    intro hm
    unfold effectiveSpatial
    cases P.windowSpatial <;> cases gridded <;> simp [hm]
  cases hc : checkExtremes gridded P with
  | ok c =>
    obtain ⟨hr, hcase⟩ := h1 c hc
    refine ⟨⟨fun h => by (cases h), fun h => absurd h hr⟩, ⟨fun _ => ?_, fun _ => hr⟩⟩
    rcases hcase with ⟨hm, rfl⟩ | ⟨hm, w, hw', rfl⟩
    · exact Or.inl ⟨hm, rfl⟩
    · exact Or.inr ⟨hm, w, hw', by rw [heff hm]⟩
  | error e =>
    rcases h3 e hc with rfl | ⟨rfl, _, hn⟩
    · have hr := h2 hc
      refine ⟨⟨fun _ => hr, fun _ => rfl⟩, ⟨fun h => absurd hr h, ?_⟩⟩
      rintro (⟨_, h⟩ | ⟨_, w, _, h⟩) <;> cases h
    · exact absurd hn hw

/-- The default parameters. -/
def defaults : ExtParams := ⟨"hobday_extreme", 95, some 11, none, "approximate", 1 / 100, 5⟩

example : checkExtremes true defaults = .ok (.hobday 11 (some 5)) ∧ checkExtremes false defaults = .ok (.hobday 11 none) := by decide +kernel
example : checkExtremes false { defaults with windowSpatial := some 5 } = .error .configuration ∧
    checkExtremes true { defaults with windowSpatial := some 4 } = .error .configuration ∧
    checkExtremes true { defaults with percentile := 50 } = .error .configuration := by decide +kernel

/-! ### C73: the recorded processing steps -/

/-- C73: when the spatial window is given explicitly, or the data are unstructured, the metadata name the spatial window in use. Missing: the default
window on grids. -/
theorem C73_recorded_window_partial (gridded : Bool) (P : ExtParams) (w : Int) (s : Option Int)
    (h : checkExtremes gridded P = .ok (.hobday w s)) (hx : P.windowSpatial ≠ none ∨ gridded = false) : recordedSpatial P = s := by
  obtain ⟨_, hcase⟩ := (checkExtremes_error gridded P).1 _ h
  rcases hcase with ⟨_, hc⟩ | ⟨hm, w', _, hc⟩
  · cases hc
  · have : s = effectiveSpatial gridded P := by cases hc; rfl
    rw [this]
    unfold recordedSpatial effectiveSpatial
    rw [if_pos hm]
    cases hs : P.windowSpatial with
    | some k => rfl
    | none =>
      rcases hx with hx | hx
      · exact absurd hs hx
      · rw [hx]; simp

example : checkExtremes true { defaults with windowSpatial := some 3 } = .ok (.hobday 11 (some 3)) := by decide +kernel

/-- C73 fails for the default: on every grid, with every accepted parameter set that leaves the spatial window to its default, thresholds are pooled over
5×5 cells and the metadata say that no spatial neighbours were used. -/
theorem C73_default_window_not_recorded_fails (P : ExtParams) (w : Int) (s : Option Int) (hn : P.windowSpatial = none)
    (h : checkExtremes true P = .ok (.hobday w s)) : s = some 5 ∧ recordedSpatial P = none := by
  obtain ⟨_, hcase⟩ := (checkExtremes_error true P).1 _ h
  rcases hcase with ⟨_, hc⟩ | ⟨hm, w', _, hc⟩
  · cases hc
  · have : s = effectiveSpatial true P := by cases hc; rfl
    rw [this]
    unfold recordedSpatial effectiveSpatial
    rw [hn]
    simp [hm]

/-! ### C74: extremes and the ocean mask -/

theorem ite_error_ok {ε α} {b : Bool} {e : ε} {r : Except ε α} {o : α} (h : (if b = true then .error e else r) = .ok o) : r = .ok o := by
  cases b
  · exact h
  · cases h

theorem runExtremes_first_missing (P : ExtParams) (c : Chosen) (ny nx : Nat) (recs : Nat → Nat → List Sample) (out : ExtOut)
    (h : runExtremes P c ny nx recs = .ok out) (hx : P.methodPercentile ≠ "exact") (y x : Nat)
    (hf : ((recs y x).map Sample.val).headD none = none) : ∀ b ∈ out.extremes y x, b = false := by
  unfold runExtremes at h
  rw [if_neg (fun hc => hx hc.1)] at h
  cases c with
  | global =>
    have h := Except.ok.inj h
    subst h
    unfold runGlobal
    dsimp only
    rw [if_neg hx]
    cases hr : recs y x with
    | nil => simp [extremesConstant]
    | cons r t =>
      rw [← hr]
      apply (C72_missing_removes_all_fails P.precision P.maxAnomaly (P.percentile / 100) 0 0 0 0 recs y x).2
      refine ⟨r, by rw [hr]; exact List.mem_cons_self, ?_⟩
      rw [hr] at hf
      simpa using hf
  | hobday w s =>
    dsimp only at h
    by_cases hw : w < 1
    · rw [if_pos hw] at h; cases h
    · rw [if_neg hw, if_neg hx] at h
      generalize poolSize s = s' at h
      unfold runApproxDays at h
      split at h
      · cases h
      · have h := Except.ok.inj h
        subst h
        dsimp only
        intro b hb
        cases hg : gridThresholds P.precision P.maxAnomaly (P.percentile / 100) w.toNat s' ny nx recs y x with
        | error e =>
          rw [hg] at hb
          obtain ⟨r, _, rfl⟩ := List.mem_map.1 hb
          simp [geNaN, okThresholds]
        | ok ts =>
          rw [hg] at hb
          refine (C72_missing_removes_all_fails P.precision P.maxAnomaly (P.percentile / 100) w.toNat s' ny nx recs y x).1 hf
            (extremesHobday (recs y x) ts) ts ?_ b hb
          unfold hobdayApprox
          rw [hg]

theorem runExtremes_all_missing (P : ExtParams) (c : Chosen) (ny nx : Nat) (recs : Nat → Nat → List Sample) (ext : ExtOut)
    (h : runExtremes P c ny nx recs = .ok ext) (y x : Nat) (hf : ∀ s ∈ recs y x, s.val = none) : ∀ b ∈ ext.extremes y x, b = false := by
  have hH : ∀ ts, ∀ b ∈ extremesHobday (recs y x) ts, b = false := by
    intro ts b hb
    obtain ⟨s, hs, rfl⟩ := List.mem_map.1 hb
    rw [hf s hs]; rfl
  unfold runExtremes at h
  split at h
  · cases h
  · split at h
    · have h := Except.ok.inj h
      subst h
      intro b hb
      obtain ⟨v, hv, rfl⟩ := List.mem_map.1 hb
      obtain ⟨s, hs, rfl⟩ := List.mem_map.1 hv
      rw [hf s hs]; rfl
    · split at h
      · cases h
      · split at h
        · have h := Except.ok.inj h
          subst h
          exact hH _
        · unfold runApproxDays at h
          split at h
          · cases h
          · have h := Except.ok.inj h
            subst h
            exact hH _

theorem detrendCell_missing (fit : List ℚ → Nat → ℚ) (record : List Sample) (h : (record.map Sample.val).headD none = none) :
    ∀ s ∈ detrendCell fit record, s.val = none := by
  intro s hs
  cases record with
  | nil => simp [detrendCell, withVals] at hs
  | cons r t =>
    have hr : r.val = none := h
    have hall : ((r :: t).all fun s => s.val.isSome) = false := by simp [hr]
    unfold detrendCell at hs
    rw [hall] at hs
    unfold withVals at hs
    obtain ⟨i, hi, rfl⟩ := List.mem_iff_getElem.1 hs
    simp

theorem detrendCell_head (fit : List ℚ → Nat → ℚ) (record : List Sample) (h : ((detrendCell fit record).map Sample.val).headD none = none) :
    ∀ s ∈ detrendCell fit record, s.val = none := by
  by_cases hall : (record.all fun s => s.val.isSome) = true
  · cases record with
    | nil => simp [detrendCell, withVals]
    | cons r t =>
      unfold detrendCell at h
      rw [hall] at h
      rw [List.length_cons, List.range_succ_eq_map] at h
      simp [withVals] at h
  · intro s hs
    unfold detrendCell at hs
    rw [Bool.eq_false_iff.2 hall] at hs
    unfold withVals at hs
    obtain ⟨i, hi, rfl⟩ := List.mem_iff_getElem.1 hs
    simp

theorem fixedAnomaly_missing (record : List Sample) (h : ∀ s ∈ record, s.val = none) : ∀ s ∈ fixedAnomaly record, s.val = none := by
  intro s hs
  obtain ⟨r, hr, rfl⟩ := List.mem_map.1 hs
  simp [h r hr, nanSub]

/-- C74: with one of the detrending methods, and with the fixed baseline and the approximate percentile method, every extreme lies at a cell of the
returned ocean mask.  Missing: the fixed baseline with the exact method and the shifting baseline, where the claim is false, see below. -/
theorem C74_extremes_in_mask_partial (gridded : Bool) (m : AnomalyMethod) (P : ExtParams) (ny nx : Nat) (raw : Nat → Nat → List Sample)
    (out : PrepOut) (h : preprocess gridded m P ny nx raw = .ok out)
    (hmeth : (m = .fixed ∧ P.methodPercentile = "approximate") ∨ (∃ fit, m = .detrend fit) ∨ ∃ fit, m = .detrendFixed fit) (y x : Nat)
    (hm : out.mask y x = false) : ∀ b ∈ out.ext.extremes y x, b = false := by
  unfold preprocess at h
  split at h
  · cases h
  · split at h
    · cases h
    · dsimp only at h
      split at h
      · cases h
      · rename_i ext hi
        simp only [Except.ok.injEq] at h
        subst h
        dsimp only at hm ⊢
        unfold identifyExtremes at hi
        split at hi
        · cases hi
        · rename_i c _
          replace hi := ite_error_ok hi
          rcases hmeth with ⟨rfl, hp⟩ | ⟨fit, rfl⟩ | ⟨fit, rfl⟩
          · refine runExtremes_first_missing P c ny nx _ ext hi (by rw [hp]; decide) y x ?_
            dsimp only [methodMask] at hm
            unfold oceanMask at hm
            show ((fixedAnomaly (raw y x)).map Sample.val).headD none = none
            unfold fixedAnomaly
            cases hr : raw y x with
            | nil => rfl
            | cons r t =>
              rw [hr] at hm
              simp only [List.map_cons, List.headD_cons] at hm ⊢
              rw [Option.isSome_eq_false_iff, Option.isNone_iff_eq_none] at hm
              rw [hm]
              rfl
          · dsimp only [methodMask] at hm
            unfold oceanMask at hm
            rw [Option.isSome_eq_false_iff, Option.isNone_iff_eq_none] at hm
            exact runExtremes_all_missing P c ny nx _ ext hi y x (detrendCell_missing fit _ hm)
          · dsimp only [methodMask] at hm
            unfold oceanMask at hm
            rw [Option.isSome_eq_false_iff, Option.isNone_iff_eq_none] at hm
            exact runExtremes_all_missing P c ny nx _ ext hi y x (fixedAnomaly_missing _ (detrendCell_head fit _ hm))

/-- One ocean cell with the given values; a cell next to it that is missing at the first step and has the given values later. -/
def coast (v : ℚ) : Nat → Nat → List Sample := fun _ x => if x = 0 then [⟨2000, 1, some v⟩, ⟨2000, 2, some v⟩] else [⟨2000, 1, none⟩, ⟨2000, 2, some v⟩]

/-- C74 fails for the exact method: for every value and every percentile, a cell outside the ocean mask has an extreme. -/
theorem C74_exact_fails (v pc : ℚ) (h0 : 0 ≤ pc) (h1 : pc ≤ 100) :
    ∃ out, preprocess true .fixed ⟨"global_extreme", pc, some 11, none, "exact", 1 / 100, 5⟩ 1 2 (coast v) = .ok out ∧
      out.mask 0 1 = false ∧ out.ext.extremes 0 1 = [false, true] := by
  have hq0 : (0 : ℚ) ≤ pc / 100 := by positivity
  have hq1 : pc / 100 ≤ 1 := by linarith
  have hnq : ¬ (("exact" : String) = "exact" ∧ (pc / 100 < 0 ∨ 1 < pc / 100)) := by
    rintro ⟨_, h | h⟩ <;> linarith
  have hc : checkExtremes true ⟨"global_extreme", pc, some 11, none, "exact", 1 / 100, 5⟩ = .ok .global := by
    simp [checkExtremes, checkPercentile, checkSpatial, checkDays, checkSpatialOdd, effectiveSpatial, dispatch]
  refine ⟨⟨oceanMask (coast v), fun y x => fixedAnomaly (coast v y x), runGlobal ⟨"global_extreme", pc, some 11, none, "exact", 1 / 100, 5⟩
    fun y x => fixedAnomaly (coast v y x)⟩, ?_, rfl, ?_⟩
  · unfold preprocess
    rw [show validateData ((List.range 1).flatMap fun y => (List.range 2).map fun x => (coast v y x).map Sample.val) = .ok () by
      simp [validateData, coast, List.range_succ]; rfl]
    dsimp only [anomalyCell, okAnomalies]
    unfold identifyExtremes
    rw [hc]
    dsimp only
    unfold runExtremes
    rw [if_neg hnq]
    rfl
  · have hfix : (fixedAnomaly (coast v 0 1)).map Sample.val = [none, some 0] := by
      simp [fixedAnomaly, coast, nanSub, dailyClim, nanMean]
    unfold runGlobal
    dsimp only
    rw [hfix, if_pos rfl, quantileExact_const _ hq0 hq1 0 _ (by simp) (by simp)]
    simp [extremesConstant, geNaN]

/-- A cell whose first value is missing, whose other values are `0` in the first year and `v` in the second. -/
def lateStart (v : ℚ) : Nat → Nat → List Sample := fun _ x =>
  if x = 0 then [⟨2000, 1, some 0⟩, ⟨2000, 2, some 0⟩, ⟨2001, 2, some v⟩] else [⟨2000, 1, none⟩, ⟨2000, 2, some 0⟩, ⟨2001, 2, some v⟩]

theorem lateStart_base (v : ℚ) (o : Option ℚ) :
    shiftingBaseline 1 1 [⟨2000, 1, o⟩, ⟨2000, 2, some 0⟩, ⟨2001, 2, some v⟩] = .ok [⟨2001, 2, some v⟩] := by
  have hr : rollMean 1 [o, some 0, some v] = [o, some 0, some v] := by
    cases o <;> simp [rollMean, List.range_succ]
  have hc : smoothedClim 1 1 [⟨2000, 1, o⟩, ⟨2000, 2, some 0⟩, ⟨2001, 2, some v⟩] = [none, none, some 0] := by
    unfold smoothedClim
    simp only [List.map_cons, List.map_nil, hr, withVals, List.zipWith_cons_cons, List.zipWith_nil_left]
    have hy : npUnique [2000, 2000, 2001] = [2000, 2001] := by decide +kernel
    simp [rollingClim, contributions, minYear, hy, nanMean]
  unfold shiftingBaseline shiftingAnomaly
  rw [hc]
  have hy : npUnique [2000, 2000, 2001] = [2000, 2001] := by decide +kernel
  simp [trimShifting, withVals, nanSub, minYear, maxYear, hy]

/-- C74 fails for the shifting baseline even with the approximate method: the mask is taken before the first years are cut off, the thresholds
after. -/
theorem C74_shifting_fails (p mx v pc : ℚ) (hp : 0 < p) (hmx : p < mx) (hv : mx + p ≤ v) (h0 : 60 ≤ pc) (h1 : pc ≤ 100) :
    ∃ out, preprocess true (.shifting 1 1) ⟨"global_extreme", pc, some 11, none, "approximate", p, mx⟩ 1 2 (lateStart v) = .ok out ∧
      out.mask 0 1 = false ∧ out.ext.extremes 0 1 = [true] := by
  have hq1 : pc / 100 ≤ 1 := by linarith
  have hc : checkExtremes true ⟨"global_extreme", pc, some 11, none, "approximate", p, mx⟩ = .ok .global := by
    simp [checkExtremes, checkPercentile, checkSpatial, checkDays, checkSpatialOdd, effectiveSpatial, dispatch, not_lt.2 h0]
  have hs : ∀ x, shiftingBaseline 1 1 (lateStart v 0 x) = .ok [⟨2001, 2, some v⟩] := by
    intro x
    by_cases hx : x = 0
    · rw [show lateStart v 0 x = [⟨2000, 1, some 0⟩, ⟨2000, 2, some 0⟩, ⟨2001, 2, some v⟩] by simp [lateStart, hx]]
      exact lateStart_base v (some 0)
    · rw [show lateStart v 0 x = [⟨2000, 1, none⟩, ⟨2000, 2, some 0⟩, ⟨2001, 2, some v⟩] by simp [lateStart, hx]]
      exact lateStart_base v none
  refine ⟨⟨oceanMask (lateStart v), fun y x => okAnomalies (anomalyCell (.shifting 1 1) (lateStart v y x)),
    runGlobal ⟨"global_extreme", pc, some 11, none, "approximate", p, mx⟩
    fun y x => okAnomalies (anomalyCell (.shifting 1 1) (lateStart v y x))⟩, ?_, rfl, ?_⟩
  · unfold preprocess
    rw [show validateData ((List.range 1).flatMap fun y => (List.range 2).map fun x => (lateStart v y x).map Sample.val) = .ok () by
      simp [validateData, lateStart, List.range_succ]; rfl]
    have h00 : anomalyCell (.shifting 1 1) (lateStart v 0 0) = .ok [⟨2001, 2, some v⟩] := by
      unfold anomalyCell; dsimp only; rw [hs 0]
    rw [h00]
    dsimp only
    unfold identifyExtremes
    rw [hc]
    dsimp only
    rw [if_neg (by simp [layoutFails])]
    unfold runExtremes
    rw [if_neg (by simp)]
    rfl
  · unfold runGlobal
    dsimp only [anomalyCell]
    rw [hs 1]
    dsimp only [okAnomalies]
    rw [if_neg (by decide)]
    have := (C69_constant_beyond_range_fails p mx hp hmx [v] (by simpa using hv) (pc / 100) hq1).1
    simp only [List.map_cons, List.map_nil] at this ⊢
    rw [this]
    have : p ≤ v := by linarith
    simp [extremesConstant, geNaN, this]

/-! ### C75: the percentile range -/

/-- C75: the exact method never runs with a percentile outside 0–100, the approximate one never with a percentile below 60.  Missing: percentiles above 100
with the approximate method. -/
theorem C75_percentile_range_partial (gridded : Bool) (P : ExtParams) (ny nx : Nat) (recs : Nat → Nat → List Sample) (out : ExtOut)
    (h : identifyExtremes gridded P ny nx recs = .ok out) :
    (P.methodPercentile = "exact" ∧ 0 ≤ P.percentile ∧ P.percentile ≤ 100) ∨ (P.methodPercentile = "approximate" ∧ 60 ≤ P.percentile) := by
  unfold identifyExtremes at h
  cases hc : checkExtremes gridded P with
  | error e => rw [hc] at h; cases h
  | ok c =>
    rw [hc] at h
    obtain ⟨hr, _⟩ := (checkExtremes_error gridded P).1 c hc
    unfold Rejected at hr
    push Not at hr
    obtain ⟨h1, _, _, h4, _⟩ := hr
    by_cases hx : P.methodPercentile = "exact"
    · left
      replace h := ite_error_ok h
      unfold runExtremes at h
      by_cases hb : P.percentile / 100 < 0 ∨ 1 < P.percentile / 100
      · rw [if_pos ⟨hx, hb⟩] at h; cases h
      · push Not at hb
        exact ⟨hx, by linarith, by linarith⟩
    · right
      exact ⟨h1 hx, h4 (h1 hx)⟩

example : ∃ out, identifyExtremes true ⟨"global_extreme", 95, some 11, none, "approximate", 1 / 100, 5⟩ 1 2 (coast 1) = .ok out := ⟨_, rfl⟩

/-- C75 fails: with the approximate method every percentile above 100 is accepted, on every data set. -/
theorem C75_above_100_fails (p mx pc : ℚ) (h : 100 < pc) (ny nx : Nat) (recs : Nat → Nat → List Sample) :
    ∃ out, identifyExtremes true ⟨"global_extreme", pc, some 11, none, "approximate", p, mx⟩ ny nx recs = .ok out := by
  have hc : checkExtremes true ⟨"global_extreme", pc, some 11, none, "approximate", p, mx⟩ = .ok .global := by
    have : ¬ pc < 60 := by linarith
    simp [checkExtremes, checkPercentile, checkSpatial, checkDays, checkSpatialOdd, effectiveSpatial, dispatch, this]
  unfold identifyExtremes
  rw [hc]
  dsimp only
  rw [if_neg (by simp [layoutFails])]
  unfold runExtremes
  rw [if_neg (by simp)]
  exact ⟨_, rfl⟩

/-! ### C76: where shifting-baseline anomalies exist -/

theorem nanMean_isSome (l : List (Option ℚ)) : (nanMean l).isSome = true ↔ ∃ v, some v ∈ l := by
  unfold nanMean
  dsimp only
  by_cases h : (l.filterMap id).isEmpty = true
  · rw [if_pos h]
    rw [List.isEmpty_iff, List.filterMap_eq_nil_iff] at h
    simp only [Option.isSome_none, Bool.false_eq_true, false_iff]
    rintro ⟨v, hv⟩
    exact absurd (h _ hv) (by simp)
  · rw [if_neg h]
    simp only [Option.isSome_some, true_iff]
    rw [List.isEmpty_iff] at h
    obtain ⟨v, hv⟩ := List.exists_mem_of_ne_nil _ h
    obtain ⟨o, ho, e⟩ := List.mem_filterMap.1 hv
    rw [id_eq] at e
    subst e
    exact ⟨v, ho⟩

theorem rollMean_isSome {w : Nat} {xs : List (Option ℚ)} {i : Nat} (hi : i < xs.length) :
    (∃ v, (rollMean w xs)[i]? = some (some v)) ↔ ∀ k, k < w → w / 2 ≤ i + k ∧ ∃ v, xs[i + k - w / 2]? = some (some v) := by
  rw [rollMean_getElem? hi]
  dsimp only
  have key : (((List.range w).map fun k => if i + k < w / 2 then none else xs.getD (i + k - w / 2) none).all Option.isSome = true) ↔
      ∀ k, k < w → w / 2 ≤ i + k ∧ ∃ v, xs[i + k - w / 2]? = some (some v) := by
    rw [List.all_eq_true]
    constructor
    · intro h k hk
      have := h _ (List.mem_map_of_mem (List.mem_range.2 hk))
      by_cases hlt : i + k < w / 2
      · rw [if_pos hlt] at this; cases this
      · rw [if_neg hlt, List.getD_eq_getElem?_getD] at this
        refine ⟨by omega, ?_⟩
        cases hg : xs[i + k - w / 2]? with
        | none => rw [hg] at this; cases this
        | some o =>
          rw [hg] at this
          cases o with
          | none => cases this
          | some v => exact ⟨v, rfl⟩
    · intro h o ho
      obtain ⟨k, hk, rfl⟩ := List.mem_map.1 ho
      obtain ⟨h1, v, hv⟩ := h k (List.mem_range.1 hk)
      rw [if_neg (by omega), List.getD_eq_getElem?_getD, hv]
      rfl
  rw [← key]
  constructor
  · rintro ⟨v, hv⟩
    by_contra hn
    rw [if_neg hn] at hv
    cases hv
  · intro h
    rw [if_pos h]
    exact ⟨_, rfl⟩

theorem length_smoothedClim (W w : Nat) (record : List Sample) : (smoothedClim W w record).length = record.length := by
  simp [smoothedClim, rollingClim, withVals, length_rollMean]

/-- C76: a step of a year at least `W` after the first has an anomaly iff it has a value and, on its day of year in one of the `W` years before, the data
have a sample all of whose `w` smoothing days are in the record and have values.  Missing from the documented behaviour ("the first `W` years are removed",
so that all later steps of a complete record have anomalies): the two cases below. -/
theorem C76_anomaly_exists_partial (W w : Nat) (record : List Sample) (first : Nat) (hf : ∃ r ∈ record, r.year = first) (hf' : ∀ r ∈ record, first ≤ r.year)
    (i : Nat) (s : Sample) (hs : record[i]? = some s) (hy : first + W ≤ s.year) :
    (∃ a, (shiftingAnomaly W w record)[i]? = some { s with val := some a }) ↔
      (∃ v, s.val = some v) ∧
      ∃ j r, record[j]? = some r ∧ r.doy = s.doy ∧ s.year ≤ r.year + W ∧ r.year < s.year ∧
        ∀ k, k < w → w / 2 ≤ j + k ∧ ∃ r' v, record[j + k - w / 2]? = some r' ∧ r'.val = some v := by
  have hne : record ≠ [] := List.ne_nil_of_mem (List.mem_of_getElem? hs)
  have hil : i < record.length := (List.getElem?_eq_some_iff.1 hs).1
  have hl : (rollMean w (record.map Sample.val)).length = record.length := by rw [length_rollMean, List.length_map]
  have hsd := sameDates_withVals hl
  have hmin : minYear record = first := by
    obtain ⟨r, hr, hy⟩ := minYear_mem hne
    obtain ⟨r', hr', hy'⟩ := hf
    have := hf' r hr
    have := minYear_le hr'
    omega
  have hrl : i < (rollMean w (record.map Sample.val)).length := by omega
  have hrm := List.getElem?_eq_getElem hrl
  generalize hrv : (rollMean w (record.map Sample.val))[i] = rv at hrm
  have hcl : (smoothedClim W w record)[i]? =
      some (nanMean ((baseline W s.year s.doy (withVals record (rollMean w (record.map Sample.val)))).map Sample.val)) := by
    unfold smoothedClim
    rw [rollingClim_getElem? W _ i _ (withVals_getElem? hs hrm), minYear_congr hsd, hmin, if_pos (by exact hy)]
  have hzip : (List.zipWith nanSub (record.map Sample.val) (smoothedClim W w record))[i]? =
      some (nanSub s.val (nanMean ((baseline W s.year s.doy (withVals record (rollMean w (record.map Sample.val)))).map Sample.val))) := by
    rw [List.getElem?_zipWith, List.getElem?_map, hs, hcl]
    rfl
  unfold shiftingAnomaly
  rw [withVals_getElem? hs hzip]
  have hbase : (nanMean ((baseline W s.year s.doy (withVals record (rollMean w (record.map Sample.val)))).map Sample.val)).isSome = true ↔
      ∃ j r, record[j]? = some r ∧ r.doy = s.doy ∧ s.year ≤ r.year + W ∧ r.year < s.year ∧
        ∀ k, k < w → w / 2 ≤ j + k ∧ ∃ r' v, record[j + k - w / 2]? = some r' ∧ r'.val = some v := by
    rw [nanMean_isSome]
    have hroll : ∀ j, j < record.length → ((∃ v, (rollMean w (record.map Sample.val))[j]? = some (some v)) ↔
        ∀ k, k < w → w / 2 ≤ j + k ∧ ∃ r' v, record[j + k - w / 2]? = some r' ∧ r'.val = some v) := by
      intro j hj
      rw [rollMean_isSome (by rw [List.length_map]; exact hj)]
      simp only [List.getElem?_map, Option.map_eq_some_iff]
      constructor
      · intro h k hk
        obtain ⟨h1, v, r', h2, h3⟩ := h k hk
        exact ⟨h1, r', v, h2, h3⟩
      · intro h k hk
        obtain ⟨h1, r', v, h2, h3⟩ := h k hk
        exact ⟨h1, v, r', h2, h3⟩
    constructor
    · rintro ⟨v, hv⟩
      obtain ⟨e, he, hev⟩ := List.mem_map.1 hv
      obtain ⟨he1, he2⟩ := List.mem_filter.1 he
      obtain ⟨j, hj⟩ := List.getElem?_of_mem he1
      unfold withVals at hj
      rw [List.getElem?_zipWith] at hj
      cases hr : record[j]? with
      | none => rw [hr] at hj; cases hj
      | some r =>
        cases ho : (rollMean w (record.map Sample.val))[j]? with
        | none => rw [hr, ho] at hj; cases hj
        | some o =>
          rw [hr, ho] at hj
          cases hj
          dsimp only at hev he2
          subst hev
          simp only [decide_eq_true_eq] at he2
          exact ⟨j, r, hr, he2.1, he2.2.1, he2.2.2, (hroll j (List.getElem?_eq_some_iff.1 hr).1).1 ⟨v, ho⟩⟩
    · rintro ⟨j, r, hr, h1, h2, h3, h4⟩
      obtain ⟨v, hv⟩ := (hroll j (List.getElem?_eq_some_iff.1 hr).1).2 h4
      refine ⟨v, List.mem_map.2 ⟨{ r with val := some v }, List.mem_filter.2 ⟨List.mem_of_getElem? (withVals_getElem? hr hv), ?_⟩, rfl⟩⟩
      simp only [decide_eq_true_eq]
      exact ⟨h1, h2, h3⟩
  rw [← hbase]
  generalize nanMean _ = m
  cases hsv : s.val <;> cases m <;> simp [nanSub]

example : ∃ a, (shiftingAnomaly 1 3 [⟨2000, 1, some 1⟩, ⟨2000, 2, some 2⟩, ⟨2000, 3, some 3⟩, ⟨2001, 2, some 5⟩])[3]? = some ⟨2001, 2, some a⟩ :=
  ⟨3, by decide +kernel⟩

/-- C76 fails for days that the years before do not have: with a window of up to three years, the last day of a leap year (day 366) has no anomaly even
in complete data. -/
theorem C76_day_366_fails (W w : Nat) (record : List Sample) (first : Nat) (hf : ∃ r ∈ record, r.year = first) (hf' : ∀ r ∈ record, first ≤ r.year)
    (i : Nat) (s : Sample) (hs : record[i]? = some s) (hy : first + W ≤ s.year)
    (hleap : ∀ r ∈ record, r.doy = s.doy → s.year ≤ r.year + W → ¬ r.year < s.year) :
    ∀ a, (shiftingAnomaly W w record)[i]? ≠ some { s with val := some a } := by
  intro a ha
  obtain ⟨_, j, r, hr, h1, h2, h3, _⟩ := (C76_anomaly_exists_partial W w record first hf hf' i s hs hy).1 ⟨a, ha⟩
  exact hleap r (List.mem_of_getElem? hr) h1 h2 h3

example : ∀ r ∈ ([⟨2003, 365, some 0⟩, ⟨2004, 365, some 0⟩, ⟨2004, 366, some 0⟩] : List Sample), r.doy = 366 → 2004 ≤ r.year + 1 → ¬ r.year < 2004 := by
  decide +kernel

/-- C76 fails for a one-year window: if the second year starts on the day of year on which the record starts (a record of whole years does), its first
step has no anomaly, and so, with the approximate method, no cell has any extreme at any time. -/
theorem C76_one_year_window_fails (gridded : Bool) (P : ExtParams) (hp : P.methodPercentile = "approximate") (w : Nat) (hw : 2 ≤ w) (ny nx : Nat)
    (raw : Nat → Nat → List Sample) (out : PrepOut) (h : preprocess gridded (.shifting 1 w) P ny nx raw = .ok out)
    (y x : Nat) (s0 : Sample) (rest : List Sample) (hr : raw y x = s0 :: rest) (hfirst : ∀ r ∈ rest, s0.year ≤ r.year)
    (honce : ∀ r ∈ rest, r.year = s0.year → r.doy ≠ s0.doy)
    (hnext : ∃ s1, rest.find? (fun r => s0.year + 1 ≤ r.year) = some s1 ∧ s1.year = s0.year + 1 ∧ s1.doy = s0.doy) :
    ∀ b ∈ out.ext.extremes y x, b = false := by
  unfold preprocess at h
  split at h
  · cases h
  · split at h
    · cases h
    · dsimp only at h
      split at h
      · cases h
      · rename_i ext hi
        simp only [Except.ok.injEq] at h
        subst h
        dsimp only
        unfold identifyExtremes at hi
        split at hi
        · cases hi
        · rename_i c _
          replace hi := ite_error_ok hi
          refine runExtremes_first_missing P c ny nx _ ext hi (by rw [hp]; decide) y x ?_
          dsimp only [anomalyCell]
          rw [hr]
          show ((okAnomalies (match shiftingBaseline 1 w (s0 :: rest) with | .error _ => .error .dataValidation | .ok r => .ok r)).map Sample.val).headD none = none
          have hmin : minYear (s0 :: rest) = s0.year := by
            obtain ⟨r, hr1, hy⟩ := minYear_mem (record := s0 :: rest) (by simp)
            have := minYear_le (record := s0 :: rest) (r := s0) List.mem_cons_self
            rcases List.mem_cons.1 hr1 with rfl | hr1
            · exact hy.symm
            · have := hfirst r hr1; omega
          have hlen : (List.zipWith nanSub ((s0 :: rest).map Sample.val) (smoothedClim 1 w (s0 :: rest))).length = (s0 :: rest).length := by
            rw [List.length_zipWith, length_smoothedClim, List.length_map, min_self]
          have hsd : SameDates (shiftingAnomaly 1 w (s0 :: rest)) (s0 :: rest) := sameDates_withVals hlen
          unfold shiftingBaseline trimShifting
          simp only [minYear_congr hsd, hmin]
          split
          · rfl
          · rename_i out hout
            split at hout
            · cases hout
            · cases hout
              dsimp only [okAnomalies]
              obtain ⟨s1, hs1, hy1, hd1⟩ := hnext
              -- the first retained anomaly
              cases hh : ((shiftingAnomaly 1 w (s0 :: rest)).filter fun s => s0.year + 1 ≤ s.year) with
              | nil => rfl
              | cons e t =>
                simp only [List.map_cons, List.headD_cons]
                by_contra hev
                have hfe : (shiftingAnomaly 1 w (s0 :: rest)).find? (fun s => s0.year + 1 ≤ s.year) = some e := by
                  rw [← List.head?_filter, hh]; rfl
                obtain ⟨he1, i, hi, hei, hbefore⟩ := List.find?_eq_some_iff_getElem.1 hfe
                have hlen2 := sameDates_length hsd
                have hil : i < (s0 :: rest).length := by omega
                have hdates : ∀ k (hk : k < (s0 :: rest).length), ((s0 :: rest)[k].year, (s0 :: rest)[k].doy) =
                    ((shiftingAnomaly 1 w (s0 :: rest))[k].year, (shiftingAnomaly 1 w (s0 :: rest))[k].doy) := by
                  intro k hk
                  have := congrArg (fun l => l[k]?) hsd
                  simp only [List.getElem?_map] at this
                  rw [List.getElem?_eq_getElem (by omega), List.getElem?_eq_getElem hk] at this
                  simpa using this.symm
                have hfr : (s0 :: rest).find? (fun r => s0.year + 1 ≤ r.year) = some (s0 :: rest)[i] := by
                  rw [List.find?_eq_some_iff_getElem]
                  have hdi := hdates i hil
                  simp only [Prod.mk.injEq] at hdi
                  rw [hei] at hdi
                  refine ⟨by rw [hdi.1]; exact he1, i, hil, rfl, ?_⟩
                  intro k hk
                  have hdk := hdates k (by omega)
                  simp only [Prod.mk.injEq] at hdk
                  rw [hdk.1]
                  exact hbefore k hk
                rw [List.find?_cons_of_neg (by simp), hs1] at hfr
                have hs1i : (s0 :: rest)[i]? = some s1 := by
                  rw [List.getElem?_eq_getElem hil, Option.some.inj hfr]
                obtain ⟨a, ha⟩ := Option.ne_none_iff_exists'.1 hev
                have hes : e = { s1 with val := some a } := by
                  have hdi := hdates i hil
                  rw [hei, ← Option.some.inj hfr] at hdi
                  simp only [Prod.mk.injEq] at hdi
                  cases e; cases s1
                  simp_all
                have := (C76_anomaly_exists_partial 1 w (s0 :: rest) s0.year ⟨s0, List.mem_cons_self, rfl⟩
                  (fun r hr => by rcases List.mem_cons.1 hr with rfl | hr
                                  · exact le_refl _
                                  · exact hfirst r hr) i s1 hs1i (by omega)).1
                  ⟨a, by rw [List.getElem?_eq_getElem hi, hei, hes]⟩
                obtain ⟨_, j, r, hrj, hrd, hy2, hy3, hk⟩ := this
                cases j with
                | zero =>
                  have := (hk 0 (by omega)).1
                  omega
                | succ j =>
                  rw [List.getElem?_cons_succ] at hrj
                  exact honce r (List.mem_of_getElem? hrj) (by omega) (by omega)

/-- Non-vacuity: a complete record of two (short) years in one cell, with a large value, is accepted. -/
def twoFullYears : List Sample :=
  [⟨2000, 1, some 0⟩, ⟨2000, 2, some 0⟩, ⟨2000, 3, some 0⟩, ⟨2001, 1, some 0⟩, ⟨2001, 2, some 3⟩, ⟨2001, 3, some 0⟩]

example : (preprocess true (.shifting 1 3) ⟨"global_extreme", 95, some 11, none, "approximate", 1 / 100, 5⟩ 1 1 (fun _ _ => twoFullYears)).toBool = true ∧
    (∃ s1, (twoFullYears.tail.find? fun r => 2000 + 1 ≤ r.year) = some s1 ∧ s1.year = 2000 + 1 ∧ s1.doy = 1) :=
  ⟨by decide +kernel, ⟨_, rfl, rfl, rfl⟩⟩

end MarEx.Props
