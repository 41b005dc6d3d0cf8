import Verif.Props.Climatology
import Verif.Model.Preprocess
import Verif.Lemmas.Climatology
/-! C185: new data and old anomalies. -/
namespace MarEx.Props
open MarEx Spec

/-- Filtering two lists that differ only where both entries are dropped. -/
theorem filter_eq_of_forall₂ {α : Type} {p : α → Bool} {l l' : List α} (h : List.Forall₂ (fun s t => s = t ∨ p s = false ∧ p t = false) l l') :
    l.filter p = l'.filter p := by
  induction h with
  | nil => rfl
  | cons h12 _ ih =>
    rcases h12 with rfl | ⟨h1, h2⟩
    · rw [List.filter_cons, List.filter_cons, ih]
    · rw [List.filter_cons_of_neg (by simp [h1]), List.filter_cons_of_neg (by simp [h2]), ih]

/-- A smoothed value does not change when data are appended beyond its window. -/
theorem rollMean_append {w : Nat} {xs ys : List (Option ℚ)} {i : Nat} (hi : i + (w - 1 - w / 2) < xs.length) :
    (rollMean w (xs ++ ys))[i]? = (rollMean w xs)[i]? := by
  rw [rollMean_getElem? (by rw [List.length_append]; omega), rollMean_getElem? (by omega)]
  have : ((List.range w).map fun k => if i + k < w / 2 then none else (xs ++ ys).getD (i + k - w / 2) none) =
      (List.range w).map fun k => if i + k < w / 2 then none else xs.getD (i + k - w / 2) none := by
    apply List.map_congr_left
    intro k hk
    have hk := List.mem_range.1 hk
    split
    · rfl
    · rw [List.getD_eq_getElem?_getD, List.getD_eq_getElem?_getD, List.getElem?_append_left (by omega)]
  simp only [this]

/-- Data on the same day of year of different years are more than half a smoothing window apart. -/
def SparseDays (w : Nat) (record : List Sample) : Prop :=
  ∀ (j i : Nat) (r s : Sample), record[j]? = some r → record[i]? = some s → r.doy = s.doy → r.year < s.year → j + (w - 1 - w / 2) ≤ i

theorem smoothedClim_append (W w : Nat) (old new : List Sample) (hne : old ≠ []) (hlater : ∀ r ∈ old, ∀ s ∈ new, r.year ≤ s.year)
    (hsp : SparseDays w old) (i : Nat) (hi : i < old.length) : (smoothedClim W w (old ++ new))[i]? = (smoothedClim W w old)[i]? := by
  unfold smoothedClim
  set vo := rollMean w (old.map Sample.val) with hvo
  set va := rollMean w ((old ++ new).map Sample.val) with hva
  have lo : vo.length = old.length := by rw [hvo, length_rollMean, List.length_map]
  have la : va.length = (old ++ new).length := by rw [hva, length_rollMean, List.length_map]
  have so : (withVals old vo)[i]? = some { old[i] with val := vo[i]'(by omega) } :=
    withVals_getElem? (List.getElem?_eq_getElem hi) (List.getElem?_eq_getElem _)
  have hia : i < (old ++ new).length := by rw [List.length_append]; omega
  have sa : (withVals (old ++ new) va)[i]? = some { old[i] with val := va[i]'(by omega) } :=
    withVals_getElem? (by rw [List.getElem?_append_left hi]; exact List.getElem?_eq_getElem hi) (List.getElem?_eq_getElem _)
  rw [rollingClim_getElem? W _ i _ sa, rollingClim_getElem? W _ i _ so]
  have hmin : minYear (withVals (old ++ new) va) = minYear (withVals old vo) := by
    rw [minYear_congr (sameDates_withVals la), minYear_congr (sameDates_withVals lo)]
    obtain ⟨r, hr, hry⟩ := minYear_mem hne
    obtain ⟨q, hq, hqy⟩ := minYear_mem (record := old ++ new) (by simp [hne])
    have h1 := minYear_le (record := old ++ new) (List.mem_append_left new hr)
    rcases List.mem_append.1 hq with h | h
    · have := minYear_le h; omega
    · have := hlater r hr q h; omega
  rw [hmin]
  dsimp only
  have hb : baseline W old[i].year old[i].doy (withVals (old ++ new) va) = baseline W old[i].year old[i].doy (withVals old vo) := by
    have hsplit : withVals (old ++ new) va = (withVals (old ++ new) va).take old.length ++ (withVals (old ++ new) va).drop old.length :=
      (List.take_append_drop _ _).symm
    rw [hsplit]
    unfold baseline
    rw [List.filter_append]
    have hnew : ((withVals (old ++ new) va).drop old.length).filter
        (fun r => decide (r.doy = old[i].doy ∧ old[i].year ≤ r.year + W ∧ r.year < old[i].year)) = [] := by
      rw [List.filter_eq_nil_iff]
      intro r hr
      obtain ⟨k, hk⟩ := List.getElem?_of_mem hr
      rw [List.getElem?_drop] at hk
      have hkl : old.length + k < (old ++ new).length := by
        rw [← length_withVals la]; exact (List.getElem?_eq_some_iff.1 hk).1
      rw [withVals_getElem? (List.getElem?_eq_getElem hkl) (List.getElem?_eq_getElem (by omega)), Option.some.injEq] at hk
      have hmem : (old ++ new)[old.length + k] ∈ new := by
        rw [List.getElem_append_right (by omega)]
        exact List.getElem_mem _
      have := hlater old[i] (List.getElem_mem _) _ hmem
      have hy : r.year = (old ++ new)[old.length + k].year := by rw [← hk]
      simp only [decide_eq_true_eq]
      omega
    rw [hnew, List.append_nil]
    apply filter_eq_of_forall₂
    rw [List.forall₂_iff_get]
    refine ⟨by rw [List.length_take, length_withVals la, length_withVals lo, List.length_append]; omega, fun j h1 h2 => ?_⟩
    rw [length_withVals lo] at h2
    simp only [List.get_eq_getElem, List.getElem_take, decide_eq_false_iff_not]
    have e1 : (withVals (old ++ new) va)[j]? = some { old[j] with val := va[j]'(by rw [la, List.length_append]; omega) } :=
      withVals_getElem? (by rw [List.getElem?_append_left h2]; exact List.getElem?_eq_getElem h2) (List.getElem?_eq_getElem _)
    have e2 : (withVals old vo)[j]? = some { old[j] with val := vo[j]'(by omega) } :=
      withVals_getElem? (List.getElem?_eq_getElem h2) (List.getElem?_eq_getElem _)
    rw [(List.getElem?_eq_some_iff.1 e1).2, (List.getElem?_eq_some_iff.1 e2).2]
    by_cases hd : old[j].doy = old[i].doy ∧ old[j].year < old[i].year
    · left
      have hj := hsp j i _ _ (List.getElem?_eq_getElem h2) (List.getElem?_eq_getElem hi) hd.1 hd.2
      have := rollMean_append (w := w) (xs := old.map Sample.val) (ys := new.map Sample.val) (i := j) (by rw [List.length_map]; omega)
      rw [← List.map_append, ← hva, ← hvo, List.getElem?_eq_getElem (by rw [la, List.length_append]; omega),
        List.getElem?_eq_getElem (by omega), Option.some.injEq] at this
      rw [this]
    · right
      exact ⟨fun h => hd ⟨h.1, h.2.2⟩, fun h => hd ⟨h.1, h.2.2⟩⟩
  rw [hb]

theorem length_shiftingAnomaly (W w : Nat) (record : List Sample) : (shiftingAnomaly W w record).length = record.length := by
  unfold shiftingAnomaly
  apply length_withVals
  simp [smoothedClim, rollingClim, withVals, length_rollMean]

theorem shiftingAnomaly_append (W w : Nat) (old new : List Sample) (hne : old ≠ []) (hlater : ∀ r ∈ old, ∀ s ∈ new, r.year ≤ s.year)
    (hsp : SparseDays w old) : (shiftingAnomaly W w (old ++ new)).take old.length = shiftingAnomaly W w old := by
  apply List.ext_getElem?
  intro i
  by_cases hi : i < old.length
  · rw [List.getElem?_take_of_lt hi]
    unfold shiftingAnomaly withVals
    rw [List.getElem?_zipWith, List.getElem?_zipWith, List.getElem?_zipWith, List.getElem?_zipWith, List.getElem?_map, List.getElem?_map,
      smoothedClim_append W w old new hne hlater hsp i hi, List.getElem?_append_left hi]
  · rw [List.getElem?_eq_none (by rw [List.length_take, length_shiftingAnomaly, List.length_append]; omega),
      List.getElem?_eq_none (by rw [length_shiftingAnomaly]; omega)]

/-- **C185**: appending later data to a record changes none of the shifting-baseline anomalies: the new output is the old one followed by that of the
new steps, for every window of years and every smoothing window less than twice the distance between the same days of different years. -/
theorem C185_appended_data (W w : Nat) (old new : List Sample) (hne : old ≠ []) (hlater : ∀ r ∈ old, ∀ s ∈ new, r.year ≤ s.year)
    (hsp : SparseDays w old) (out : List Sample) (h : shiftingBaseline W w old = .ok out) :
    ∃ more, shiftingBaseline W w (old ++ new) = .ok (out ++ more) ∧ more.length ≤ new.length := by
  have hs := shiftingAnomaly_append W w old new hne hlater hsp
  have hsdo : SameDates (shiftingAnomaly W w old) old := sameDates_withVals (by simp [smoothedClim, rollingClim, withVals, length_rollMean])
  have hsda : SameDates (shiftingAnomaly W w (old ++ new)) (old ++ new) :=
    sameDates_withVals (by simp [smoothedClim, rollingClim, withVals, length_rollMean])
  have hmin : minYear (shiftingAnomaly W w (old ++ new)) = minYear (shiftingAnomaly W w old) := by
    rw [minYear_congr hsda, minYear_congr hsdo]
    obtain ⟨r, hr, hry⟩ := minYear_mem hne
    obtain ⟨q, hq, hqy⟩ := minYear_mem (record := old ++ new) (by simp [hne])
    have h1 := minYear_le (record := old ++ new) (List.mem_append_left new hr)
    rcases List.mem_append.1 hq with h | h
    · have := minYear_le h; omega
    · have := hlater r hr q h; omega
  have hmax : maxYear (shiftingAnomaly W w old) ≤ maxYear (shiftingAnomaly W w (old ++ new)) := by
    rw [maxYear_congr hsda, maxYear_congr hsdo]
    obtain ⟨r, hr, hry⟩ := maxYear_mem hne
    rw [← hry]
    exact le_maxYear (List.mem_append_left new hr)
  unfold shiftingBaseline trimShifting at h ⊢
  simp only [] at h ⊢
  split at h
  · cases h
  rename_i hlong
  rw [if_neg (by omega)]
  simp only [Except.ok.injEq] at h
  rw [hmin]
  refine ⟨((shiftingAnomaly W w (old ++ new)).drop old.length).filter fun s => decide (minYear (shiftingAnomaly W w old) + W ≤ s.year), ?_, ?_⟩
  · rw [← h, Except.ok.injEq]
    conv_lhs => rw [← List.take_append_drop old.length (shiftingAnomaly W w (old ++ new)), hs, List.filter_append]
  · refine le_trans (List.length_filter_le _ _) ?_
    rw [List.length_drop, length_shiftingAnomaly, List.length_append]
    omega

/-- Data at `perYear` regular steps a year meet the condition for every smoothing window of up to two years. -/
theorem sparse_of_regular (perYear w : Nat) (hw : w ≤ 2 * perYear) (record : List Sample) (first : Nat)
    (hreg : ∀ (i : Nat) (s : Sample), record[i]? = some s → perYear * s.year + s.doy = first + i) : SparseDays w record := by
  intro j i r s hr hs hd hy
  have h1 := hreg j r hr
  have h2 := hreg i s hs
  have h3 : perYear * (r.year + 1) ≤ perYear * s.year := Nat.mul_le_mul_left _ hy
  rw [Nat.mul_add, Nat.mul_one] at h3
  omega

/-- Daily data of a calendar without leap days. -/
example : SparseDays 21 ((List.range 1000).map fun i => (⟨2000 + i / 365, i % 365, some 0⟩ : Sample)) := by
  refine sparse_of_regular 365 21 (by norm_num) _ (365 * 2000) ?_
  intro i s h
  rw [List.getElem?_map] at h
  cases hi : (List.range 1000)[i]? with
  | none => rw [hi] at h; cases h
  | some k =>
    rw [hi, Option.map_some, Option.some.injEq] at h
    have : k = i := by
      obtain ⟨hl, he⟩ := List.getElem?_eq_some_iff.1 hi
      rw [List.getElem_range] at he
      omega
    subst h this
    simp only []
    omega

/-- Four years with two days each, and two later ones. -/
def fourTwoDayYears : List Sample := [⟨2000, 1, some 1⟩, ⟨2000, 2, some 2⟩, ⟨2001, 1, some 3⟩, ⟨2001, 2, some 5⟩, ⟨2002, 1, some 4⟩, ⟨2002, 2, some 4⟩,
  ⟨2003, 1, some 9⟩, ⟨2003, 2, some 7⟩]
def laterYears : List Sample := [⟨2004, 1, some 30⟩, ⟨2004, 2, some 40⟩]

/-- A concrete case, with anomalies in the old part. -/
theorem fourTwoDayYears_sparse : SparseDays 3 fourTwoDayYears := by
  refine sparse_of_regular 2 3 (by norm_num) _ 4001 ?_
  intro i s h
  have hi : i < 8 := (List.getElem?_eq_some_iff.1 h).1
  interval_cases i <;> simp [fourTwoDayYears] at h <;> subst h <;> rfl

example : (match shiftingBaseline 2 3 fourTwoDayYears, shiftingBaseline 2 3 (fourTwoDayYears ++ laterYears) with
    | .ok a, .ok b => decide (a.length = 4 ∧ b.length = 6 ∧ a = b.take 4 ∧ (a.map Sample.val).count none = 0) | _, _ => false) = true := by decide +kernel

/-- C185 for `preprocess_data`: both records pass the checks; then each cell's anomalies of the shorter one begin those of the longer one, with the
same mask. -/
theorem C185_preprocess (gridded : Bool) (P P' : ExtParams) (W w ny nx : Nat) (old new : Nat → Nat → List Sample) (hne : ∀ y x, old y x ≠ [])
    (hlater : ∀ y x, ∀ r ∈ old y x, ∀ s ∈ new y x, r.year ≤ s.year) (hsp : ∀ y x, SparseDays w (old y x)) (out out' : PrepOut)
    (h : preprocess gridded (.shifting W w) P ny nx old = .ok out)
    (h' : preprocess gridded (.shifting W w) P' ny nx (fun y x => old y x ++ new y x) = .ok out') :
    out'.mask = out.mask ∧ ∀ y x, out.anomalies y x <+: out'.anomalies y x := by
  unfold preprocess at h h'
  split at h
  · cases h
  split at h
  · cases h
  simp only [] at h h'
  split at h
  · cases h
  split at h'
  · cases h'
  split at h'
  · cases h'
  split at h'
  · cases h'
  simp only [Except.ok.injEq] at h h'
  subst h h'
  refine ⟨?_, fun y x => ?_⟩
  · funext y x
    simp only [methodMask, oceanMask]
    cases hc : old y x with
    | nil => exact absurd hc (hne y x)
    | cons a l => simp
  · simp only [anomalyCell]
    cases hs : shiftingBaseline W w (old y x) with
    | error e => simp [okAnomalies]
    | ok r =>
      obtain ⟨more, hm, _⟩ := C185_appended_data W w (old y x) (new y x) (hne y x) (hlater y x) (hsp y x) r hs
      rw [hm]
      exact ⟨more, rfl⟩

example : (match preprocess true (.shifting 2 3) ⟨"global_extreme", 75, some 11, none, "approximate", 1, 3⟩ 1 1 (fun _ _ => fourTwoDayYears),
      preprocess true (.shifting 2 3) ⟨"global_extreme", 75, some 11, none, "approximate", 1, 3⟩ 1 1 (fun _ _ => fourTwoDayYears ++ laterYears) with
    | .ok _, .ok _ => true | _, _ => false) = true := by decide +kernel

/-- The condition matters: with a smoothing window wider than the distance between years the old anomalies change. -/
theorem C185_wide_window : ∃ out out', shiftingBaseline 2 7 fourTwoDayYears = .ok out ∧ shiftingBaseline 2 7 (fourTwoDayYears ++ laterYears) = .ok out' ∧
    ¬ out <+: out' := by
  have h : (match shiftingBaseline 2 7 fourTwoDayYears, shiftingBaseline 2 7 (fourTwoDayYears ++ laterYears) with
    | .ok a, .ok b => decide (¬ a <+: b) | _, _ => false) = true := by decide +kernel
  split at h
  · rename_i a b ha hb
    exact ⟨a, b, ha, hb, of_decide_eq_true h⟩
  · cases h

/-- With the fixed baseline new data change the old anomalies: one more value of a day of year other than its mean moves every anomaly of that day. -/
theorem C185_fixed_baseline_moves (old : List Sample) (d : Nat) (m v : ℚ) (y : Nat) (hm : dailyClim old d = some m) (hv : v ≠ m) (i : Nat) (s : Sample)
    (hs : old[i]? = some s) (hd : s.doy = d) (hval : s.val.isSome) :
    (fixedAnomaly (old ++ [⟨y, d, some v⟩]))[i]? ≠ (fixedAnomaly old)[i]? := by
  rw [fixedAnomaly, fixedAnomaly, List.getElem?_map, List.getElem?_map, List.getElem?_append_left (List.getElem?_eq_some_iff.1 hs).1, hs]
  simp only [Option.map_some, ne_eq, Option.some.injEq, Sample.mk.injEq, true_and, hd, hm]
  obtain ⟨q, hq⟩ := Option.isSome_iff_exists.1 hval
  unfold dailyClim nanMean at hm ⊢
  simp only [] at hm ⊢
  rw [List.filter_append, List.map_append, List.filterMap_append]
  set V := (List.map Sample.val (List.filter (fun s => decide (s.doy = d)) old)).filterMap id with hV
  have hl : ((List.map Sample.val (List.filter (fun s => decide (s.doy = d)) [(⟨y, d, some v⟩ : Sample)])).filterMap id) = [v] := by simp
  rw [hl]
  split at hm
  · cases hm
  rename_i hne
  rw [if_neg (by simp)]
  simp only [Option.some.injEq] at hm
  rw [hq]
  simp only [nanSub, Option.some.injEq, List.sum_append, List.sum_singleton, List.length_append, List.length_singleton]
  have hpos : (0 : ℚ) < V.length := by
    have : V ≠ [] := by simpa using hne
    exact_mod_cast List.length_pos_iff.2 this
  have hsum : V.sum = m * V.length := by rw [← hm]; field_simp
  rw [hsum]
  intro h
  apply hv
  push_cast at h
  have h2 : (m * V.length + v) / (V.length + 1) = m := by linarith
  rw [div_eq_iff (by positivity)] at h2
  linarith

example : dailyClim fourTwoDayYears 1 = some (17 / 4) ∧ fourTwoDayYears[0]? = some ⟨2000, 1, some 1⟩ := by decide +kernel

end MarEx.Props
