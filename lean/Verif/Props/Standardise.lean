import Verif.Model.Standardise
import Verif.Props.Detrend
import Verif.Lemmas.Util
/-! C68 (standardised anomalies), C129 (records without all days of year). -/
namespace MarEx.Spec

/-- The mean of the values at the steps of day `d`. -/
noncomputable def meanOnDay {n : Nat} (doy : Fin n → Nat) (a : Fin n → ℝ) (d : Nat) : ℝ :=
  (∑ t with doy t = d, a t) / ((Finset.univ.filter fun t => doy t = d).card : ℝ)

/-- Their variance. -/
noncomputable def varianceOnDay {n : Nat} (doy : Fin n → Nat) (a : Fin n → ℝ) (d : Nat) : ℝ :=
  meanOnDay doy (fun t => (a t - meanOnDay doy a d) ^ 2) d

/-- The day of year `k` days after day `d`, going around a year of 366 days. -/
def dayAfter (d : Nat) (k : Int) : Nat := ((d - 1 + k : Int) % 366).toNat + 1

end MarEx.Spec

namespace MarEx.Props
open MarEx Spec

theorem dayStd_sq {n : Nat} (doy : Fin n → Nat) (a : Fin n → ℝ) (d : Nat) : dayStd doy a d ^ 2 = varianceOnDay doy a d := by
  unfold dayStd varianceOnDay meanOnDay
  exact Real.sq_sqrt (div_nonneg (Finset.sum_nonneg fun t _ => sq_nonneg _) (Nat.cast_nonneg _))

theorem sorted_eq_of_mem {l m : List Nat} (hl : l.Pairwise (· < ·)) (hm : m.Pairwise (· < ·)) (h : ∀ k, k ∈ l ↔ k ∈ m) : l = m :=
  List.Perm.eq_of_pairwise (fun a b _ _ h1 h2 => absurd (Nat.lt_trans h1 h2) (Nat.lt_irrefl _)) hl hm
    ((List.perm_ext_iff_of_nodup (hl.imp (fun h => Nat.ne_of_lt h)) (hm.imp (fun h => Nat.ne_of_lt h))).mpr h)

theorem days_all {n : Nat} (doy : Fin n → Nat) (hr : ∀ t, 1 ≤ doy t ∧ doy t ≤ 366) (hall : ∀ d, 1 ≤ d → d ≤ 366 → ∃ t, doy t = d) :
    npUnique ((List.finRange n).map doy) = (List.range 366).map (· + 1) := by
  refine sorted_eq_of_mem (sorted_npUnique _) ?_ fun k => ?_
  · rw [List.pairwise_map]; exact List.pairwise_lt_range.imp fun h => by omega
  · rw [mem_npUnique]
    simp only [List.mem_map, List.mem_finRange, true_and, List.mem_range]
    constructor
    · rintro ⟨t, rfl⟩; exact ⟨doy t - 1, by have := hr t; omega, by have := hr t; omega⟩
    · rintro ⟨d, hd, rfl⟩; exact hall (d + 1) (by omega) (by omega)

theorem lookup_range {β : Type} (f : Nat → β) (m d : Nat) (hd : d < m) : ((List.range m).map fun d => (d + 1, f d)).lookup (d + 1) = some (f d) := by
  induction m with
  | zero => omega
  | succ m ih =>
    rw [List.range_succ, List.map_append, List.lookup_append]
    by_cases h : d < m
    · rw [ih h]; rfl
    · obtain rfl : d = m := by omega
      have : ((List.range d).map fun d => (d + 1, f d)).lookup (d + 1) = none := by
        rw [List.lookup_eq_none_iff]
        intro p hp
        obtain ⟨e, he, rfl⟩ := List.mem_map.mp hp
        rw [List.mem_range] at he
        simp; omega
      rw [this]
      simp [List.lookup]

/-- **C68**: on a record in which all 366 days of year occur, the standardised anomaly of every step is its anomaly divided by the root mean square of the
standard deviations of the anomalies on the thirty days of year from 15 before to 14 after its own, around the end of the year; it is missing exactly where that
is at most 1e-10. -/
theorem C68_standardised_anomalies {n : Nat} (doy : Fin n → Nat) (a : Fin n → ℝ) (hr : ∀ t, 1 ≤ doy t ∧ doy t ≤ 366)
    (hall : ∀ d, 1 ≤ d → d ≤ 366 → ∃ t, doy t = d) :
    ∃ r, standardised doy a = .ok r ∧ ∀ t,
      let s := Real.sqrt ((∑ k ∈ Finset.range 30, varianceOnDay doy a (dayAfter (doy t) ((k : Int) - 15))) / 30)
      (1 / 10 ^ 10 < s → r t = some (a t / s)) ∧ (s ≤ 1 / 10 ^ 10 → r t = none) := by
  classical
  have hd : stdDay doy a = (List.range 366).map fun d => (d + 1, dayStd doy a (d + 1)) := by
    unfold stdDay
    rw [days_all doy hr hall, List.map_map]
    rfl
  have hroll := C68_standardisation_window fun d => dayStd doy a (d + 1)
  unfold standardised
  rw [hd, hroll]
  dsimp only
  rw [if_pos (by
    rw [List.map_map]
    exact List.nodup_range.map fun x y h => by simpa using h)]
  refine ⟨_, rfl, fun t => ?_⟩
  obtain ⟨h1, h2⟩ := hr t
  have hl := lookup_range (fun d => some (Real.sqrt (((List.range 30).map fun k => dayStd doy a ((d + 351 + k) % 366 + 1) ^ 2).sum / 30))) 366 (doy t - 1)
    (by omega)
  rw [Nat.sub_add_cancel h1] at hl
  rw [hl]
  have hs : ((List.range 30).map fun k => dayStd doy a ((doy t - 1 + 351 + k) % 366 + 1) ^ 2).sum =
      ∑ k ∈ Finset.range 30, varianceOnDay doy a (dayAfter (doy t) ((k : Int) - 15)) := by
    rw [← List.sum_toFinset _ List.nodup_range, List.toFinset_range]
    refine Finset.sum_congr rfl fun k _ => ?_
    rw [dayStd_sq]
    congr 1
    unfold dayAfter
    omega
  rw [hs]
  dsimp only
  exact ⟨fun h => if_pos h, fun h => if_neg (not_lt.mpr h)⟩

/-- A record of one leap year. -/
example : (∀ t : Fin 366, 1 ≤ t.val + 1 ∧ t.val + 1 ≤ 366) ∧ ∀ d, 1 ≤ d → d ≤ 366 → ∃ t : Fin 366, t.val + 1 = d :=
  ⟨fun t => ⟨by omega, by omega⟩, fun d h1 h2 => ⟨⟨d - 1, by omega⟩, by show d - 1 + 1 = d; omega⟩⟩

theorem stdRolling_repeats (l : List (Nat × ℝ)) (h1 : 16 ≤ l.length) (h2 : l.length < 366) : ¬ ((stdRolling l).map Prod.fst).Nodup := by
  have hlen : (wrapPad 16 l).length = l.length + 32 := by simp [wrapPad]; omega
  have key : ∀ i, i < l.length + 16 → i < 366 → ((stdRolling l).map Prod.fst)[i]? = (l[i % l.length]?).map Prod.fst := by
    intro i hi hi'
    unfold stdRolling
    dsimp only
    rw [List.getElem?_map, List.getElem?_take, if_pos hi', List.getElem?_drop, List.getElem?_map, List.getElem?_range (by omega)]
    simp only [Option.map_some]
    rw [List.getD_eq_getElem?_getD, List.getElem?_map, wrapPad_getElem? l h1 _ (by omega),
      show (16 + i + l.length - 16) = i + l.length by omega, Nat.add_mod_right]
    have : i % l.length < l.length := Nat.mod_lt _ (by omega)
    rw [List.getElem?_eq_getElem this]
    rfl
  intro hn
  have e1 := key 0 (by omega) (by omega)
  have e2 := key l.length (by omega) h2
  rw [Nat.mod_self] at e2
  rw [Nat.zero_mod] at e1
  have h0 : (0 : Nat) < l.length := by omega
  rw [List.getElem?_eq_getElem h0] at e1 e2
  have b2 : l.length < ((stdRolling l).map Prod.fst).length := (List.getElem?_eq_some_iff.mp e2).1
  have b1 : 0 < ((stdRolling l).map Prod.fst).length := by omega
  rw [List.getElem?_eq_getElem b1] at e1
  rw [List.getElem?_eq_getElem b2] at e2
  have := (List.Nodup.getElem_inj_iff hn).mp ((Option.some.inj e1).trans (Option.some.inj e2).symm)
  omega

/-- **C129 fails** for every record of at least 16 different days of year that does not contain all 366 of them, in particular for every record without a leap
year: the standard deviations contain a day twice and the standardisation raises. -/
theorem C129_needs_all_days_fails {n : Nat} (doy : Fin n → Nat) (a : Fin n → ℝ) (hr : ∀ t, 1 ≤ doy t ∧ doy t ≤ 366)
    (h16 : 16 ≤ (Finset.univ.image doy).card) (d : Nat) (hd : 1 ≤ d ∧ d ≤ 366) (hmiss : ∀ t, doy t ≠ d) :
    standardised doy a = .error .duplicateDays := by
  classical
  have hset : (npUnique ((List.finRange n).map doy)).toFinset = Finset.univ.image doy := by
    ext k
    rw [List.mem_toFinset, mem_npUnique]
    simp
  have hcard : (npUnique ((List.finRange n).map doy)).length = (Finset.univ.image doy).card := by
    rw [← hset, List.toFinset_card_of_nodup (nodup_npUnique _)]
  have hlt : (Finset.univ.image doy).card < 366 := by
    have hsub : Finset.univ.image doy ⊆ (Finset.Icc 1 366).erase d := by
      intro k hk
      obtain ⟨t, _, rfl⟩ := Finset.mem_image.mp hk
      exact Finset.mem_erase.mpr ⟨hmiss t, Finset.mem_Icc.mpr (hr t)⟩
    have := Finset.card_le_card hsub
    rw [Finset.card_erase_of_mem (Finset.mem_Icc.mpr hd), Nat.card_Icc] at this
    omega
  unfold standardised
  dsimp only
  rw [if_neg (stdRolling_repeats _ (by simp [stdDay, hcard, h16]) (by simp [stdDay, hcard, hlt]))]

/-- A record of one common year. -/
example (a : Fin 365 → ℝ) : standardised (fun t : Fin 365 => t.val + 1) a = .error .duplicateDays :=
  C129_needs_all_days_fails _ a (fun t => ⟨by omega, by omega⟩)
    (by rw [Finset.card_image_of_injective _ fun x y h => Fin.ext (by simpa using h)]; simp) 366 (by omega) fun t => by have := t.isLt; omega

end MarEx.Props
