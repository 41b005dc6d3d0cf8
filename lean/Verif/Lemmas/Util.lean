import Verif.Model.Util
import Mathlib.Tactic.Linarith
import Mathlib.Tactic.Positivity
import Mathlib.Tactic.GCongr
import Mathlib.Data.List.GetD
/-! Lemmas about the numpy routines. -/
namespace MarEx

theorem foldl_max_ge (l : List Nat) (m : Nat) : m ≤ l.foldl max m ∧ ∀ a ∈ l, a ≤ l.foldl max m := by
  induction l generalizing m with
  | nil => simp
  | cons x l ih =>
    simp only [List.foldl_cons]
    have := ih (max m x)
    refine ⟨by omega, fun a ha => ?_⟩
    rcases List.mem_cons.mp ha with rfl | ha
    · omega
    · exact this.2 a ha

theorem mem_npUnique {l : List Nat} {k : Nat} : k ∈ npUnique l ↔ k ∈ l := by
  unfold npUnique
  simp only [List.mem_filter, List.mem_range, List.contains_iff_mem]
  constructor
  · exact fun h => h.2
  · intro h; exact ⟨by have := (foldl_max_ge l 0).2 k h; omega, h⟩

theorem nodup_npUnique (l : List Nat) : (npUnique l).Nodup := List.nodup_range.filter _

theorem sorted_npUnique (l : List Nat) : (npUnique l).Pairwise (· < ·) := List.pairwise_lt_range.filter _

theorem sorted_getD {s : List ℚ} (h : s.Pairwise (· ≤ ·)) {i j : Nat} (hij : i ≤ j) (hj : j < s.length) :
    s.getD i 0 ≤ s.getD j 0 := by
  rw [List.getD_eq_getElem _ _ (by omega), List.getD_eq_getElem _ _ hj]
  rcases Nat.lt_or_eq_of_le hij with h1 | h1
  · exact List.pairwise_iff_getElem.mp h i j (by omega) hj h1
  · subst h1; exact le_refl _

theorem sorted_sortQ (xs : List ℚ) : (xs.mergeSort (fun a b => decide (a ≤ b))).Pairwise (· ≤ ·) := by
  have := List.pairwise_mergeSort (le := fun a b : ℚ => decide (a ≤ b)) (by
    intro a b c h1 h2; simp only [decide_eq_true_eq] at *; exact le_trans h1 h2) (by
    intro a b; simp only [Bool.or_eq_true, decide_eq_true_eq]; exact le_total a b) xs
  simpa using this

theorem length_sortQ (xs : List ℚ) : (xs.mergeSort (fun a b => decide (a ≤ b))).length = xs.length :=
  List.length_mergeSort ..

theorem mem_sortQ {xs : List ℚ} {a : ℚ} : a ∈ xs.mergeSort (fun a b => decide (a ≤ b)) ↔ a ∈ xs :=
  List.mem_mergeSort

/-- The percentile lies between two values of the sample which are neighbours in the sorted sample. -/
theorem percentile_between (xs : List ℚ) (q : ℚ) (hne : xs ≠ []) (h0 : 0 ≤ q) (h1 : q ≤ 1) :
    let s := xs.mergeSort (fun a b => decide (a ≤ b))
    let k := ⌊q * ((s.length : ℚ) - 1)⌋.toNat
    k < s.length ∧ s.getD k 0 ≤ percentile xs q ∧ percentile xs q ≤ s.getD (min (k + 1) (s.length - 1)) 0 := by
  intro s k
  have hlen : s.length = xs.length := length_sortQ xs
  have hpos : 0 < s.length := by rw [hlen]; exact List.length_pos_of_ne_nil hne
  have hposq : (1 : ℚ) ≤ s.length := by exact_mod_cast hpos
  set v : ℚ := q * ((s.length : ℚ) - 1) with hv
  have hv0 : 0 ≤ v := mul_nonneg h0 (by linarith)
  have hv1 : v ≤ (s.length : ℚ) - 1 := by
    have := mul_le_mul_of_nonneg_right h1 (show (0:ℚ) ≤ (s.length : ℚ) - 1 by linarith)
    linarith
  have hfl : (0 : Int) ≤ ⌊v⌋ := Int.floor_nonneg.mpr hv0
  have hk : ((k : Int)) = ⌊v⌋ := Int.toNat_of_nonneg hfl
  have hkq : ((k : ℚ)) = ((⌊v⌋ : Int) : ℚ) := by rw [← hk]; simp
  have hk1 : (k : ℚ) ≤ v := by rw [hkq]; exact Int.floor_le v
  have hk2 : v < (k : ℚ) + 1 := by rw [hkq]; exact Int.lt_floor_add_one v
  have hklt : k < s.length := by
    have : (k : ℚ) < s.length := by linarith
    exact_mod_cast this
  have hsorted := sorted_sortQ xs
  have hm1 : k ≤ min (k + 1) (s.length - 1) := by omega
  have hm2 : min (k + 1) (s.length - 1) < s.length := by omega
  have hle : s.getD k 0 ≤ s.getD (min (k + 1) (s.length - 1)) 0 := sorted_getD hsorted hm1 hm2
  have hp : percentile xs q = s.getD k 0 + (v - k) * (s.getD (min (k + 1) (s.length - 1)) 0 - s.getD k 0) := rfl
  refine ⟨hklt, ?_, ?_⟩
  · rw [hp]
    have : 0 ≤ (v - k) * (s.getD (min (k + 1) (s.length - 1)) 0 - s.getD k 0) := mul_nonneg (by linarith) (by linarith)
    linarith
  · rw [hp]
    have : (v - k) * (s.getD (min (k + 1) (s.length - 1)) 0 - s.getD k 0) ≤ 1 * (s.getD (min (k + 1) (s.length - 1)) 0 - s.getD k 0) :=
      mul_le_mul_of_nonneg_right (by linarith) (by linarith)
    linarith

/-- The percentile is bounded below by a sample value and above by a sample value. -/
theorem percentile_bounds (xs : List ℚ) (q : ℚ) (hne : xs ≠ []) (h0 : 0 ≤ q) (h1 : q ≤ 1) :
    (∃ a ∈ xs, a ≤ percentile xs q) ∧ (∃ b ∈ xs, percentile xs q ≤ b) := by
  obtain ⟨hk, hl, hu⟩ := percentile_between xs q hne h0 h1
  have hpos := List.length_pos_of_ne_nil hne
  rw [← length_sortQ xs] at hpos
  constructor
  · refine ⟨_, ?_, hl⟩
    rw [List.getD_eq_getElem _ _ hk]
    exact mem_sortQ.mp (List.getElem_mem _)
  · refine ⟨_, ?_, hu⟩
    rw [List.getD_eq_getElem _ _ (by omega)]
    exact mem_sortQ.mp (List.getElem_mem _)

end MarEx
