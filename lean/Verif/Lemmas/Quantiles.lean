import Verif.Lemmas.Util
import Verif.Spec.Objects
import Mathlib.Tactic.Ring
/-! The modelled `np.percentile` is the linear-interpolation quantile. -/
namespace MarEx
open MarEx.Spec

theorem percentile_isQuantile (xs : List ℚ) (q : ℚ) (hne : xs ≠ []) (h0 : 0 ≤ q) (h1 : q ≤ 1) :
    IsQuantile (xs : Multiset ℚ) q (percentile xs q) := by
  set s := xs.mergeSort (fun a b => decide (a ≤ b)) with hs
  have hlen : s.length = xs.length := length_sortQ xs
  have hpos : 0 < s.length := by rw [hlen]; exact List.length_pos_of_ne_nil hne
  have hposq : (1 : ℚ) ≤ s.length := by exact_mod_cast hpos
  set v : ℚ := q * ((s.length : ℚ) - 1) with hv
  have hv0 : 0 ≤ v := mul_nonneg h0 (by linarith)
  have hv1 : v ≤ (s.length : ℚ) - 1 := by
    have := mul_le_mul_of_nonneg_right h1 (show (0:ℚ) ≤ (s.length : ℚ) - 1 by linarith)
    linarith
  have hfl : (0 : Int) ≤ ⌊v⌋ := Int.floor_nonneg.mpr hv0
  set k := ⌊v⌋.toNat with hkdef
  have hk : ((k : Int)) = ⌊v⌋ := Int.toNat_of_nonneg hfl
  have hkq : ((k : ℚ)) = ((⌊v⌋ : Int) : ℚ) := by rw [← hk]; simp
  have hk1 : (k : ℚ) ≤ v := by rw [hkq]; exact Int.floor_le v
  have hk2 : v < (k : ℚ) + 1 := by rw [hkq]; exact Int.lt_floor_add_one v
  have hklt : k < s.length := by
    have : (k : ℚ) < s.length := by linarith
    exact_mod_cast this
  refine ⟨s, k, v - k, s.getD k 0, s.getD (min (k + 1) (s.length - 1)) 0, ?_, sorted_sortQ xs, by linarith, by linarith, by ring, ?_, ?_, rfl⟩
  · exact Multiset.coe_eq_coe.mpr (List.mergeSort_perm _ _)
  · rw [List.getD_eq_getElem _ _ hklt, List.getElem?_eq_getElem hklt]
  · by_cases h : k + 1 < s.length
    · left
      have : min (k + 1) (s.length - 1) = k + 1 := by omega
      rw [this, List.getD_eq_getElem _ _ h, List.getElem?_eq_getElem h]
    · right
      have : k = s.length - 1 := by omega
      have h2 : (k : ℚ) = (s.length : ℚ) - 1 := by
        rw [this, Nat.cast_sub (by omega)]; simp
      linarith

/-- The quantile is determined by the numbers. -/
theorem IsQuantile.unique {xs : Multiset ℚ} {q v w : ℚ} (h : IsQuantile xs q v) (h' : IsQuantile xs q w) : v = w := by
  obtain ⟨s, k, r, lo, hi, hs, hsort, hr0, hr1, hp, hlo, hhi, rfl⟩ := h
  obtain ⟨s', k', r', lo', hi', hs', hsort', hr0', hr1', hp', hlo', hhi', rfl⟩ := h'
  have hperm : s.Perm s' := Multiset.coe_eq_coe.mp (hs.trans hs'.symm)
  have he : s = s' := hperm.eq_of_pairwise (fun a b _ _ h1 h2 => le_antisymm h1 h2) hsort hsort'
  subst he
  have hkr : (k : ℚ) + r = k' + r' := by rw [← hp, hp']
  have hkk : k = k' := by
    have a : (k : ℚ) < k' + 1 := by linarith
    have b : (k' : ℚ) < k + 1 := by linarith
    have a' : k < k' + 1 := by exact_mod_cast a
    have b' : k' < k + 1 := by exact_mod_cast b
    omega
  subst hkk
  have hrr : r = r' := by linarith
  subst hrr
  rw [hlo] at hlo'
  obtain rfl : lo = lo' := by simpa using hlo'
  rcases hhi with h1 | h1
  · rcases hhi' with h2 | h2
    · rw [h1] at h2
      obtain rfl : hi = hi' := by simpa using h2
      rfl
    · simp [h2]
  · simp [h1]

theorem cellCount_eq_size {n : Nat} (f : Fin n → Nat) (k : Nat) : ((List.finRange n).filter fun i => f i == k).length = size f k := by
  unfold size
  have hnd : ((List.finRange n).filter fun i => f i == k).Nodup := (List.nodup_finRange n).filter _
  rw [← List.toFinset_card_of_nodup hnd]
  congr 1
  ext i
  simp

end MarEx
