import Verif.Model.Float
import Verif.Spec.Float
import Mathlib.Tactic.Linarith
import Mathlib.Tactic.FieldSimp
import Mathlib.Tactic.Ring
import Mathlib.Tactic.Positivity
import Mathlib.Tactic.NormNum
import Mathlib.Tactic.Zify
/-! Facts about rounding to `p` bits. -/
namespace MarEx
open MarEx.Spec

theorem roundEven_err (x : ℚ) : |x - roundEven x| ≤ 1 / 2 := by
  have h0 := Int.floor_le x
  have h1 := Int.lt_floor_add_one x
  unfold roundEven
  rw [abs_le]
  split
  · constructor <;> linarith
  · split
    · push_cast; constructor <;> linarith
    · split <;> push_cast <;> constructor <;> linarith

theorem roundEven_tie (x : ℚ) (h : |x - roundEven x| = 1 / 2) : Even (roundEven x) := by
  have h0 := Int.floor_le x
  have h1 := Int.lt_floor_add_one x
  unfold roundEven at h ⊢
  split at h
  · rename_i h2
    exfalso
    rw [abs_of_nonneg (by linarith)] at h
    linarith
  · rename_i h2
    split at h
    · rename_i h3
      exfalso
      push_cast at h
      rw [abs_of_nonpos (by linarith)] at h
      linarith
    · rename_i h3
      rw [if_neg h2, if_neg h3]
      split
      · rename_i h4; exact Int.even_iff.2 h4
      · rename_i h4
        rw [Int.even_iff]
        omega

theorem roundEven_nearest (x : ℚ) (k : ℤ) : |x - roundEven x| ≤ |x - k| := by
  by_cases h : k = roundEven x
  · rw [h]
  · have h1 := roundEven_err x
    have h2 : (1 : ℚ) ≤ |(k : ℚ) - roundEven x| := by
      have : (1 : ℤ) ≤ |k - roundEven x| := Int.one_le_abs (sub_ne_zero.2 h)
      exact_mod_cast this
    have h3 : |(k : ℚ) - roundEven x| ≤ |x - k| + |x - roundEven x| := by
      have := abs_sub_le (k : ℚ) x (roundEven x)
      rw [abs_sub_comm (k : ℚ) x] at this
      exact this
    linarith

theorem roundEven_unique (x : ℚ) (k : ℤ) (h : |x - k| < 1 / 2) : roundEven x = k := by
  by_contra hne
  have h1 := roundEven_nearest x k
  have h2 : (1 : ℚ) ≤ |(roundEven x : ℚ) - k| := by
    have : (1 : ℤ) ≤ |roundEven x - k| := Int.one_le_abs (sub_ne_zero.2 hne)
    exact_mod_cast this
  have h3 : |(roundEven x : ℚ) - k| ≤ |x - roundEven x| + |x - k| := by
    have := abs_sub_le (roundEven x : ℚ) x k
    rw [abs_sub_comm (roundEven x : ℚ) x] at this
    exact this
  linarith

theorem roundEven_int (k : ℤ) : roundEven k = k := roundEven_unique _ _ (by simp)

theorem roundEven_mono {x y : ℚ} (h : x ≤ y) : roundEven x ≤ roundEven y := by
  by_contra hlt
  rw [not_le] at hlt
  rcases h.lt_or_eq with h | h
  · have h1 := abs_le.1 (roundEven_err x)
    have h2 := abs_le.1 (roundEven_err y)
    have h3 : (roundEven y : ℚ) + 1 ≤ roundEven x := by exact_mod_cast hlt
    linarith [h1.1, h1.2, h2.1, h2.2]
  · rw [h] at hlt; exact absurd hlt (lt_irrefl _)

theorem ulp_pos (p : Nat) (x : ℚ) : 0 < ulp p x := by unfold ulp; exact zpow_pos (by norm_num) _

theorem fl_zero (p : Nat) : fl p 0 = 0 := by
  unfold fl
  have : roundEven ((0 : ℚ) / ulp p 0) = 0 := by
    rw [zero_div]
    exact_mod_cast roundEven_int 0
  rw [this]; simp

theorem two_pow_split (p : Nat) (a : ℤ) : (2 : ℚ) ^ a = (2 : ℚ) ^ p * (2 : ℚ) ^ (a - (p : ℤ)) := by
  rw [zpow_sub₀ (by norm_num), zpow_natCast]
  field_simp

/-- A positive number counted in its own spacing. -/
theorem fl_bounds (p : Nat) (hp : 1 ≤ p) (x : ℚ) (hx : 0 < x) :
    ∃ g : ℚ, ∃ E : ℤ, g = (2 : ℚ) ^ (E - (p : ℤ) + 1) ∧ (2 : ℚ) ^ E ≤ x ∧ x < (2 : ℚ) ^ (E + 1) ∧ fl p x = g * roundEven (x / g) ∧
      ulp p x = g ∧ (2 : ℚ) ^ (p - 1) * g = (2 : ℚ) ^ E ∧ (2 : ℚ) ^ (p - 1) ≤ x / g ∧ x / g < (2 : ℚ) ^ p ∧ 0 < g := by
  have habs : |x| = x := abs_of_pos hx
  have hE1 := Int.zpow_log_le_self (b := 2) (r := x) (by norm_num) hx
  have hE2 := Int.lt_zpow_succ_log_self (b := 2) (by norm_num) x
  push_cast at hE1 hE2
  have hg : ulp p x = (2 : ℚ) ^ (Int.log 2 x - (p : ℤ) + 1) := by unfold ulp; rw [habs]
  have hgpos : (0 : ℚ) < (2 : ℚ) ^ (Int.log 2 x - (p : ℤ) + 1) := zpow_pos (by norm_num) _
  have e1 : (2 : ℚ) ^ (p - 1) * (2 : ℚ) ^ (Int.log 2 x - (p : ℤ) + 1) = (2 : ℚ) ^ (Int.log 2 x) := by
    rw [two_pow_split (p - 1) (Int.log 2 x)]
    congr 2
    omega
  have e2 : (2 : ℚ) ^ p * (2 : ℚ) ^ (Int.log 2 x - (p : ℤ) + 1) = (2 : ℚ) ^ (Int.log 2 x + 1) := by
    rw [two_pow_split p (Int.log 2 x + 1)]
    congr 2
    omega
  refine ⟨_, Int.log 2 x, rfl, hE1, hE2, ?_, hg, e1, ?_, ?_, hgpos⟩
  · unfold fl; rw [hg]
  · rw [le_div_iff₀ hgpos, e1]; exact hE1
  · rw [div_lt_iff₀ hgpos, e2]; exact hE2

theorem fl_nonneg (p : Nat) (x : ℚ) (hx : 0 ≤ x) : 0 ≤ fl p x := by
  unfold fl
  have h0 : (0 : ℤ) ≤ roundEven (x / ulp p x) := by
    have := roundEven_mono (div_nonneg hx (ulp_pos p x).le)
    have h := roundEven_int 0
    push_cast at h
    rwa [h] at this
  have : (0 : ℚ) ≤ (roundEven (x / ulp p x) : ℚ) := by exact_mod_cast h0
  exact mul_nonneg (ulp_pos p x).le this

/-- The rounding error is at most half a spacing, that is at most `2⁻ᵖ` of the number. -/
theorem fl_err (p : Nat) (hp : 1 ≤ p) (x : ℚ) (hx : 0 ≤ x) : |x - fl p x| ≤ x / 2 ^ p := by
  rcases hx.lt_or_eq with hx | hx
  · obtain ⟨g, E, hg, hE1, hE2, hfl, hu, e1, h1, h2, hgpos⟩ := fl_bounds p hp x hx
    have he := roundEven_err (x / g)
    rw [hfl]
    have hd : x - g * roundEven (x / g) = g * (x / g - roundEven (x / g)) := by
      field_simp
    rw [hd, abs_mul, abs_of_pos hgpos]
    have hpp : (2 : ℚ) ^ p = 2 * 2 ^ (p - 1) := by
      conv_lhs => rw [show p = (p - 1) + 1 by omega, pow_succ]
      ring
    rw [le_div_iff₀ (by positivity), hpp]
    have h3 : (2 : ℚ) ^ (p - 1) * g ≤ x := by rw [e1]; exact hE1
    have h4 : g * |x / g - roundEven (x / g)| ≤ g * (1 / 2) := mul_le_mul_of_nonneg_left he hgpos.le
    have h5 : (0 : ℚ) < 2 ^ (p - 1) := by positivity
    nlinarith
  · subst hx; rw [fl_zero]; simp

theorem fl_le (p : Nat) (hp : 1 ≤ p) (x : ℚ) (hx : 0 ≤ x) : fl p x ≤ x * (1 + 1 / 2 ^ p) := by
  have := (abs_le.1 (fl_err p hp x hx)).1
  have e : x * (1 + 1 / 2 ^ p) = x + x / 2 ^ p := by ring
  rw [e]; linarith

theorem le_fl (p : Nat) (hp : 1 ≤ p) (x : ℚ) (hx : 0 ≤ x) : x * (1 - 1 / 2 ^ p) ≤ fl p x := by
  have := (abs_le.1 (fl_err p hp x hx)).2
  have e : x * (1 - 1 / 2 ^ p) = x - x / 2 ^ p := by ring
  rw [e]; linarith

/-- Representable numbers of one range are multiples of its spacing. -/
theorem representable_multiple (p : Nat) (hp : 1 ≤ p) (z : ℚ) (hz : Representable p z) (E : ℤ) (hE : (2 : ℚ) ^ E ≤ z) :
    ∃ k : ℤ, z = (k : ℚ) * (2 : ℚ) ^ (E - (p : ℤ) + 1) := by
  obtain ⟨m, e, hm, rfl⟩ := hz
  have hle : E - (p : ℤ) + 1 ≤ e := by
    by_contra hlt
    rw [not_le] at hlt
    have h1 : (m : ℚ) < 2 ^ p := by
      have : m < 2 ^ p := lt_of_le_of_lt (le_abs_self m) hm
      exact_mod_cast this
    have h2 : (m : ℚ) * (2 : ℚ) ^ e < 2 ^ p * (2 : ℚ) ^ e := mul_lt_mul_of_pos_right h1 (zpow_pos (by norm_num) _)
    have h3 : (2 : ℚ) ^ p * (2 : ℚ) ^ e ≤ (2 : ℚ) ^ E := by
      rw [two_pow_split p E]
      apply mul_le_mul_of_nonneg_left _ (by positivity)
      apply zpow_le_zpow_right₀ (by norm_num)
      omega
    linarith
  obtain ⟨d, hd⟩ := Int.eq_ofNat_of_zero_le (sub_nonneg.2 hle)
  refine ⟨m * 2 ^ d, ?_⟩
  have : e = (d : ℤ) + (E - (p : ℤ) + 1) := by omega
  rw [this, zpow_add₀ (by norm_num), zpow_natCast]
  push_cast
  ring

theorem representable_scaled (p : Nat) (m e : ℤ) (h0 : 0 ≤ m) (h : m ≤ 2 ^ p) (hp : 1 ≤ p) : Representable p ((m : ℚ) * (2 : ℚ) ^ e) := by
  rcases h.lt_or_eq with h | h
  · exact ⟨m, e, by rwa [abs_of_nonneg h0], rfl⟩
  · refine ⟨2 ^ (p - 1), e + 1, ?_, ?_⟩
    · rw [abs_of_nonneg (by positivity)]
      exact pow_lt_pow_right₀ (by norm_num) (by omega)
    · rw [h, zpow_add₀ (by norm_num)]
      push_cast
      conv_lhs => rw [show p = (p - 1) + 1 by omega, pow_succ]
      ring

theorem fl_representable (p : Nat) (hp : 1 ≤ p) (x : ℚ) (hx : 0 ≤ x) : Representable p (fl p x) := by
  rcases hx.lt_or_eq with hx | hx
  · obtain ⟨g, E, hg, hE1, hE2, hfl, hu, e1, h1, h2, hgpos⟩ := fl_bounds p hp x hx
    rw [hfl, hg, mul_comm]
    apply representable_scaled p _ _ _ _ hp
    · rw [← hg]
      have := roundEven_mono (x := 0) (y := x / g) (by positivity)
      have h := roundEven_int 0
      push_cast at h
      rwa [h] at this
    · rw [← hg]
      have := roundEven_mono h2.le
      have h := roundEven_int (2 ^ p)
      push_cast at h
      rwa [h] at this
  · subst hx
    rw [fl_zero]
    exact ⟨0, 0, by simp, by simp⟩

/-- The model rounds as specified. -/
theorem fl_roundsTo (p : Nat) (hp : 2 ≤ p) (x : ℚ) (hx : 0 < x) : RoundsTo p x (fl p x) := by
  have hp1 : 1 ≤ p := by omega
  obtain ⟨g, E, hg, hE1, hE2, hfl, hu, e1, h1, h2, hgpos⟩ := fl_bounds p hp1 x hx
  have hlow : (2 : ℤ) ^ (p - 1) ≤ roundEven (x / g) := by
    have := roundEven_mono h1
    have h := roundEven_int (2 ^ (p - 1))
    push_cast at h
    rwa [h] at this
  have hhigh : roundEven (x / g) ≤ (2 : ℤ) ^ p := by
    have := roundEven_mono h2.le
    have h := roundEven_int (2 ^ p)
    push_cast at h
    rwa [h] at this
  have hscale : ∀ k : ℤ, |x - k * g| = g * |x / g - k| := by
    intro k
    have : x - k * g = g * (x / g - k) := by field_simp
    rw [this, abs_mul, abs_of_pos hgpos]
  have hfl' : |x - fl p x| = g * |x / g - roundEven (x / g)| := by rw [hfl, mul_comm g, hscale]
  have hpow : |x - fl p x| ≤ |x - (2 : ℚ) ^ E| := by
    have := roundEven_nearest (x / g) (2 ^ (p - 1))
    have h3 := hscale (2 ^ (p - 1))
    push_cast at this h3
    rw [e1] at h3
    rw [hfl', h3]
    exact mul_le_mul_of_nonneg_left this hgpos.le
  have hsmall : ∀ z, z < (2 : ℚ) ^ E → |x - fl p x| < |x - z| := by
    intro z hz
    refine lt_of_le_of_lt hpow ?_
    rw [abs_of_nonneg (by linarith), abs_of_nonneg (by linarith)]
    linarith
  refine ⟨fl_representable p hp1 x hx.le, ?_, ?_⟩
  · intro z hz
    rcases le_or_gt ((2 : ℚ) ^ E) z with hle | hlt
    · obtain ⟨k, hk⟩ := representable_multiple p hp1 z hz E hle
      rw [hk, ← hg, hscale, hfl']
      exact mul_le_mul_of_nonneg_left (roundEven_nearest _ k) hgpos.le
    · exact (hsmall z hlt).le
  · intro z hz hne heq
    rcases le_or_gt ((2 : ℚ) ^ E) z with hle | hlt
    · obtain ⟨k, hk⟩ := representable_multiple p hp1 z hz E hle
      rw [← hg] at hk
      rw [hk, hscale, hfl'] at heq
      have heq' : |x / g - k| = |x / g - roundEven (x / g)| := mul_left_cancel₀ hgpos.ne' heq
      have hk' : k ≠ roundEven (x / g) := by
        intro h
        apply hne
        rw [hk, hfl, h, mul_comm]
      have h3 : (1 : ℚ) ≤ |(k : ℚ) - roundEven (x / g)| := by
        have : (1 : ℤ) ≤ |k - roundEven (x / g)| := Int.one_le_abs (sub_ne_zero.2 hk')
        exact_mod_cast this
      have h4 : |(k : ℚ) - roundEven (x / g)| ≤ |x / g - k| + |x / g - roundEven (x / g)| := by
        have := abs_sub_le (k : ℚ) (x / g) (roundEven (x / g))
        rw [abs_sub_comm (k : ℚ) (x / g)] at this
        exact this
      have h5 := roundEven_err (x / g)
      have hev := roundEven_tie (x / g) (by linarith)
      rcases hhigh.lt_or_eq with h | h
      · exact ⟨_, E - (p : ℤ) + 1, hev, hlow, h, by rw [hfl, hg, mul_comm]⟩
      · refine ⟨2 ^ (p - 1), E - (p : ℤ) + 2, ?_, le_refl _, ?_, ?_⟩
        · rw [show p - 1 = (p - 2) + 1 by omega, pow_succ]
          exact ⟨2 ^ (p - 2), by ring⟩
        · exact pow_lt_pow_right₀ (by norm_num) (by omega)
        · rw [hfl, h, show E - (p : ℤ) + 2 = (E - (p : ℤ) + 1) + 1 by ring, zpow_add₀ (by norm_num) _ 1, ← hg, zpow_one]
          have hpp : (2 : ℚ) ^ p = 2 * 2 ^ (p - 1) := by
            conv_lhs => rw [show p = (p - 1) + 1 by omega, pow_succ]
            ring
          push_cast
          rw [hpp]
          ring
    · exact absurd heq (ne_of_gt (hsmall z hlt))

/-- Numbers of `p` bits are not changed. -/
theorem fl_exact (p : Nat) (hp : 2 ≤ p) (x : ℚ) (hx : 0 ≤ x) (h : Representable p x) : fl p x = x := by
  rcases hx.lt_or_eq with hx | hx
  · have := (fl_roundsTo p hp x hx).2.1 x h
    rw [sub_self, abs_zero] at this
    have := abs_nonpos_iff.1 this
    linarith
  · subst hx; exact fl_zero p

theorem fl_nat (p : Nat) (hp : 2 ≤ p) (k : Nat) (hk : k ≤ 2 ^ p) : fl p (k : ℚ) = k := by
  apply fl_exact p hp _ (by positivity)
  have := representable_scaled p (k : ℤ) 0 (by positivity) (by exact_mod_cast hk) (by omega)
  simpa using this

/-- Rounding keeps the order. -/
theorem fl_mono (p : Nat) (hp : 1 ≤ p) {x y : ℚ} (hx : 0 ≤ x) (h : x ≤ y) : fl p x ≤ fl p y := by
  rcases hx.lt_or_eq with hx | hx
  · obtain ⟨g, E, hg, hE1, hE2, hfl, hu, e1, h1, h2, hgpos⟩ := fl_bounds p hp x hx
    obtain ⟨g', E', hg', hE1', hE2', hfl', hu', e1', h1', h2', hgpos'⟩ := fl_bounds p hp y (lt_of_lt_of_le hx h)
    have hEE : E ≤ E' := by
      by_contra hlt
      rw [not_le] at hlt
      have : (2 : ℚ) ^ (E' + 1) ≤ (2 : ℚ) ^ E := zpow_le_zpow_right₀ (by norm_num) (by omega)
      linarith
    rcases hEE.lt_or_eq with hlt | heq
    · have a : fl p x ≤ (2 : ℚ) ^ (E + 1) := by
        have h3 : roundEven (x / g) ≤ (2 : ℤ) ^ p := by
          have := roundEven_mono h2.le
          have h := roundEven_int (2 ^ p)
          push_cast at h
          rwa [h] at this
        have h4 : (roundEven (x / g) : ℚ) ≤ 2 ^ p := by exact_mod_cast h3
        rw [hfl]
        have e2 : g * 2 ^ p = (2 : ℚ) ^ (E + 1) := by
          rw [two_pow_split p (E + 1), mul_comm, hg]
          congr 2
          omega
        rw [← e2]
        exact mul_le_mul_of_nonneg_left h4 hgpos.le
      have b : (2 : ℚ) ^ E' ≤ fl p y := by
        have h3 : (2 : ℤ) ^ (p - 1) ≤ roundEven (y / g') := by
          have := roundEven_mono h1'
          have h := roundEven_int (2 ^ (p - 1))
          push_cast at h
          rwa [h] at this
        have h4 : (2 : ℚ) ^ (p - 1) ≤ (roundEven (y / g') : ℚ) := by exact_mod_cast h3
        rw [hfl', ← e1', mul_comm]
        exact mul_le_mul_of_nonneg_left h4 hgpos'.le
      have c : (2 : ℚ) ^ (E + 1) ≤ (2 : ℚ) ^ E' := zpow_le_zpow_right₀ (by norm_num) (by omega)
      linarith
    · have hgg : g = g' := by rw [hg, hg', heq]
      rw [hfl, hfl', ← hgg]
      apply mul_le_mul_of_nonneg_left _ hgpos.le
      have := roundEven_mono (x := x / g) (y := y / g) (by gcongr)
      exact_mod_cast this
  · subst hx
    rw [fl_zero]
    exact fl_nonneg p y h

/-- Adding less than half a spacing to a number of `p` bits changes nothing. -/
theorem fl_absorb (p : Nat) (hp : 2 ≤ p) (s a : ℚ) (hs : 0 < s) (hr : Representable p s) (ha : 0 ≤ a) (h : a * 2 ^ (p + 1) ≤ s) :
    fl p (s + a) = s := by
  have hp1 : 1 ≤ p := by omega
  have hsa : 0 < s + a := by linarith
  -- the nearest number to `s + a` is `s`
  obtain ⟨g, E, hg, hE1, hE2, hfl, hu, e1, h1, h2, hgpos⟩ := fl_bounds p hp1 s hs
  obtain ⟨k, hk⟩ := representable_multiple p hp1 s hr E hE1
  rw [← hg] at hk
  have hga : a < g / 2 := by
    have e3 : (2 : ℚ) ^ (p + 1) * (g / 2) = (2 : ℚ) ^ (E + 1) := by
      rw [two_pow_split p (E + 1), hg, pow_succ]
      have : E + 1 - (p : ℤ) = E - (p : ℤ) + 1 := by ring
      rw [this]; ring
    have : a * 2 ^ (p + 1) < g / 2 * 2 ^ (p + 1) := by
      rw [mul_comm (g / 2), e3]; linarith
    exact lt_of_mul_lt_mul_right this (by positivity)
  have hkp : k < 2 ^ p := by
    have : (k : ℚ) < 2 ^ p := by
      have : s / g = k := by rw [hk]; field_simp
      rw [← this]; exact h2
    exact_mod_cast this
  -- `s + a` has the same exponent
  have hsame : s + a < (2 : ℚ) ^ (E + 1) := by
    have e2 : (2 : ℚ) ^ (E + 1) = 2 ^ p * g := by
      rw [two_pow_split p (E + 1), hg]
      congr 2
      omega
    have : ((k : ℚ) + 1) * g ≤ 2 ^ p * g := by
      apply mul_le_mul_of_nonneg_right _ hgpos.le
      have : k + 1 ≤ 2 ^ p := hkp
      exact_mod_cast this
    rw [e2]
    have : (k : ℚ) * g + g ≤ 2 ^ p * g := by linarith [this]
    linarith
  obtain ⟨g', E', hg', hE1', hE2', hfl', _, _, _, _, hgpos'⟩ := fl_bounds p hp1 (s + a) hsa
  have hEE : E' = E := by
    have a1 : E' < E + 1 := by
      by_contra hlt
      rw [not_lt] at hlt
      have : (2 : ℚ) ^ (E + 1) ≤ (2 : ℚ) ^ E' := zpow_le_zpow_right₀ (by norm_num) hlt
      linarith
    have a2 : E < E' + 1 := by
      by_contra hlt
      rw [not_lt] at hlt
      have : (2 : ℚ) ^ (E' + 1) ≤ (2 : ℚ) ^ E := zpow_le_zpow_right₀ (by norm_num) hlt
      linarith
    omega
  have hgg : g' = g := by rw [hg, hg', hEE]
  rw [hfl', hgg]
  have : roundEven ((s + a) / g) = k := by
    apply roundEven_unique
    have : (s + a) / g - k = a / g := by rw [hk]; field_simp; ring
    rw [this, abs_of_nonneg (by positivity), div_lt_iff₀ hgpos]
    linarith
  rw [this, hk, mul_comm]

theorem log_eq_of_range (x : ℚ) (E : ℤ) (h1 : (2 : ℚ) ^ E ≤ x) (h2 : x < (2 : ℚ) ^ (E + 1)) : Int.log 2 x = E := by
  have hx : 0 < x := lt_of_lt_of_le (zpow_pos (by norm_num) _) h1
  have hE1 := Int.zpow_log_le_self (b := 2) (r := x) (by norm_num) hx
  have hE2 := Int.lt_zpow_succ_log_self (b := 2) (by norm_num) x
  push_cast at hE1 hE2
  have a1 : Int.log 2 x < E + 1 := by
    by_contra hlt
    rw [not_lt] at hlt
    have : (2 : ℚ) ^ (E + 1) ≤ (2 : ℚ) ^ (Int.log 2 x) := zpow_le_zpow_right₀ (by norm_num) hlt
    linarith
  have a2 : E < Int.log 2 x + 1 := by
    by_contra hlt
    rw [not_lt] at hlt
    have : (2 : ℚ) ^ (Int.log 2 x + 1) ≤ (2 : ℚ) ^ E := zpow_le_zpow_right₀ (by norm_num) hlt
    linarith
  omega

theorem fl_of_range (p : Nat) (x : ℚ) (E : ℤ) (h1 : (2 : ℚ) ^ E ≤ x) (h2 : x < (2 : ℚ) ^ (E + 1)) :
    fl p x = (2 : ℚ) ^ (E - (p : ℤ) + 1) * roundEven (x / (2 : ℚ) ^ (E - (p : ℤ) + 1)) := by
  have hx : 0 < x := lt_of_lt_of_le (zpow_pos (by norm_num) _) h1
  unfold fl ulp
  rw [abs_of_pos hx, log_eq_of_range x E h1 h2]

/-- Rounding commutes with powers of two. -/
theorem fl_scale (p : Nat) (x : ℚ) (hx : 0 ≤ x) (j : ℤ) : fl p ((2 : ℚ) ^ j * x) = (2 : ℚ) ^ j * fl p x := by
  rcases hx.lt_or_eq with hx | hx
  · have hE1 := Int.zpow_log_le_self (b := 2) (r := x) (by norm_num) hx
    have hE2 := Int.lt_zpow_succ_log_self (b := 2) (by norm_num) x
    push_cast at hE1 hE2
    have hj : (0 : ℚ) < (2 : ℚ) ^ j := zpow_pos (by norm_num) _
    rw [fl_of_range p x _ hE1 hE2, fl_of_range p ((2 : ℚ) ^ j * x) (j + Int.log 2 x)]
    · have e : (2 : ℚ) ^ (j + Int.log 2 x - (p : ℤ) + 1) = (2 : ℚ) ^ j * (2 : ℚ) ^ (Int.log 2 x - (p : ℤ) + 1) := by
        rw [← zpow_add₀ (by norm_num)]
        congr 1
        ring
      rw [e, mul_div_mul_left _ _ hj.ne', mul_assoc]
    · rw [zpow_add₀ (by norm_num)]
      exact mul_le_mul_of_nonneg_left hE1 hj.le
    · rw [add_assoc, zpow_add₀ (by norm_num)]
      exact mul_lt_mul_of_pos_left hE2 hj
  · subst hx
    rw [mul_zero, fl_zero, mul_zero]

end MarEx
