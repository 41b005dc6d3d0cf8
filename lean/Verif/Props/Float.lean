import Verif.Model.FloatUse
import Verif.Lemmas.Float
import Verif.Lemmas.Quantiles
/-! C166 (links on grids), C167 (areas on meshes), C168 (ranks of percentiles), C169 (links on meshes): what rounding does to the results. -/
namespace MarEx.Props
open MarEx MarEx.Spec

variable {n : Nat}

/-- Rounding as used below is rounding to the nearest number of `p` bits, ties to even. -/
theorem rounding_is_ieee (p : Nat) (hp : 2 ≤ p) (x : ℚ) (hx : 0 < x) : RoundsTo p x (fl p x) := fl_roundsTo p hp x hx

/-! ### C166 -/

theorem fraction_exact (P Q v m : Nat) (hQ : 0 < Q) (hm : 0 < m) (hs : m * P < 2 ^ 52) :
    fl 53 ((P : ℚ) / Q) ≤ fl 53 ((v : ℚ) / m) ↔ (P : ℚ) / Q ≤ (v : ℚ) / m := by
  have hQ' : (0 : ℚ) < Q := by exact_mod_cast hQ
  have hm' : (0 : ℚ) < m := by exact_mod_cast hm
  constructor
  · intro h
    by_contra hlt
    rw [not_le] at hlt
    have hPm : (v : ℚ) * Q + 1 ≤ P * m := by
      rw [div_lt_div_iff₀ hm' hQ'] at hlt
      have : v * Q + 1 ≤ P * m := by
        have : v * Q < P * m := by exact_mod_cast hlt
        omega
      exact_mod_cast this
    have h1 := fl_le 53 (by norm_num) ((v : ℚ) / m) (by positivity)
    have h2 := le_fl 53 (by norm_num) ((P : ℚ) / Q) (by positivity)
    have hgap : (v : ℚ) / m + 1 / (m * Q) ≤ (P : ℚ) / Q := by
      rw [show (v : ℚ) / m + 1 / (m * Q) = (v * Q + 1) / (m * Q) by field_simp, show (P : ℚ) / Q = P * m / (m * Q) by field_simp]
      exact div_le_div_of_nonneg_right hPm (by positivity)
    have hsz : 2 * ((P : ℚ) / Q) * (1 / 2 ^ 53) < 1 / (m * Q) := by
      have hs' : (m : ℚ) * P < 2 ^ 52 := by exact_mod_cast hs
      rw [show 2 * ((P : ℚ) / Q) * (1 / 2 ^ 53) = P / (Q * 2 ^ 52) by field_simp, div_lt_div_iff₀ (by positivity) (by positivity)]
      have := mul_lt_mul_of_pos_right hs' hQ'
      nlinarith
    have e1 : (v : ℚ) / m * (1 + 1 / 2 ^ 53) = (v : ℚ) / m + (v : ℚ) / m * (1 / 2 ^ 53) := by ring
    have e2 : (P : ℚ) / Q * (1 - 1 / 2 ^ 53) = (P : ℚ) / Q - (P : ℚ) / Q * (1 / 2 ^ 53) := by ring
    have h3 : (v : ℚ) / m * (1 / 2 ^ 53) ≤ (P : ℚ) / Q * (1 / 2 ^ 53) := mul_le_mul_of_nonneg_right hlt.le (by positivity)
    rw [e1] at h1
    rw [e2] at h2
    linarith
  · exact fun h => fl_mono 53 (by norm_num) (by positivity) h

theorem filter_congr' {α : Type} (l : List α) (p q : α → Bool) (h : ∀ x ∈ l, p x = q x) : l.filter p = l.filter q := List.filter_congr h

theorem areaOf_mem (props : List Obj) (k : Nat) (x : ℚ) (h : areaOf props k = some x) : ∃ o ∈ props, o.area = x := by
  unfold areaOf at h
  rw [Option.map_eq_some_iff] at h
  obtain ⟨o, ho, rfl⟩ := h
  exact ⟨o, List.mem_of_find?_eq_some ho, rfl⟩

/-- **C166**: on a structured grid areas and overlaps are numbers of cells. If the threshold is the float64 nearest to a fraction `P / Q` (what Python
makes of a decimal literal) and objects have less than `2 ^ 52 / P` cells, the comparison of the rounded quotient decides every link as the exact one:
also a pair that shares exactly the fraction `P / Q` is linked, and no pair below it is. -/
theorem C166_grid_links_exact (P Q : Nat) (hQ : 0 < Q) (props : List Obj) (ovs : List Ov)
    (ha : ∀ o ∈ props, ∃ k : Nat, o.area = k ∧ 0 < k ∧ k * P < 2 ^ 52) (hv : ∀ o ∈ ovs, ∃ k : Nat, o.v = k) :
    enforceOverlapFl (fl 53 ((P : ℚ) / Q)) props ovs = enforceOverlap ((P : ℚ) / Q) props ovs ∧
    ∀ o ∈ ovs, o ∈ enforceOverlapFl (fl 53 ((P : ℚ) / Q)) props ovs ↔
      ∃ x y, areaOf props o.a = some x ∧ areaOf props o.b = some y ∧ P * min x y ≤ Q * o.v := by
  have hQ' : (0 : ℚ) < Q := by exact_mod_cast hQ
  have key : ∀ o ∈ ovs, ∀ x y, areaOf props o.a = some x → areaOf props o.b = some y →
      (fractionAtLeastFl o.v (min x y) (fl 53 ((P : ℚ) / Q)) = fractionAtLeast o.v (min x y) ((P : ℚ) / Q)) ∧
      (fractionAtLeast o.v (min x y) ((P : ℚ) / Q) = true ↔ P * min x y ≤ Q * o.v) := by
    intro o ho x y hx hy
    obtain ⟨k, hk⟩ := hv o ho
    have hmin : ∃ m : Nat, min x y = m ∧ 0 < m ∧ m * P < 2 ^ 52 := by
      obtain ⟨o1, ho1, e1⟩ := areaOf_mem props _ _ hx
      obtain ⟨o2, ho2, e2⟩ := areaOf_mem props _ _ hy
      rcases min_choice x y with h | h
      · rw [h, ← e1]; exact ha o1 ho1
      · rw [h, ← e2]; exact ha o2 ho2
    obtain ⟨m, hm, hm0, hms⟩ := hmin
    have hmq : (0 : ℚ) < m := by exact_mod_cast hm0
    have hne : (m : ℚ) ≠ 0 := hmq.ne'
    unfold fractionAtLeastFl fractionAtLeast
    rw [hm, hk, if_neg hne, if_neg hne]
    constructor
    · rw [decide_eq_decide]
      exact fraction_exact P Q k m hQ hm0 hms
    · rw [decide_eq_true_eq, div_le_div_iff₀ hQ' hmq, mul_comm (k : ℚ)]
  refine ⟨?_, ?_⟩
  · unfold enforceOverlapFl enforceOverlap
    apply List.filter_congr
    intro o ho
    rcases hx : areaOf props o.a with _ | x
    · rfl
    · rcases hy : areaOf props o.b with _ | y
      · rfl
      · exact (key o ho x y hx hy).1
  · intro o ho
    unfold enforceOverlapFl
    rw [List.mem_filter]
    constructor
    · rintro ⟨_, h⟩
      rcases hx : areaOf props o.a with _ | x
      · rw [hx] at h; simp at h
      · rcases hy : areaOf props o.b with _ | y
        · rw [hx, hy] at h; simp at h
        · rw [hx, hy] at h
          have hk := key o ho x y hx hy
          exact ⟨x, y, rfl, rfl, hk.2.1 (hk.1 ▸ h)⟩
    · rintro ⟨x, y, hx, hy, h⟩
      refine ⟨ho, ?_⟩
      rw [hx, hy]
      have hk := key o ho x y hx hy
      exact hk.1.trans (hk.2.2 h)

/-- The float64 nearest to one tenth is not one tenth. -/
theorem tenth_is_rounded : fl 53 (1 / 10) = 3602879701896397 / 36028797018963968 := by
  rw [fl_of_range 53 (1 / 10) (-4) (by norm_num) (by norm_num)]
  rw [roundEven_unique _ 7205759403792794 (by norm_num)]
  norm_num

example : fl 53 (1 / 10) ≠ 1 / 10 := by rw [tenth_is_rounded]; norm_num

/-- One shared cell of ten at the threshold 0.1: linked. -/
example : (⟨1, 2, 1⟩ : Ov) ∈ enforceOverlapFl (fl 53 ((1 : Nat) / (10 : Nat))) [⟨1, 10, (0, 0)⟩, ⟨2, 30, (0, 0)⟩] [⟨1, 2, 1⟩] := by
  rw [(C166_grid_links_exact 1 10 (by norm_num) [⟨1, 10, (0, 0)⟩, ⟨2, 30, (0, 0)⟩] [⟨1, 2, 1⟩]
    (by
      intro o ho
      simp only [List.mem_cons, List.not_mem_nil, or_false] at ho
      rcases ho with rfl | rfl
      · exact ⟨10, by norm_num, by norm_num, by norm_num⟩
      · exact ⟨30, by norm_num, by norm_num, by norm_num⟩)
    (by
      intro o ho
      simp only [List.mem_cons, List.not_mem_nil, or_false] at ho
      exact ⟨1, by rw [ho]; norm_num⟩)).2 ⟨1, 2, 1⟩ (by simp)]
  exact ⟨10, 30, by simp [areaOf], by simp [areaOf], by norm_num⟩

/-! ### C167 -/

/-- `addAt` from a given partial sum. -/
def addFrom (p : Nat) (s : ℚ) (vs : List ℚ) : ℚ := vs.foldl (fun s v => fl p (s + v)) s

theorem addFrom_append (p : Nat) (s : ℚ) (l l' : List ℚ) : addFrom p s (l ++ l') = addFrom p (addFrom p s l) l' := by
  unfold addFrom; rw [List.foldl_append]

theorem addFrom_nonneg (p : Nat) : ∀ (vs : List ℚ) (s : ℚ), 0 ≤ s → (∀ v ∈ vs, 0 ≤ v) → 0 ≤ addFrom p s vs
  | [], s, hs, _ => hs
  | v :: vs, s, hs, h => by
    have hv := h v (by simp)
    exact addFrom_nonneg p vs _ (fl_nonneg p _ (by linarith)) fun x hx => h x (by simp [hx])

theorem addFrom_representable (p : Nat) (hp : 1 ≤ p) : ∀ (vs : List ℚ) (s : ℚ), 0 ≤ s → Representable p s → (∀ v ∈ vs, 0 ≤ v) →
    Representable p (addFrom p s vs)
  | [], s, _, hr, _ => hr
  | v :: vs, s, hs, _, h => by
    have hv := h v (by simp)
    exact addFrom_representable p hp vs _ (fl_nonneg p _ (by linarith)) (fl_representable p hp _ (by linarith)) fun x hx => h x (by simp [hx])

theorem addFrom_le (p : Nat) (hp : 1 ≤ p) : ∀ (vs : List ℚ) (s : ℚ), 0 ≤ s → (∀ v ∈ vs, 0 ≤ v) →
    addFrom p s vs ≤ (s + vs.sum) * (1 + 1 / 2 ^ p) ^ vs.length
  | [], s, _, _ => by simp [addFrom]
  | v :: vs, s, hs, h => by
    have hv := h v (by simp)
    have h' : ∀ x ∈ vs, 0 ≤ x := fun x hx => h x (by simp [hx])
    have h1 := fl_le p hp (s + v) (by linarith)
    have ih := addFrom_le p hp vs (fl p (s + v)) (fl_nonneg p _ (by linarith)) h'
    have hsum : 0 ≤ vs.sum := List.sum_nonneg h'
    show addFrom p (fl p (s + v)) vs ≤ _
    refine ih.trans ?_
    rw [List.length_cons, pow_succ, List.sum_cons]
    have hu : (0 : ℚ) ≤ 1 / 2 ^ p := by positivity
    have h2 : fl p (s + v) + vs.sum ≤ (s + (v + vs.sum)) * (1 + 1 / 2 ^ p) := by nlinarith
    calc (fl p (s + v) + vs.sum) * (1 + 1 / 2 ^ p) ^ vs.length
        ≤ ((s + (v + vs.sum)) * (1 + 1 / 2 ^ p)) * (1 + 1 / 2 ^ p) ^ vs.length := mul_le_mul_of_nonneg_right h2 (by positivity)
      _ = _ := by ring

theorem le_addFrom (p : Nat) (hp : 1 ≤ p) : ∀ (vs : List ℚ) (s : ℚ), 0 ≤ s → (∀ v ∈ vs, 0 ≤ v) →
    (s + vs.sum) * (1 - 1 / 2 ^ p) ^ vs.length ≤ addFrom p s vs
  | [], s, _, _ => by simp [addFrom]
  | v :: vs, s, hs, h => by
    have hv := h v (by simp)
    have h' : ∀ x ∈ vs, 0 ≤ x := fun x hx => h x (by simp [hx])
    have h1 := le_fl p hp (s + v) (by linarith)
    have ih := le_addFrom p hp vs (fl p (s + v)) (fl_nonneg p _ (by linarith)) h'
    have hsum : 0 ≤ vs.sum := List.sum_nonneg h'
    show _ ≤ addFrom p (fl p (s + v)) vs
    refine le_trans ?_ ih
    rw [List.length_cons, pow_succ, List.sum_cons]
    have hu : (0 : ℚ) ≤ 1 / 2 ^ p := by positivity
    have hu1 : (1 : ℚ) / 2 ^ p ≤ 1 := by
      rw [div_le_one (by positivity)]
      exact one_le_pow₀ (by norm_num)
    have h2 : (s + (v + vs.sum)) * (1 - 1 / 2 ^ p) ≤ fl p (s + v) + vs.sum := by nlinarith
    have h3 : (0 : ℚ) ≤ (1 - 1 / 2 ^ p) ^ vs.length := pow_nonneg (by linarith) _
    calc (s + (v + vs.sum)) * ((1 - 1 / 2 ^ p) ^ vs.length * (1 - 1 / 2 ^ p))
        = ((s + (v + vs.sum)) * (1 - 1 / 2 ^ p)) * (1 - 1 / 2 ^ p) ^ vs.length := by ring
      _ ≤ _ := mul_le_mul_of_nonneg_right h2 h3

theorem pow_upper (k : Nat) (hk : k ≤ 2 ^ 23) : (1 + 1 / 2 ^ 24 : ℚ) ^ k ≤ 1 + k / 2 ^ 23 := by
  induction k with
  | zero => simp
  | succ k ih =>
    have ih := ih (by omega)
    rw [pow_succ]
    have hk' : (k : ℚ) ≤ 8388608 := by
      have : k ≤ 8388608 := by omega
      exact_mod_cast this
    calc (1 + 1 / 2 ^ 24 : ℚ) ^ k * (1 + 1 / 2 ^ 24) ≤ (1 + k / 2 ^ 23) * (1 + 1 / 2 ^ 24) := mul_le_mul_of_nonneg_right ih (by norm_num)
      _ ≤ 1 + ((k + 1 : Nat) : ℚ) / 2 ^ 23 := by push_cast; norm_num; linarith

theorem pow_lower (k : Nat) : 1 - k / 2 ^ 24 ≤ (1 - 1 / 2 ^ 24 : ℚ) ^ k := by
  have := one_add_mul_le_pow (a := (-(1 / 2 ^ 24) : ℚ)) (by norm_num) k
  have e : (1 - 1 / 2 ^ 24 : ℚ) = 1 + -(1 / 2 ^ 24) := by ring
  rw [e]
  refine le_trans (le_of_eq ?_) this
  ring

/-- The exact area of the cells selected by `s`. -/
def exactArea (w : Fin n → ℚ) (s : Fin n → Bool) : ℚ := ((List.finRange n).map fun i => if s i = true then w i else 0).sum

/-- The number of cells selected by `s`. -/
def cellCount (s : Fin n → Bool) : Nat := ((List.finRange n).filter s).length

theorem sum_filter_map (l : List (Fin n)) (w : Fin n → ℚ) (s : Fin n → Bool) :
    ((l.filter s).map w).sum = (l.map fun i => if s i = true then w i else 0).sum := by
  induction l with
  | nil => rfl
  | cons a l ih =>
    rw [List.filter_cons]
    by_cases h : s a = true
    · rw [if_pos h]; simp [ih, h]
    · rw [if_neg h]; simp [ih, h]

theorem stored_sum (w : Fin n → ℚ) (hw : ∀ i, 0 ≤ w i) (l : List (Fin n)) :
    (l.map w).sum * (1 - 1 / 2 ^ 24) ≤ (l.map (storedArea w)).sum ∧ (l.map (storedArea w)).sum ≤ (l.map w).sum * (1 + 1 / 2 ^ 24) := by
  induction l with
  | nil => simp
  | cons a l ih =>
    have h1 := fl_le 24 (by norm_num) (w a) (hw a)
    have h2 := le_fl 24 (by norm_num) (w a) (hw a)
    simp only [List.map_cons, List.sum_cons, storedArea] at ih ⊢
    constructor <;> linarith [ih.1, ih.2]

theorem rounded_area_error (w : Fin n → ℚ) (hw : ∀ i, 0 ≤ w i) (s : Fin n → Bool) (hN : cellCount s + 1 ≤ 2 ^ 23) :
    |addAt 24 (((List.finRange n).filter s).map (storedArea w)) - exactArea w s| ≤ (cellCount s + 1 : Nat) / 2 ^ 23 * exactArea w s := by
  set l := (List.finRange n).filter s with hl
  have hS : (l.map w).sum = exactArea w s := sum_filter_map _ w s
  have hpos : 0 ≤ exactArea w s := by
    rw [← hS]
    apply List.sum_nonneg
    intro x hx
    obtain ⟨i, _, rfl⟩ := List.mem_map.1 hx
    exact hw i
  have hst : ∀ v ∈ l.map (storedArea w), 0 ≤ v := by
    intro x hx
    obtain ⟨i, _, rfl⟩ := List.mem_map.1 hx
    exact fl_nonneg 24 _ (hw i)
  have hb := stored_sum w hw l
  rw [hS] at hb
  have h1 := addFrom_le 24 (by norm_num) (l.map (storedArea w)) 0 (le_refl _) hst
  have h2 := le_addFrom 24 (by norm_num) (l.map (storedArea w)) 0 (le_refl _) hst
  rw [zero_add, List.length_map] at h1 h2
  have hlen : l.length = cellCount s := rfl
  rw [hlen] at h1 h2
  have hu := pow_upper (cellCount s + 1) hN
  have hlw := pow_lower (cellCount s + 1)
  have h3 : addFrom 24 0 (l.map (storedArea w)) ≤ exactArea w s * (1 + (cellCount s + 1 : Nat) / 2 ^ 23) := by
    refine h1.trans ?_
    calc (l.map (storedArea w)).sum * (1 + 1 / 2 ^ 24) ^ cellCount s
        ≤ (exactArea w s * (1 + 1 / 2 ^ 24)) * (1 + 1 / 2 ^ 24) ^ cellCount s := mul_le_mul_of_nonneg_right hb.2 (by positivity)
      _ = exactArea w s * (1 + 1 / 2 ^ 24) ^ (cellCount s + 1) := by ring
      _ ≤ _ := mul_le_mul_of_nonneg_left hu hpos
  have h4 : exactArea w s * (1 - (cellCount s + 1 : Nat) / 2 ^ 23) ≤ addFrom 24 0 (l.map (storedArea w)) := by
    refine le_trans ?_ h2
    calc exactArea w s * (1 - (cellCount s + 1 : Nat) / 2 ^ 23)
        ≤ exactArea w s * (1 - (cellCount s + 1 : Nat) / 2 ^ 24) := by
          apply mul_le_mul_of_nonneg_left _ hpos
          have : (0 : ℚ) ≤ (cellCount s + 1 : Nat) := by positivity
          linarith
      _ ≤ exactArea w s * (1 - 1 / 2 ^ 24) ^ (cellCount s + 1) := mul_le_mul_of_nonneg_left hlw hpos
      _ = (exactArea w s * (1 - 1 / 2 ^ 24)) * (1 - 1 / 2 ^ 24) ^ cellCount s := by ring
      _ ≤ _ := mul_le_mul_of_nonneg_right hb.1 (pow_nonneg (by norm_num) _)
  rw [abs_le]
  change -_ ≤ addFrom 24 0 _ - _ ∧ addFrom 24 0 _ - _ ≤ _
  constructor <;> linarith

/-- **C167**, the part that holds: on a mesh the area reported for an object of fewer than `2 ^ 23` cells is the sum of its cell areas up to the
relative error `(number of cells + 1) / 2 ^ 23`. Missing: larger objects, see below. -/
theorem C167_mesh_areas_partial (w : Fin n → ℚ) (hw : ∀ i, 0 ≤ w i) (f : Fin n → Nat) (k : Nat) (hN : size f k < 2 ^ 23) :
    |meshAreaFl w f k - ((List.finRange n).map fun i => if f i = k then w i else 0).sum| ≤
      ((size f k : ℚ) + 1) / 2 ^ 23 * ((List.finRange n).map fun i => if f i = k then w i else 0).sum := by
  have hc : cellCount (fun i => f i == k) = size f k := cellCount_eq_size f k
  have := rounded_area_error w hw (fun i => f i == k) (by rw [hc]; omega)
  have e : exactArea w (fun i => f i == k) = ((List.finRange n).map fun i => if f i = k then w i else 0).sum := by
    unfold exactArea
    congr 1
    apply List.map_congr_left
    intro i _
    simp
  rw [e, hc] at this
  push_cast at this
  exact this

theorem addFrom_stuck (p : Nat) (hp : 2 ≤ p) : ∀ (vs : List ℚ) (s : ℚ), 0 < s → Representable p s → (∀ v ∈ vs, 0 ≤ v ∧ v * 2 ^ (p + 1) ≤ s) →
    addFrom p s vs = s
  | [], _, _, _, _ => rfl
  | v :: vs, s, hs, hr, h => by
    show addFrom p (fl p (s + v)) vs = s
    rw [fl_absorb p hp s v hs hr (h v (by simp)).1 (h v (by simp)).2]
    exact addFrom_stuck p hp vs s hs hr fun x hx => h x (by simp [hx])

/-- **C167 fails** for large objects: once the sum has reached `2 ^ 25` times the area of each remaining cell, the remaining cells, however many, add
nothing. -/
theorem C167_remaining_cells_ignored_fails (counted rest : List ℚ) (h0 : ∀ v ∈ counted, 0 ≤ v) (hpos : 0 < addAt 24 counted)
    (h : ∀ v ∈ rest, 0 ≤ v ∧ v * 2 ^ 25 ≤ addAt 24 counted) : addAt 24 (counted ++ rest) = addAt 24 counted := by
  have e : ∀ l, addAt 24 l = addFrom 24 0 l := fun _ => rfl
  rw [e] at hpos
  simp only [e] at h ⊢
  rw [addFrom_append]
  exact addFrom_stuck 24 (by norm_num) rest _ hpos
    (addFrom_representable 24 (by norm_num) counted 0 (le_refl _) ⟨0, 0, by norm_num, by norm_num⟩ h0) h

theorem fl_tie24 : fl 24 (2 ^ 24 + 1) = 2 ^ 24 := by
  rw [fl_of_range 24 (2 ^ 24 + 1) 24 (by norm_num) (by norm_num)]
  have hf : ⌊((2 : ℚ) ^ 24 + 1) / (2 : ℚ) ^ ((24 : ℤ) - ((24 : Nat) : ℤ) + 1)⌋ = 8388608 := by
    rw [Int.floor_eq_iff]
    norm_num
  have : roundEven (((2 : ℚ) ^ 24 + 1) / (2 : ℚ) ^ ((24 : ℤ) - ((24 : Nat) : ℤ) + 1)) = 8388608 := by
    unfold roundEven
    rw [hf]
    norm_num
  rw [this]
  norm_num

theorem addAt_ones (k : Nat) : addAt 24 (List.replicate k 1) = (min k (2 ^ 24) : Nat) := by
  induction k with
  | zero => simp [addAt]
  | succ k ih =>
    rw [List.replicate_succ']
    unfold addAt at ih ⊢
    rw [List.foldl_append, ih, List.foldl_cons, List.foldl_nil]
    rcases Nat.lt_or_ge k (2 ^ 24) with h | h
    · rw [Nat.min_eq_left (by omega), Nat.min_eq_left (by omega)]
      have := fl_nat 24 (by norm_num) (k + 1) (by omega)
      push_cast at this ⊢
      exact this
    · rw [Nat.min_eq_right h, Nat.min_eq_right (by omega)]
      have := fl_tie24
      push_cast
      exact this

theorem addFrom_scale (p : Nat) (j : ℤ) : ∀ (vs : List ℚ) (s : ℚ), 0 ≤ s → (∀ v ∈ vs, 0 ≤ v) →
    addFrom p ((2 : ℚ) ^ j * s) (vs.map fun v => (2 : ℚ) ^ j * v) = (2 : ℚ) ^ j * addFrom p s vs
  | [], _, _, _ => rfl
  | v :: vs, s, hs, h => by
    have hv := h v (by simp)
    show addFrom p (fl p ((2 : ℚ) ^ j * s + (2 : ℚ) ^ j * v)) _ = _
    rw [← mul_add, fl_scale p (s + v) (by linarith) j]
    exact addFrom_scale p j vs _ (fl_nonneg p _ (by linarith)) fun x hx => h x (by simp [hx])

/-- **C167 fails**: on a mesh whose cells all have the area `2 ^ j`, an object of any number of cells beyond `2 ^ 24` is given the area of `2 ^ 24`
cells. -/
theorem C167_large_objects_fails (j : ℤ) (f : Fin n → Nat) (k : Nat) :
    meshAreaFl (fun _ => (2 : ℚ) ^ j) f k = (2 : ℚ) ^ j * (min (size f k) (2 ^ 24) : Nat) := by
  have hst : ∀ i : Fin n, storedArea (fun _ : Fin n => (2 : ℚ) ^ j) i = (2 : ℚ) ^ j * 1 := by
    intro i
    unfold storedArea
    rw [fl_exact 24 (by norm_num) _ (zpow_pos (by norm_num) _).le ⟨1, j, by norm_num, by simp⟩, mul_one]
  rw [← cellCount_eq_size]
  unfold meshAreaFl
  generalize (List.finRange n).filter (fun i => f i == k) = l
  have : l.map (storedArea fun _ => (2 : ℚ) ^ j) = (List.replicate l.length (1 : ℚ)).map fun v => (2 : ℚ) ^ j * v := by
    rw [List.map_replicate]
    rw [List.eq_replicate_iff]
    refine ⟨by simp, ?_⟩
    intro x hx
    obtain ⟨i, _, rfl⟩ := List.mem_map.1 hx
    exact hst i
  rw [this, ← addAt_ones]
  have hs := addFrom_scale 24 j (List.replicate l.length 1) 0 (le_refl _) (by intro v hv; rw [List.eq_of_mem_replicate hv]; norm_num)
  rw [mul_zero] at hs
  exact hs

/-- **C167 fails** for every cell area: whatever the area `a` of the (equal) cells, no object is ever given `2 ^ 26` times that area, however many
cells it has. -/
theorem C167_equal_cells_bounded_fails (a : ℚ) (ha : 0 < a) (k : Nat) : addAt 24 (List.replicate k a) < 2 ^ 26 * a := by
  induction k with
  | zero => simp only [List.replicate_zero, addAt, List.foldl_nil]; positivity
  | succ k ih =>
    rw [List.replicate_succ']
    have hnn : ∀ v ∈ List.replicate k a, 0 ≤ v := by intro v hv; rw [List.eq_of_mem_replicate hv]; exact ha.le
    have hs0 : 0 ≤ addAt 24 (List.replicate k a) := addFrom_nonneg 24 _ 0 (le_refl _) hnn
    rcases le_or_gt (a * 2 ^ 25) (addAt 24 (List.replicate k a)) with h | h
    · rw [C167_remaining_cells_ignored_fails _ [a] hnn (lt_of_lt_of_le (by positivity) h) (by
        intro v hv
        rw [List.mem_singleton] at hv
        rw [hv]
        exact ⟨ha.le, h⟩)]
      exact ih
    · unfold addAt at *
      rw [List.foldl_append, List.foldl_cons, List.foldl_nil]
      have := fl_le 24 (by norm_num) (List.foldl (fun s v => fl 24 (s + v)) 0 (List.replicate k a) + a) (by linarith)
      norm_num at *
      linarith

/-- Three cells of areas 1, 2 and 4, two of them in object 5. -/
example : meshAreaFl (n := 3) (fun i => 2 ^ i.val) (fun i => if i = 1 then 0 else 5) 5 = 5 ∧
    size (n := 3) (fun i => if i = 1 then 0 else 5) 5 = 2 := by
  constructor
  · have h1 : storedArea (n := 3) (fun i => 2 ^ i.val) 0 = 1 := by
      have := fl_nat 24 (by norm_num) 1 (by norm_num)
      simpa [storedArea] using this
    have h4 : storedArea (n := 3) (fun i => 2 ^ i.val) 2 = 4 := by
      have := fl_nat 24 (by norm_num) 4 (by norm_num)
      have e : ((2 : ℚ) ^ (2 : Fin 3).val) = ((4 : Nat) : ℚ) := by norm_num
      show fl 24 ((2 : ℚ) ^ (2 : Fin 3).val) = 4
      rw [e, this]
      norm_num
    have hl : (List.finRange 3).filter (fun i : Fin 3 => (if i = 1 then 0 else 5) == 5) = [0, 2] := by decide
    unfold meshAreaFl
    rw [hl]
    simp only [List.map_cons, List.map_nil, h1, h4, addAt, List.foldl_cons, List.foldl_nil]
    have a1 := fl_nat 24 (by norm_num) 1 (by norm_num)
    have a5 := fl_nat 24 (by norm_num) 5 (by norm_num)
    push_cast at a1 a5
    rw [zero_add, a1]
    norm_num
    exact a5
  · decide

/-! ### C169 -/

theorem addFrom_sublist (p : Nat) (hp : 2 ≤ p) {l l' : List ℚ} (h : l.Sublist l') : ∀ (s s' : ℚ), 0 ≤ s → s ≤ s' → Representable p s' →
    (∀ v ∈ l', 0 ≤ v) → addFrom p s l ≤ addFrom p s' l' := by
  induction h with
  | slnil => intro s s' _ h _ _; exact h
  | @cons l₁ l₂ a _ ih =>
    intro s s' h0 hss hr hv
    have ha := hv a (by simp)
    show addFrom p s l₁ ≤ addFrom p (fl p (s' + a)) l₂
    refine ih s _ h0 ?_ (fl_representable p (by omega) _ (by linarith)) fun x hx => hv x (by simp [hx])
    refine hss.trans ?_
    have := fl_mono p (by omega) (x := s') (y := s' + a) (by linarith) (by linarith)
    rwa [fl_exact p hp s' (by linarith) hr] at this
  | @cons_cons l₁ l₂ a _ ih =>
    intro s s' h0 hss hr hv
    have ha := hv a (by simp)
    show addFrom p (fl p (s + a)) l₁ ≤ addFrom p (fl p (s' + a)) l₂
    exact ih _ _ (fl_nonneg p _ (by linarith)) (fl_mono p (by omega) (by linarith) (by linarith)) (fl_representable p (by omega) _ (by linarith))
      fun x hx => hv x (by simp [hx])

theorem rounded_area_mono (w : Fin n → ℚ) (hw : ∀ i, 0 ≤ w i) (s s' : Fin n → Bool) (h : ∀ i, s i = true → s' i = true) :
    addAt 24 (((List.finRange n).filter s).map (storedArea w)) ≤ addAt 24 (((List.finRange n).filter s').map (storedArea w)) := by
  apply addFrom_sublist 24 (by norm_num)
  · exact (List.monotone_filter_right _ h).map _
  · exact le_refl _
  · exact le_refl _
  · exact ⟨0, 0, by norm_num, by norm_num⟩
  · intro x hx
    obtain ⟨i, _, rfl⟩ := List.mem_map.1 hx
    exact fl_nonneg 24 _ (hw i)

theorem rounded_area_pos (w : Fin n → ℚ) (hw : ∀ i, 0 ≤ w i) (s : Fin n → Bool) (i : Fin n) (hi : s i = true) (hp : 0 < w i) :
    0 < addAt 24 (((List.finRange n).filter s).map (storedArea w)) := by
  have h1 := rounded_area_mono w hw (fun j => decide (j = i)) s (by intro j hj; rw [of_decide_eq_true hj]; exact hi)
  refine lt_of_lt_of_le ?_ h1
  have hst : ∀ v ∈ ((List.finRange n).filter fun j => decide (j = i)).map (storedArea w), 0 ≤ v := by
    intro x hx
    obtain ⟨k, _, rfl⟩ := List.mem_map.1 hx
    exact fl_nonneg 24 _ (hw k)
  have h2 := le_addFrom 24 (by norm_num) _ 0 (le_refl _) hst
  refine lt_of_lt_of_le ?_ h2
  rw [zero_add]
  apply mul_pos _ (pow_pos (by norm_num) _)
  have hmem : storedArea w i ∈ ((List.finRange n).filter fun j => decide (j = i)).map (storedArea w) :=
    List.mem_map.2 ⟨i, by simp, rfl⟩
  refine lt_of_lt_of_le ?_ (List.single_le_sum hst _ hmem)
  have := le_fl 24 (by norm_num) (w i) (hw i)
  refine lt_of_lt_of_le (mul_pos hp (by norm_num)) this

/-- **C169**: the shared area of two objects of consecutive steps, as summed by the code, never exceeds the area of either, so no overlap fraction
exceeds 1: rounding cannot bring this about. -/
theorem C169_fraction_at_most_one (w : Fin n → ℚ) (hw : ∀ i, 0 ≤ w i) (f g : Fin n → Nat) (a b : Nat) :
    meshOverlapFl w f g a b ≤ min (meshAreaFl w f a) (meshAreaFl w g b) ∧
    (0 < min (meshAreaFl w f a) (meshAreaFl w g b) → fl 53 (meshOverlapFl w f g a b / min (meshAreaFl w f a) (meshAreaFl w g b)) ≤ 1) := by
  have h1 : meshOverlapFl w f g a b ≤ min (meshAreaFl w f a) (meshAreaFl w g b) := by
    apply le_min
    · exact rounded_area_mono w hw _ _ (by intro i hi; simp only [Bool.and_eq_true] at hi; exact hi.1)
    · exact rounded_area_mono w hw _ _ (by intro i hi; simp only [Bool.and_eq_true] at hi; exact hi.2)
  refine ⟨h1, fun hpos => ?_⟩
  have h0 : 0 ≤ meshOverlapFl w f g a b := by
    apply addFrom_nonneg 24 _ 0 (le_refl _)
    intro x hx
    obtain ⟨i, _, rfl⟩ := List.mem_map.1 hx
    exact fl_nonneg 24 _ (hw i)
  have := fl_mono 53 (by norm_num) (div_nonneg h0 hpos.le) ((div_le_one hpos).2 h1)
  have e := fl_nat 53 (by norm_num) 1 (by norm_num)
  push_cast at e
  rwa [e] at this

/-- **C169**: an object lying wholly inside an object of the next step (an unmoved object, for instance) is linked to it for every threshold up to 1,
whatever the rounding. -/
theorem C169_contained_objects_linked (w : Fin n → ℚ) (hw : ∀ i, 0 ≤ w i) (f g : Fin n → Nat) (a b : Nat) (h : ∀ i, f i = a → g i = b)
    (i : Fin n) (hi : f i = a) (hp : 0 < w i) (thr : ℚ) (ht : thr ≤ 1) :
    fractionAtLeastFl (meshOverlapFl w f g a b) (min (meshAreaFl w f a) (meshAreaFl w g b)) thr = true := by
  have e1 : meshOverlapFl w f g a b = meshAreaFl w f a := by
    unfold meshOverlapFl meshAreaFl
    congr 2
    apply List.filter_congr
    intro j _
    by_cases hj : f j = a
    · simp [hj, h j hj]
    · simp [hj]
  have e2 : min (meshAreaFl w f a) (meshAreaFl w g b) = meshAreaFl w f a :=
    min_eq_left (rounded_area_mono w hw _ _ (by intro j hj; simp only [beq_iff_eq] at hj ⊢; exact h j hj))
  have hpos : 0 < meshAreaFl w f a := rounded_area_pos w hw _ i (by simp [hi]) hp
  unfold fractionAtLeastFl
  rw [e2, e1, if_neg hpos.ne', decide_eq_true_eq, div_self hpos.ne']
  have e := fl_nat 53 (by norm_num) 1 (by norm_num)
  push_cast at e
  rwa [e]

/-- C169: an object without any area is linked to nothing, whatever the threshold. -/
theorem C169_weightless_objects_not_linked (w : Fin n → ℚ) (hw : ∀ i, 0 ≤ w i) (f g : Fin n → Nat) (a b : Nat) (h : ∀ i, f i = a → w i = 0) (thr : ℚ) :
    fractionAtLeastFl (meshOverlapFl w f g a b) (min (meshAreaFl w f a) (meshAreaFl w g b)) thr = false := by
  have hz : ∀ (p : Fin n → Bool), (∀ i, p i = true → f i = a) → addAt 24 (((List.finRange n).filter p).map (storedArea w)) = 0 := by
    intro p hp
    have : ∀ l : List ℚ, (∀ x ∈ l, x = 0) → addAt 24 l = 0 := by
      intro l hl
      unfold addAt
      induction l with
      | nil => rfl
      | cons x l ih =>
        rw [List.foldl_cons, hl x (by simp), add_zero, fl_zero]
        exact ih fun y hy => hl y (by simp [hy])
    apply this
    intro x hx
    obtain ⟨i, hi, rfl⟩ := List.mem_map.mp hx
    unfold storedArea
    rw [h i (hp i (List.mem_filter.mp hi).2), fl_zero]
  have h1 : meshOverlapFl w f g a b = 0 := hz _ (by intro i hi; simp only [Bool.and_eq_true, beq_iff_eq] at hi; exact hi.1)
  have h2 : meshAreaFl w f a = 0 := hz _ (by intro i hi; simpa using hi)
  have h3 : 0 ≤ meshAreaFl w g b := by
    have := rounded_area_mono w hw (fun _ => false) (fun i => g i == b) (by simp)
    have h0 : addAt 24 (((List.finRange n).filter fun _ => false).map (storedArea w)) = 0 := by simp [addAt]
    rw [h0] at this
    exact this
  rw [h1, h2, min_eq_left h3]
  simp [fractionAtLeastFl]

example : ∀ i : Fin 2, (fun i : Fin 2 => i.val + 1) i = 1 → (fun i : Fin 2 => (i.val : ℚ)) i = 0 := by
  intro i; fin_cases i <;> simp

/-- **C169**: otherwise the decision is that of the exact areas, except within the relative distance `(N + 1) / 2 ^ 21` of the threshold, `N` being the
number of cells of the larger object: above it the pair is linked, below it not. -/
theorem C169_links_away_from_threshold (w : Fin n → ℚ) (hw : ∀ i, 0 ≤ w i) (f g : Fin n → Nat) (a b N : Nat) (ha : size f a ≤ N) (hb : size g b ≤ N)
    (hN : N < 2 ^ 21) (thr : ℚ) (ht : 0 < thr) :
    let shared := ((List.finRange n).map fun i => if f i = a ∧ g i = b then w i else 0).sum
    let smaller := min ((List.finRange n).map fun i => if f i = a then w i else 0).sum ((List.finRange n).map fun i => if g i = b then w i else 0).sum
    0 < smaller →
    (thr * smaller * (1 + ((N : ℚ) + 1) / 2 ^ 21) ≤ shared →
      fractionAtLeastFl (meshOverlapFl w f g a b) (min (meshAreaFl w f a) (meshAreaFl w g b)) (fl 53 thr) = true) ∧
    (shared ≤ thr * smaller * (1 - ((N : ℚ) + 1) / 2 ^ 21) →
      fractionAtLeastFl (meshOverlapFl w f g a b) (min (meshAreaFl w f a) (meshAreaFl w g b)) (fl 53 thr) = false) := by
  intro shared smaller hsm
  set ε : ℚ := ((N : ℚ) + 1) / 2 ^ 23 with hε
  have hε0 : 1 / 2 ^ 23 ≤ ε := by
    rw [hε]
    apply div_le_div_of_nonneg_right _ (by norm_num)
    have : (0 : ℚ) ≤ N := by positivity
    linarith
  have hε1 : ε ≤ 1 / 4 := by
    rw [hε, div_le_div_iff₀ (by norm_num) (by norm_num)]
    have : N + 1 ≤ 2097152 := by omega
    have : (N : ℚ) + 1 ≤ 2097152 := by exact_mod_cast this
    norm_num
    linarith
  have h4ε : ((N : ℚ) + 1) / 2 ^ 21 = 4 * ε := by rw [hε]; field_simp; norm_num
  rw [h4ε]
  have hmul : ∀ (c : Nat) (x : ℚ), c ≤ N → 0 ≤ x → ((c + 1 : Nat) : ℚ) / 2 ^ 23 * x ≤ ε * x := by
    intro c x hc hx
    apply mul_le_mul_of_nonneg_right _ hx
    rw [hε]
    apply div_le_div_of_nonneg_right _ (by norm_num)
    push_cast
    have : (c : ℚ) ≤ N := by exact_mod_cast hc
    linarith
  have hnn : ∀ s : Fin n → Bool, 0 ≤ exactArea w s := by
    intro s
    apply List.sum_nonneg
    intro x hx
    obtain ⟨i, _, rfl⟩ := List.mem_map.1 hx
    split
    · exact hw i
    · exact le_refl _
  have hx : exactArea w (fun i => f i == a) = ((List.finRange n).map fun i => if f i = a then w i else 0).sum := by
    unfold exactArea; congr 1; apply List.map_congr_left; intro i _; simp
  have hy : exactArea w (fun i => g i == b) = ((List.finRange n).map fun i => if g i = b then w i else 0).sum := by
    unfold exactArea; congr 1; apply List.map_congr_left; intro i _; simp
  have hv : exactArea w (fun i => f i == a && g i == b) = shared := by
    show _ = ((List.finRange n).map fun i => if f i = a ∧ g i = b then w i else 0).sum
    unfold exactArea; congr 1; apply List.map_congr_left; intro i _; simp
  have hca : cellCount (fun i => f i == a) ≤ N := by
    have : cellCount (fun i => f i == a) = size f a := cellCount_eq_size f a
    omega
  have hcb : cellCount (fun i => g i == b) ≤ N := by
    have : cellCount (fun i => g i == b) = size g b := cellCount_eq_size g b
    omega
  have hcv : cellCount (fun i => f i == a && g i == b) ≤ N := by
    refine le_trans ?_ hca
    unfold cellCount
    apply List.Sublist.length_le
    exact List.monotone_filter_right _ (by intro i hi; simp only [Bool.and_eq_true] at hi; exact hi.1)
  have bx := abs_le.1 ((rounded_area_error w hw (fun i => f i == a) (by omega)).trans (hmul _ _ hca (hnn _)))
  have byy := abs_le.1 ((rounded_area_error w hw (fun i => g i == b) (by omega)).trans (hmul _ _ hcb (hnn _)))
  have bv := abs_le.1 ((rounded_area_error w hw (fun i => f i == a && g i == b) (by omega)).trans (hmul _ _ hcv (hnn _)))
  rw [hx] at bx
  rw [hy] at byy
  rw [hv] at bv
  have hsh0 : 0 ≤ shared := by rw [← hv]; exact hnn _
  change -_ ≤ meshAreaFl w f a - _ ∧ meshAreaFl w f a - _ ≤ _ at bx
  change -_ ≤ meshAreaFl w g b - _ ∧ meshAreaFl w g b - _ ≤ _ at byy
  change -_ ≤ meshOverlapFl w f g a b - _ ∧ meshOverlapFl w f g a b - _ ≤ _ at bv
  have hmlo : smaller * (1 - ε) ≤ min (meshAreaFl w f a) (meshAreaFl w g b) := by
    apply le_min
    · have : smaller ≤ ((List.finRange n).map fun i => if f i = a then w i else 0).sum := min_le_left _ _
      have := mul_le_mul_of_nonneg_right this (show 0 ≤ 1 - ε by linarith)
      linarith
    · have : smaller ≤ ((List.finRange n).map fun i => if g i = b then w i else 0).sum := min_le_right _ _
      have := mul_le_mul_of_nonneg_right this (show 0 ≤ 1 - ε by linarith)
      linarith
  have hmhi : min (meshAreaFl w f a) (meshAreaFl w g b) ≤ smaller * (1 + ε) := by
    rcases min_choice (((List.finRange n).map fun i => if f i = a then w i else 0).sum)
      (((List.finRange n).map fun i => if g i = b then w i else 0).sum) with h | h
    · have e : smaller = ((List.finRange n).map fun i => if f i = a then w i else 0).sum := h
      rw [e]
      refine (min_le_left _ _).trans ?_
      linarith
    · have e : smaller = ((List.finRange n).map fun i => if g i = b then w i else 0).sum := h
      rw [e]
      refine (min_le_right _ _).trans ?_
      linarith
  generalize meshOverlapFl w f g a b = v at *
  generalize min (meshAreaFl w f a) (meshAreaFl w g b) = m at *
  have hm : 0 < m := lt_of_lt_of_le (mul_pos hsm (by linarith)) hmlo
  have hv0 : 0 ≤ v := by
    have := mul_nonneg hsh0 (show 0 ≤ 1 - ε by linarith)
    linarith
  unfold fractionAtLeastFl
  rw [if_neg hm.ne']
  constructor
  · intro h
    rw [decide_eq_true_eq]
    apply fl_mono 53 (by norm_num) ht.le
    rw [le_div_iff₀ hm]
    have hts : 0 < thr * smaller := mul_pos ht hsm
    have a1 : thr * m ≤ thr * smaller * (1 + ε) := by
      rw [mul_assoc]
      exact mul_le_mul_of_nonneg_left hmhi ht.le
    have a2 : thr * smaller * (1 + 4 * ε) * (1 - ε) ≤ shared * (1 - ε) := mul_le_mul_of_nonneg_right h (by linarith)
    have a3 : thr * smaller * (1 + ε) ≤ thr * smaller * (1 + 4 * ε) * (1 - ε) := by
      rw [mul_assoc (thr * smaller)]
      apply mul_le_mul_of_nonneg_left _ hts.le
      nlinarith
    linarith
  · intro h
    rw [decide_eq_false_iff_not, not_le]
    have hq0 : 0 ≤ v / m := div_nonneg hv0 hm.le
    have h1 := fl_le 53 (by norm_num) (v / m) hq0
    have h2 := le_fl 53 (by norm_num) thr ht.le
    refine lt_of_le_of_lt h1 (lt_of_lt_of_le ?_ h2)
    have hts : 0 < thr * smaller := mul_pos ht hsm
    rw [div_mul_eq_mul_div, div_lt_iff₀ hm]
    have a1 : thr * smaller * (1 - ε) ≤ thr * m := by
      rw [mul_assoc]
      exact mul_le_mul_of_nonneg_left hmlo ht.le
    have a2 : v ≤ shared * (1 + ε) := by linarith
    have a3 : shared * (1 + ε) ≤ thr * smaller * (1 - 4 * ε) * (1 + ε) := mul_le_mul_of_nonneg_right h (by linarith)
    have a4 : v * (1 + 1 / 2 ^ 53) ≤ thr * smaller * (1 - 4 * ε) * (1 + ε) * (1 + 1 / 2 ^ 53) :=
      mul_le_mul_of_nonneg_right (a2.trans a3) (by norm_num)
    have a5 : thr * smaller * (1 - 4 * ε) * (1 + ε) * (1 + 1 / 2 ^ 53) < thr * smaller * (1 - ε) * (1 - 1 / 2 ^ 53) := by
      rw [mul_assoc (thr * smaller), mul_assoc (thr * smaller), mul_assoc (thr * smaller)]
      apply mul_lt_mul_of_pos_left _ hts
      norm_num at hε0 ⊢
      nlinarith
    have a6 : thr * smaller * (1 - ε) * (1 - 1 / 2 ^ 53) ≤ thr * m * (1 - 1 / 2 ^ 53) := mul_le_mul_of_nonneg_right a1 (by norm_num)
    linarith

/-! ### C168 -/

/-- A number within `2⁻⁵⁴` below a whole number is not rounded to less than this. -/
theorem le_fl_of_near (c : Nat) (hc : 0 < c) (hc' : c ≤ 2 ^ 53) (x : ℚ) (h : (c : ℚ) * (1 - 1 / 2 ^ 54) < x) : (c : ℚ) ≤ fl 53 x := by
  have hcq : (0 : ℚ) < c := by exact_mod_cast hc
  rcases le_or_gt (c : ℚ) x with hle | hlt
  · have := fl_mono 53 (by norm_num) hcq.le hle
    rwa [fl_nat 53 (by norm_num) c hc'] at this
  · have hx : 0 < x := lt_of_le_of_lt (mul_nonneg hcq.le (by norm_num)) h
    obtain ⟨g, E, hg, hE1, hE2, hfl, hu, e1, h1, h2, hgpos⟩ := fl_bounds 53 (by norm_num) x hx
    have hrep : Representable 53 (c : ℚ) := by
      have := representable_scaled 53 (c : ℤ) 0 (by positivity) (by exact_mod_cast hc') (by norm_num)
      simpa using this
    obtain ⟨k, hk⟩ := representable_multiple 53 (by norm_num) (c : ℚ) hrep E (by linarith)
    rw [← hg] at hk
    have e2 : (2 : ℚ) ^ (E + 1) = 2 ^ 53 * g := by
      rw [two_pow_split 53 (E + 1), hg]
      congr 2
      push_cast
      ring
    rw [e2] at hE2
    have hc2 : (c : ℚ) < 2 ^ 54 * g := by
      have : (c : ℚ) * (1 / 2) ≤ c * (1 - 1 / 2 ^ 54) := mul_le_mul_of_nonneg_left (by norm_num) hcq.le
      norm_num at this hE2 ⊢
      linarith
    have hk53 : k ≤ 2 ^ 53 := by
      by_contra hk'
      rw [not_le] at hk'
      have h3 : ((2 : ℚ) ^ 53 + 1) ≤ k := by exact_mod_cast hk'
      have h4 : ((2 : ℚ) ^ 53 + 1) * g ≤ c := by rw [hk]; exact mul_le_mul_of_nonneg_right h3 hgpos.le
      have h5 : (c : ℚ) * (1 / 2 ^ 54) < g := by
        rw [mul_one_div, div_lt_iff₀ (by norm_num)]
        linarith
      linarith
    have hsmall : (c : ℚ) * (1 / 2 ^ 54) ≤ g / 2 := by
      have : (k : ℚ) ≤ 2 ^ 53 := by exact_mod_cast hk53
      have : (k : ℚ) * g ≤ 2 ^ 53 * g := mul_le_mul_of_nonneg_right this hgpos.le
      rw [← hk] at this
      rw [mul_one_div, div_le_iff₀ (by norm_num)]
      norm_num at this ⊢
      linarith
    have : roundEven (x / g) = k := by
      apply roundEven_unique
      have e : x / g - k = -(((c : ℚ) - x) / g) := by rw [hk]; field_simp; ring
      rw [e, abs_neg, abs_of_nonneg (div_nonneg (by linarith) hgpos.le), div_lt_iff₀ hgpos]
      linarith
    rw [hfl, this, hk, mul_comm]

/-- The position is above a count exactly when it should be. -/
theorem position_decides (A B : Nat) (hB : 0 < B) (hq : (A : ℚ) / B * (1 - 1 / 2 ^ 54) < fl 53 ((A : ℚ) / B)) (N c : Nat) (hN : A * N < 2 ^ 51)
    (hc : c ≤ 2 ^ 53) : (c : ℚ) ≤ fl 53 (fl 53 ((A : ℚ) / B) * N) ↔ (c : ℚ) ≤ (A : ℚ) / B * N := by
  have hBq : (0 : ℚ) < B := by exact_mod_cast hB
  have hq0 : (0 : ℚ) ≤ (A : ℚ) / B := by positivity
  have hf0 : 0 ≤ fl 53 ((A : ℚ) / B) := fl_nonneg 53 _ hq0
  constructor
  · intro h
    by_contra hlt
    rw [not_le, div_mul_eq_mul_div, div_lt_iff₀ hBq] at hlt
    have h1 : (A : ℚ) * N + 1 ≤ c * B := by
      have : A * N < c * B := by exact_mod_cast hlt
      have : A * N + 1 ≤ c * B := this
      exact_mod_cast this
    have h2 := fl_le 53 (by norm_num) (fl 53 ((A : ℚ) / B) * N) (by positivity)
    have h3 := fl_le 53 (by norm_num) ((A : ℚ) / B) hq0
    have h4 : fl 53 ((A : ℚ) / B) * N * (1 + 1 / 2 ^ 53) ≤ (A : ℚ) / B * (1 + 1 / 2 ^ 53) * N * (1 + 1 / 2 ^ 53) :=
      mul_le_mul_of_nonneg_right (mul_le_mul_of_nonneg_right h3 (by positivity)) (by norm_num)
    have h5 : (c : ℚ) ≤ (A : ℚ) / B * (1 + 1 / 2 ^ 53) * N * (1 + 1 / 2 ^ 53) := by linarith
    have e : (A : ℚ) / B * (1 + 1 / 2 ^ 53) * N * (1 + 1 / 2 ^ 53) = (A * N * (1 + 1 / 2 ^ 53) ^ 2) / B := by ring
    rw [e, le_div_iff₀ hBq] at h5
    have hN' : (A : ℚ) * N < 2 ^ 51 := by exact_mod_cast hN
    have hn0 : (0 : ℚ) ≤ (A : ℚ) * N := by positivity
    have h6 : (A : ℚ) * N * (1 + 1 / 2 ^ 53) ^ 2 < A * N + 1 := by
      norm_num at hN' ⊢
      linarith
    linarith
  · intro h
    rcases Nat.eq_zero_or_pos c with h0 | hpos
    · subst h0
      simp only [Nat.cast_zero]
      exact fl_nonneg 53 _ (by positivity)
    · apply le_fl_of_near c hpos hc
      have hcq : (0 : ℚ) < c := by exact_mod_cast hpos
      have hNq : (0 : ℚ) < N := by
        rcases Nat.eq_zero_or_pos N with h0 | h0
        · subst h0; simp at h; omega
        · exact_mod_cast h0
      calc (c : ℚ) * (1 - 1 / 2 ^ 54) ≤ (A : ℚ) / B * N * (1 - 1 / 2 ^ 54) := mul_le_mul_of_nonneg_right h (by norm_num)
        _ = (A : ℚ) / B * (1 - 1 / 2 ^ 54) * N := by ring
        _ < _ := mul_lt_mul_of_pos_right hq hNq

theorem rowQuantile_eq_at (q : ℚ) (centres : List ℚ) (row : List Nat) : rowQuantile q centres row = rowQuantileAt (q * row.sum) centres row := by
  have h : (row.take (row.length - 1 + 1)).sum = row.sum := by
    rw [List.take_of_length_le (by omega)]
  unfold rowQuantile rowQuantileAt
  simp only [h]

theorem take_sum_le (row : List Nat) (k : Nat) : (row.take k).sum ≤ row.sum := by
  conv_rhs => rw [← List.take_append_drop k row]
  rw [List.sum_append]
  omega

/-- **C168**, the part that holds: if the percentile `100 A / B`, divided by 100 in float64, is not more than `2⁻⁵⁴` of itself too small (as for 90, 95
and 99, see below), the code finds the bins whose cumulative count is within the percentile's share of the samples exactly, for every histogram, although
it computes with rounded numbers; the threshold it takes from them is the exact one up to one part in `2 ^ 51` per sample of the distance of two bin
centres. Missing: the other percentiles, see below. -/
theorem C168_same_bin_partial (P : ℚ) (A B : Nat) (hB : 0 < B) (hP : P / 100 = (A : ℚ) / B) (hAB : A ≤ B)
    (hq : P / 100 * (1 - 1 / 2 ^ 54) < fl 53 (P / 100)) (row : List Nat) (hN : B * row.sum < 2 ^ 51) (centres : List ℚ) (d : ℚ)
    (hd : ∀ i, |centres.getD (i + 1) 0 - centres.getD i 0| ≤ d) :
    (∀ k, (((row.take (k + 1)).sum : Nat) : ℚ) ≤ quantilePosition P row.sum ↔ (((row.take (k + 1)).sum : Nat) : ℚ) ≤ P / 100 * row.sum) ∧
    (rowQuantile (P / 100) centres row = none ↔ rowQuantileFl P centres row = none) ∧
    ∀ t t', rowQuantile (P / 100) centres row = some t → rowQuantileFl P centres row = some t' → |t' - t| ≤ d * (row.sum / 2 ^ 51) := by
  have hBN : A * row.sum < 2 ^ 51 := lt_of_le_of_lt (Nat.mul_le_mul_right _ hAB) hN
  have hsum : row.sum ≤ 2 ^ 53 := by
    have : 1 * row.sum ≤ B * row.sum := Nat.mul_le_mul_right _ hB
    omega
  have hdec : ∀ k, (((row.take (k + 1)).sum : Nat) : ℚ) ≤ quantilePosition P row.sum ↔ (((row.take (k + 1)).sum : Nat) : ℚ) ≤ P / 100 * row.sum := by
    intro k
    unfold quantilePosition
    rw [hP] at hq ⊢
    exact position_decides A B hB hq row.sum _ hBN ((take_sum_le row _).trans hsum)
  refine ⟨hdec, ?_⟩
  have hidx : ((List.range row.length).filter fun k => decide ((((row.take (k + 1)).sum : Nat) : ℚ) ≤ quantilePosition P row.sum)) =
      (List.range row.length).filter fun k => decide ((((row.take (k + 1)).sum : Nat) : ℚ) ≤ P / 100 * row.sum) := by
    apply List.filter_congr
    intro k _
    rw [decide_eq_decide]
    exact hdec k
  have h : (row.take (row.length - 1 + 1)).sum = row.sum := by
    rw [List.take_of_length_le (by omega)]
  rw [rowQuantile_eq_at]
  unfold rowQuantileFl rowQuantileAt
  simp only [h, hidx]
  by_cases h0 : row.sum = 0
  · simp [h0]
  · simp only [if_neg h0]
    generalize hup : min (List.length ((List.range row.length).filter fun k => decide ((((row.take (k + 1)).sum : Nat) : ℚ) ≤ P / 100 * row.sum)))
      (row.length - 1) = up
    by_cases hu0 : up = 0
    · simp only [if_pos hu0]
      refine ⟨by simp, ?_⟩
      intro t t' ht ht'
      rw [Option.some.injEq] at ht ht'
      rw [← ht, ← ht', sub_self, abs_zero]
      have := (abs_nonneg _).trans (hd 0)
      positivity
    · simp only [if_neg hu0]
      refine ⟨by simp, ?_⟩
      intro t t' ht ht'
      rw [Option.some.injEq] at ht ht'
      have hd0 : 0 ≤ d := (abs_nonneg _).trans (hd 0)
      have hgap : |centres.getD up 0 - centres.getD (up - 1) 0| ≤ d := by
        have := hd (up - 1)
        rwa [show up - 1 + 1 = up by omega] at this
      have hpos : |quantilePosition P row.sum - P / 100 * row.sum| ≤ row.sum / 2 ^ 51 := by
        have hq0 : (0 : ℚ) ≤ P / 100 := by rw [hP]; positivity
        have hq1 : P / 100 ≤ 1 := by
          rw [hP, div_le_one (by exact_mod_cast hB)]
          exact_mod_cast hAB
        have hf0 : 0 ≤ fl 53 (P / 100) := fl_nonneg 53 _ hq0
        have hs0 : (0 : ℚ) ≤ row.sum := by positivity
        have a1 := abs_le.1 (fl_err 53 (by norm_num) (P / 100) hq0)
        have a2 := abs_le.1 (fl_err 53 (by norm_num) (fl 53 (P / 100) * row.sum) (by positivity))
        have b1 : fl 53 (P / 100) * row.sum ≤ (P / 100 + P / 100 / 2 ^ 53) * row.sum := mul_le_mul_of_nonneg_right (by linarith) hs0
        have b2 : (P / 100 - P / 100 / 2 ^ 53) * row.sum ≤ fl 53 (P / 100) * row.sum := mul_le_mul_of_nonneg_right (by linarith) hs0
        have b3 : P / 100 * row.sum ≤ row.sum := by
          have := mul_le_mul_of_nonneg_right hq1 hs0
          linarith
        have b4 : 0 ≤ P / 100 * row.sum := by positivity
        unfold quantilePosition
        rw [abs_le]
        generalize fl 53 (fl 53 (P / 100) * (row.sum : ℚ)) = y at *
        generalize fl 53 (P / 100) * (row.sum : ℚ) = x at *
        have e1 : (P / 100 + P / 100 / 2 ^ 53) * row.sum = P / 100 * row.sum + P / 100 * row.sum / 2 ^ 53 := by ring
        have e2 : (P / 100 - P / 100 / 2 ^ 53) * row.sum = P / 100 * row.sum - P / 100 * row.sum / 2 ^ 53 := by ring
        rw [e1] at b1
        rw [e2] at b2
        generalize P / 100 * (row.sum : ℚ) = z at *
        norm_num at *
        constructor <;> linarith [a2.1, a2.2]
      rw [← ht, ← ht']
      by_cases hdf : (1 / 10000000000 : ℚ) < (((row.take (up + 1)).sum : Nat) : ℚ) - (((row.take (up - 1 + 1)).sum : Nat) : ℚ)
      · rw [if_pos hdf, if_pos hdf]
        have hd1 : (1 : ℚ) ≤ (((row.take (up + 1)).sum : Nat) : ℚ) - (((row.take (up - 1 + 1)).sum : Nat) : ℚ) := by
          have h1 : (((row.take (up - 1 + 1)).sum : Nat) : ℚ) < (((row.take (up + 1)).sum : Nat) : ℚ) := by
            have : (0 : ℚ) < 1 / 10000000000 := by norm_num
            linarith
          have h2 : (row.take (up - 1 + 1)).sum < (row.take (up + 1)).sum := by exact_mod_cast h1
          have h3 : (row.take (up - 1 + 1)).sum + 1 ≤ (row.take (up + 1)).sum := h2
          have h4 : (((row.take (up - 1 + 1)).sum : Nat) : ℚ) + 1 ≤ (((row.take (up + 1)).sum : Nat) : ℚ) := by exact_mod_cast h3
          linarith
        generalize (((row.take (up + 1)).sum : Nat) : ℚ) - (((row.take (up - 1 + 1)).sum : Nat) : ℚ) = D at *
        generalize (((row.take (up - 1 + 1)).sum : Nat) : ℚ) = L at *
        have hD : 0 < D := by linarith
        have e : centres.getD (up - 1) 0 + (quantilePosition P row.sum - L) / D * (centres.getD up 0 - centres.getD (up - 1) 0) -
            (centres.getD (up - 1) 0 + (P / 100 * row.sum - L) / D * (centres.getD up 0 - centres.getD (up - 1) 0)) =
            (centres.getD up 0 - centres.getD (up - 1) 0) * ((quantilePosition P row.sum - P / 100 * row.sum) / D) := by
          field_simp
          ring
        rw [e, abs_mul]
        apply mul_le_mul hgap _ (abs_nonneg _) hd0
        rw [abs_div, abs_of_pos hD, div_le_iff₀ hD]
        refine hpos.trans ?_
        have : (0 : ℚ) ≤ row.sum / 2 ^ 51 := by positivity
        nlinarith
      · rw [if_neg hdf, if_neg hdf, sub_self, abs_zero]
        positivity

/-- The condition of `C168_same_bin_partial` holds for the percentiles in common use. -/
theorem usual_percentiles : ∀ P ∈ [(80 : ℚ), 85, 90, 95, 97, 98, 99], P / 100 * (1 - 1 / 2 ^ 54) < fl 53 (P / 100) := by
  intro P hP
  simp only [List.mem_cons, List.not_mem_nil, or_false] at hP
  rcases hP with rfl | rfl | rfl | rfl | rfl | rfl | rfl
  · rw [fl_of_range 53 _ (-1) (by norm_num) (by norm_num), roundEven_unique _ 7205759403792794 (by norm_num)]; norm_num
  · rw [fl_of_range 53 _ (-1) (by norm_num) (by norm_num), roundEven_unique _ 7656119366529843 (by norm_num)]; norm_num
  · rw [fl_of_range 53 _ (-1) (by norm_num) (by norm_num), roundEven_unique _ 8106479329266893 (by norm_num)]; norm_num
  · rw [fl_of_range 53 _ (-1) (by norm_num) (by norm_num), roundEven_unique _ 8556839292003942 (by norm_num)]; norm_num
  · rw [fl_of_range 53 _ (-1) (by norm_num) (by norm_num), roundEven_unique _ 8736983277098762 (by norm_num)]; norm_num
  · rw [fl_of_range 53 _ (-1) (by norm_num) (by norm_num), roundEven_unique _ 8827055269646172 (by norm_num)]; norm_num
  · rw [fl_of_range 53 _ (-1) (by norm_num) (by norm_num), roundEven_unique _ 8917127262193582 (by norm_num)]; norm_num

/-- At the 82nd percentile of 150 samples the position is computed as a number just below 123. -/
theorem position_82 : quantilePosition 82 150 = 123 - 1 / 2 ^ 46 := by
  unfold quantilePosition
  have h1 : fl 53 ((82 : ℚ) / 100) = 7385903388887613 / 2 ^ 53 := by
    rw [fl_of_range 53 _ (-1) (by norm_num) (by norm_num), roundEven_unique _ 7385903388887613 (by norm_num)]
    norm_num
  rw [h1, fl_of_range 53 _ 6 (by norm_num) (by norm_num), roundEven_unique _ 8655355533852671 (by norm_num)]
  norm_num

theorem take_gap (m k : Nat) (h : k ≤ m) : ((123 :: (List.replicate m 0 ++ [27])).take (k + 1)).sum = 123 := by
  rw [List.take_succ_cons, List.take_append_of_le_length (by simpa using h), List.sum_cons]
  simp

/-- **C168 fails**: with 123 of 150 samples in the lowest bin and 27 in the highest, however many bins lie between, the 82nd percentile is the centre of
the last but one bin, but because 0.82 · 150 is rounded to a number below 123 the code returns the centre of the lowest bin. -/
theorem C168_82nd_percentile_fails (m : Nat) (centres : List ℚ) :
    rowQuantile (82 / 100) centres (123 :: (List.replicate m 0 ++ [27])) = some (centres.getD m 0) ∧
    rowQuantileFl 82 centres (123 :: (List.replicate m 0 ++ [27])) = some (centres.getD 0 0) := by
  have hs : (123 :: (List.replicate m 0 ++ [27])).sum = 150 := by simp
  have hl : (123 :: (List.replicate m 0 ++ [27])).length = m + 2 := by simp
  have hfull : ∀ k, m < k → ((123 :: (List.replicate m 0 ++ [27])).take (k + 1)).sum = 150 := by
    intro k hk
    rw [List.take_of_length_le (by rw [hl]; omega), hs]
  have hcum : ∀ k, ((123 :: (List.replicate m 0 ++ [27])).take (k + 1)).sum = if k ≤ m then 123 else 150 := by
    intro k
    split
    · rename_i h; exact take_gap m k h
    · rename_i h; exact hfull k (by omega)
  have hfilter : ∀ pos : ℚ, 123 ≤ pos → pos < 150 →
      ((List.range (m + 2)).filter fun k => decide (((if k ≤ m then 123 else 150 : Nat) : ℚ) ≤ pos)).length = m + 1 := by
    intro pos h1 h2
    rw [List.range_succ, List.filter_append, List.length_append, List.filter_eq_self.2, List.length_range, List.filter_eq_nil_iff.2]
    · simp
    · intro k hk
      rw [List.mem_singleton] at hk
      rw [hk, if_neg (by omega)]
      simpa using h2
    · intro k hk
      rw [List.mem_range] at hk
      rw [if_pos (by omega)]
      simpa using h1
  have hnone : ∀ pos : ℚ, pos < 123 →
      ((List.range (m + 2)).filter fun k => decide (((if k ≤ m then 123 else 150 : Nat) : ℚ) ≤ pos)).length = 0 := by
    intro pos h1
    rw [List.length_eq_zero_iff, List.filter_eq_nil_iff]
    intro k _
    split
    · simpa using h1
    · simp only [decide_eq_true_eq, not_le]
      push_cast
      linarith
  constructor
  · rw [rowQuantile_eq_at]
    unfold rowQuantileAt
    simp only [hcum, hl, hs]
    have hp : (82 / 100 * ((150 : Nat) : ℚ)) = 123 := by norm_num
    rw [hp, hfilter 123 (le_refl _) (by norm_num)]
    simp
    intro h
    norm_num at h
  · unfold rowQuantileFl rowQuantileAt
    simp only [hcum, hl, hs]
    rw [position_82, hnone _ (by norm_num)]
    simp

/-- With the bins of the default settings the two thresholds are far apart. -/
example : (binCentres (1 / 100) 5).getD 100 0 = 985 / 1000 ∧ (binCentres (1 / 100) 5).getD 0 0 = 0 := by
  have hn : nBins (1 / 100) 5 = 502 := by
    unfold nBins
    norm_num
    rfl
  constructor
  · unfold binCentres finiteEdges
    rw [hn]
    simp
    norm_num
  · unfold binCentres
    rw [hn]
    simp

/-- The 95th percentile of 20 samples, 19 of them in the lowest bin. -/
example : rowQuantile (95 / 100) [0, 1, 2, 3] [19, 0, 0, 1] = some 2 ∧
    ∀ k, ((([19, 0, 0, 1].take (k + 1)).sum : Nat) : ℚ) ≤ quantilePosition 95 20 ↔ ((([19, 0, 0, 1].take (k + 1)).sum : Nat) : ℚ) ≤ 95 / 100 * (20 : Nat) := by
  refine ⟨by decide +kernel, ?_⟩
  exact (C168_same_bin_partial 95 19 20 (by norm_num) (by norm_num) (by norm_num) (usual_percentiles 95 (by simp)) [19, 0, 0, 1] (by norm_num)
    [0, 1, 2, 3] 3 (by
      intro i
      rcases i with _ | _ | _ | _ | i <;> norm_num)).1

/-- Two objects of three cells each sharing two: linked at the threshold 0.5, not at 0.7. -/
example : fractionAtLeastFl (meshOverlapFl (n := 4) (fun _ => 3) (fun i => if i.val < 3 then 1 else 0) (fun i => if 0 < i.val then 2 else 0) 1 2)
      (min (meshAreaFl (n := 4) (fun _ => 3) (fun i => if i.val < 3 then 1 else 0) 1) (meshAreaFl (n := 4) (fun _ => 3) (fun i => if 0 < i.val then 2 else 0) 2))
      (fl 53 (1 / 2)) = true ∧
    fractionAtLeastFl (meshOverlapFl (n := 4) (fun _ => 3) (fun i => if i.val < 3 then 1 else 0) (fun i => if 0 < i.val then 2 else 0) 1 2)
      (min (meshAreaFl (n := 4) (fun _ => 3) (fun i => if i.val < 3 then 1 else 0) 1) (meshAreaFl (n := 4) (fun _ => 3) (fun i => if 0 < i.val then 2 else 0) 2))
      (fl 53 (7 / 10)) = false := by
  have h1 := C169_links_away_from_threshold (n := 4) (fun _ => 3) (fun _ => by norm_num) (fun i => if i.val < 3 then 1 else 0)
    (fun i => if 0 < i.val then 2 else 0) 1 2 3 (by decide) (by decide) (by norm_num) (1 / 2) (by norm_num)
  have h2 := C169_links_away_from_threshold (n := 4) (fun _ => 3) (fun _ => by norm_num) (fun i => if i.val < 3 then 1 else 0)
    (fun i => if 0 < i.val then 2 else 0) 1 2 3 (by decide) (by decide) (by norm_num) (7 / 10) (by norm_num)
  simp only [List.finRange_succ, List.finRange_zero, List.map_cons, List.map_nil, List.sum_cons, List.sum_nil] at h1 h2
  exact ⟨(h1 (by norm_num)).1 (by norm_num), (h2 (by norm_num)).2 (by norm_num)⟩

end MarEx.Props
