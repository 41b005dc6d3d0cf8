import Verif.Model.Partition
import Verif.Spec.Partition
import Verif.Spec.Graph
import Verif.Lemmas.Consolidate
import Mathlib.Tactic.Linarith
import Mathlib.Tactic.Positivity
import Mathlib.Tactic.Ring
import Mathlib.Tactic.Push
/-! Lemmas about distances, argmin and the bucket search. -/
namespace MarEx
variable {n : Nat}

theorem argminFrom_spec (xs : List ℚ) : ∀ (pre : List ℚ) (best : ℚ) (a : Nat), a < pre.length → pre[a]? = some best →
    (∀ j u, pre[j]? = some u → best ≤ u ∧ (j < a → best < u)) →
    Spec.FirstMin (pre ++ xs) (argminFrom best a pre.length xs) := by
  induction xs with
  | nil =>
    intro pre best a ha hb h
    rw [argminFrom, List.append_nil]
    exact ⟨best, hb, h⟩
  | cons x xs ih =>
    intro pre best a ha hb h
    rw [argminFrom]
    have e : pre ++ x :: xs = (pre ++ [x]) ++ xs := by simp
    have hl : pre.length + 1 = (pre ++ [x]).length := by simp
    split
    · rename_i hx
      rw [e, hl]
      apply ih (pre ++ [x]) x pre.length (by simp) (by simp)
      intro j u hj
      by_cases hjl : j < pre.length
      · rw [List.getElem?_append_left hjl] at hj
        have := (h j u hj).1
        exact ⟨by linarith, fun _ => by linarith⟩
      · rw [List.getElem?_append_right (by omega)] at hj
        have hj0 : j - pre.length = 0 := by
          by_contra hne
          rw [List.getElem?_eq_none (by simp; omega)] at hj; cases hj
        rw [hj0] at hj
        simp only [List.getElem?_cons_zero, Option.some.injEq] at hj
        subst hj
        exact ⟨le_refl _, fun hh => absurd hh hjl⟩
    · rename_i hx
      rw [e, hl]
      apply ih (pre ++ [x]) best a (by simp; omega) (by rw [List.getElem?_append_left ha]; exact hb)
      intro j u hj
      by_cases hjl : j < pre.length
      · rw [List.getElem?_append_left hjl] at hj; exact h j u hj
      · rw [List.getElem?_append_right (by omega)] at hj
        have hj0 : j - pre.length = 0 := by
          by_contra hne
          rw [List.getElem?_eq_none (by simp; omega)] at hj; cases hj
        rw [hj0] at hj
        simp only [List.getElem?_cons_zero, Option.some.injEq] at hj
        subst hj
        exact ⟨not_lt.mp hx, fun hh => by (try dsimp only at hh); omega⟩

theorem argmin_spec {l : List ℚ} (h : l ≠ []) : Spec.FirstMin l (argmin l) := by
  cases l with
  | nil => exact absurd rfl h
  | cons x xs =>
    have := argminFrom_spec xs [x] x 0 (by simp) (by simp) (by
      intro j u hj
      cases j with
      | zero => simp at hj; subst hj; exact ⟨le_refl _, fun h => absurd h (by omega)⟩
      | succ j => simp at hj)
    simpa [argmin] using this

theorem FirstMin_lt {l : List ℚ} {r : Nat} (h : Spec.FirstMin l r) : r < l.length := by
  obtain ⟨v, hv, _⟩ := h
  by_contra hc
  rw [List.getElem?_eq_none (by omega)] at hv; cases hv

theorem argmin_lt {l : List ℚ} (h : l ≠ []) : argmin l < l.length := FirstMin_lt (argmin_spec h)

theorem wrap_mask_eq_point (wrap : Bool) (Nx dx : ℚ) (hN : 0 < Nx) (h : |dx| < Nx) :
    wrapDxMask wrap Nx dx = wrapDxPoint wrap Nx dx := by
  unfold wrapDxMask wrapDxPoint
  rw [abs_lt] at h
  cases wrap
  · rfl
  · simp only [if_true]
    by_cases h1 : Nx / 2 < dx
    · rw [if_pos h1, if_pos h1, if_neg (by linarith)]
    · rw [if_neg h1, if_neg h1]

theorem wrapPoint_range (Nx dx : ℚ) (hN : 0 < Nx) (h : |dx| < Nx) :
    |wrapDxPoint true Nx dx| ≤ Nx / 2 ∧ ∃ k : Int, wrapDxPoint true Nx dx = dx - k * Nx := by
  unfold wrapDxPoint
  rw [abs_lt] at h
  simp only [if_true]
  split
  · refine ⟨by rw [abs_le]; constructor <;> linarith, 1, by simp⟩
  · split
    · refine ⟨by rw [abs_le]; constructor <;> linarith, -1, by simp⟩
    · refine ⟨by rw [abs_le]; constructor <;> linarith, 0, by simp⟩

theorem sq_le_image {e Nx : ℚ} (hN : 0 < Nx) (he : |e| ≤ Nx / 2) (k : Int) : e ^ 2 ≤ (e + k * Nx) ^ 2 := by
  rw [abs_le] at he
  rcases lt_trichotomy k 0 with hk | hk | hk
  · have hk' : (k : ℚ) ≤ -1 := by exact_mod_cast (by omega : k ≤ -1)
    have h1 : (k : ℚ) * Nx ≤ -Nx := by nlinarith
    nlinarith
  · subst hk; simp
  · have hk' : (1 : ℚ) ≤ (k : ℚ) := by exact_mod_cast hk
    have h1 : Nx ≤ (k : ℚ) * Nx := by nlinarith
    nlinarith

theorem distSqPoint_spec (wrap : Bool) (Nx y1 x1 y2 x2 : ℚ) (hN : 0 < Nx) (h : |x1 - x2| < Nx) :
    Spec.DistSq wrap Nx y1 x1 y2 x2 (distSqPoint wrap Nx y1 x1 y2 x2) := by
  unfold Spec.DistSq distSqPoint
  cases wrap
  · simp [Spec.PlainDistSq, wrapDxPoint]
  · simp only [if_true]
    obtain ⟨h1, k, hk⟩ := wrapPoint_range Nx (x1 - x2) hN h
    constructor
    · exact ⟨k, by rw [hk]; ring⟩
    · intro j
      have := sq_le_image hN h1 (k - j)
      have e : wrapDxPoint true Nx (x1 - x2) + ((k - j : Int) : ℚ) * Nx = x1 - (x2 + j * Nx) := by
        rw [hk]; push_cast; ring
      rw [e] at this
      linarith

theorem distSqMask_spec (wrap : Bool) (Nx y1 x1 y2 x2 : ℚ) (hN : 0 < Nx) (h : |x1 - x2| < Nx) :
    Spec.DistSq wrap Nx y1 x1 y2 x2 (distSqMask wrap Nx y1 x1 y2 x2) := by
  have e : distSqMask wrap Nx y1 x1 y2 x2 = distSqPoint wrap Nx y1 x1 y2 x2 := by
    unfold distSqMask distSqPoint; rw [wrap_mask_eq_point wrap Nx _ hN h]
  rw [e]; exact distSqPoint_spec wrap Nx y1 x1 y2 x2 hN h

theorem DistSq_unique {wrap : Bool} {Nx y1 x1 y2 x2 d e : ℚ} (hd : Spec.DistSq wrap Nx y1 x1 y2 x2 d)
    (he : Spec.DistSq wrap Nx y1 x1 y2 x2 e) : d = e := by
  unfold Spec.DistSq at hd he
  cases wrap
  · simp [Spec.PlainDistSq] at hd he; rw [hd, he]
  · simp only [if_true] at hd he
    obtain ⟨⟨k, hk⟩, h1⟩ := hd
    obtain ⟨⟨j, hj⟩, h2⟩ := he
    apply le_antisymm
    · rw [hj]; exact h1 j
    · rw [hk]; exact h2 k

/-! ### The bucket scan -/

theorem lessInf_some {a b : ℚ} : lessInf (some a) (some b) = true ↔ a < b := by simp [lessInf]

/-- Smallest admissible value of a list, `none` if there is none. -/
def IsMinUpTo (maxSq : ℚ) (l : List ℚ) (m : Option ℚ) : Prop :=
  match m with
  | none => ∀ d ∈ l, maxSq < d
  | some v => v ∈ l ∧ v ≤ maxSq ∧ ∀ d ∈ l, v ≤ d

theorem scanPoints_spec (maxSq : ℚ) (hmax : 0 ≤ maxSq) (ds : List ℚ) (hd : ∀ d ∈ ds, 0 ≤ d) : ∀ (pre : List ℚ) (m : Option ℚ),
    (∀ d ∈ pre, 0 ≤ d) → IsMinUpTo maxSq pre m →
    IsMinUpTo maxSq (pre ++ ds) (scanPoints maxSq ds m).1 ∧
    ((scanPoints maxSq ds m).2 = true → (scanPoints maxSq ds m).1 = some 0) := by
  induction ds with
  | nil => intro pre m _ h; rw [scanPoints, List.append_nil]; exact ⟨h, by simp⟩
  | cons d ds ih =>
    intro pre m hp h
    have hd0 := hd d (by simp)
    have hds : ∀ x ∈ ds, 0 ≤ x := fun x hx => hd x (by simp [hx])
    have e : pre ++ d :: ds = (pre ++ [d]) ++ ds := by simp
    rw [scanPoints]
    split
    · rename_i hlt
      rw [e]
      apply ih hds
      · intro x hx; rcases List.mem_append.mp hx with hx | hx
        · exact hp x hx
        · rw [List.mem_singleton.mp hx]; exact hd0
      · cases m with
        | none =>
          intro x hx; rcases List.mem_append.mp hx with hx | hx
          · exact h x hx
          · rw [List.mem_singleton.mp hx]; exact hlt
        | some v =>
          obtain ⟨h1, h2, h3⟩ := h
          refine ⟨by simp [h1], h2, ?_⟩
          intro x hx; rcases List.mem_append.mp hx with hx | hx
          · exact h3 x hx
          · rw [List.mem_singleton.mp hx]; linarith
    · rename_i hle
      split
      · rename_i h0
        refine ⟨⟨by simp [h0], by linarith, ?_⟩, fun _ => by rw [h0]⟩
        intro x hx
        rw [h0]
        rcases List.mem_append.mp hx with hx | hx
        · exact hp x hx
        · exact hd x hx
      · rw [e]
        apply ih hds
        · intro x hx; rcases List.mem_append.mp hx with hx | hx
          · exact hp x hx
          · rw [List.mem_singleton.mp hx]; exact hd0
        · cases m with
          | none =>
            simp only [lessInf, if_true]
            refine ⟨by simp, not_lt.mp hle, ?_⟩
            intro x hx; rcases List.mem_append.mp hx with hx | hx
            · have := h x hx; linarith [not_lt.mp hle]
            · rw [List.mem_singleton.mp hx]
          | some v =>
            obtain ⟨h1, h2, h3⟩ := h
            by_cases hv : d < v
            · rw [if_pos (lessInf_some.mpr hv)]
              refine ⟨by simp, not_lt.mp hle, ?_⟩
              intro x hx; rcases List.mem_append.mp hx with hx | hx
              · have := h3 x hx; linarith
              · rw [List.mem_singleton.mp hx]
            · rw [if_neg (fun e => hv (lessInf_some.mp e))]
              refine ⟨by simp [h1], h2, ?_⟩
              intro x hx; rcases List.mem_append.mp hx with hx | hx
              · exact h3 x hx
              · rw [List.mem_singleton.mp hx]; linarith [not_lt.mp hv]

/-- A value is at least the best value found (`none` is infinity). -/
def GeBest (best : Option ℚ) (x : ℚ) : Prop := match best with
  | none => False
  | some v => v ≤ x

theorem cellDistSq_nonneg (wrap : Bool) (nx : Nat) (i j : Fin n) : 0 ≤ cellDistSq wrap nx i j := by
  unfold cellDistSq distSqPoint; positivity

/-- Loop over the parents: the assigned parent is the first one with the smallest candidate distance. `cand q`: squared distances
of the candidates of parent `q` within the limit. -/
theorem nnLoop_spec (wrap : Bool) (ny nx gs : Nat) (maxSq : ℚ) (hmax : 0 ≤ maxSq) (i : Fin n) (ps : List (List (Fin n))) :
    ∀ (k : Nat) (st : NNState) (pre : List (List (Fin n))), pre.length = k →
      (st.found = true → st.best = some 0) →
      (match st.best with
        | none => st.assign = 0 ∧ ∀ q ∈ pre, ∀ j ∈ nearPoints ny nx gs i q, maxSq < cellDistSq wrap nx i j
        | some v => v ≤ maxSq ∧ (∃ q, pre[st.assign]? = some q ∧ ∃ j ∈ nearPoints ny nx gs i q, cellDistSq wrap nx i j = v) ∧
            ∀ (b : Nat) (q : List (Fin n)), pre[b]? = some q → ∀ j ∈ nearPoints ny nx gs i q, v ≤ cellDistSq wrap nx i j ∧ (b < st.assign → v < cellDistSq wrap nx i j)) →
      let st' := ((List.range' k ps.length).zip ps).foldl (nnParent wrap ny nx gs maxSq i) st
      (match st'.best with
        | none => st'.assign = 0 ∧ ∀ q ∈ pre ++ ps, ∀ j ∈ nearPoints ny nx gs i q, maxSq < cellDistSq wrap nx i j
        | some v => v ≤ maxSq ∧ (∃ q, (pre ++ ps)[st'.assign]? = some q ∧ ∃ j ∈ nearPoints ny nx gs i q, cellDistSq wrap nx i j = v) ∧
            ∀ (b : Nat) (q : List (Fin n)), (pre ++ ps)[b]? = some q → ∀ j ∈ nearPoints ny nx gs i q,
              v ≤ cellDistSq wrap nx i j ∧ (b < st'.assign → v < cellDistSq wrap nx i j)) := by
  induction ps with
  | nil =>
    intro k st pre hk hf h
    simpa using h
  | cons p ps ih =>
    intro k st pre hk hf h
    have hz : (List.range' k (p :: ps).length).zip (p :: ps) = (k, p) :: (List.range' (k + 1) ps.length).zip ps := by
      simp [List.range'_succ]
    rw [hz, List.foldl_cons]
    have e : pre ++ p :: ps = (pre ++ [p]) ++ ps := by simp
    rw [e]
    have hlast : ∀ (b : Nat) (q : List (Fin n)), (pre ++ [p])[b]? = some q → (pre[b]? = some q ∧ b < k) ∨ (b = k ∧ q = p) := by
      intro b q hb
      by_cases hbk : b < pre.length
      · rw [List.getElem?_append_left hbk] at hb; exact Or.inl ⟨hb, by omega⟩
      · rw [List.getElem?_append_right (by omega)] at hb
        have h0 : b - pre.length = 0 := by
          by_contra hne
          rw [List.getElem?_eq_none (by simp; omega)] at hb; cases hb
        rw [h0] at hb
        simp only [List.getElem?_cons_zero, Option.some.injEq] at hb
        exact Or.inr ⟨by omega, hb.symm⟩
    have hget : (pre ++ [p])[k]? = some p := by rw [← hk]; simp
    have hleft : ∀ (b : Nat) (q : List (Fin n)), pre[b]? = some q → (pre ++ [p])[b]? = some q := by
      intro b q hb
      have : b < pre.length := by
        by_contra hc; rw [List.getElem?_eq_none (by omega)] at hb; cases hb
      rw [List.getElem?_append_left this]; exact hb
    have halt : ∀ (q : List (Fin n)), pre[st.assign]? = some q → st.assign < k := by
      intro q hb
      rw [← hk]; by_contra hc; rw [List.getElem?_eq_none (by omega)] at hb; cases hb
    apply ih (k + 1) _ (pre ++ [p]) (by simp [hk])
    · unfold nnParent
      split
      · exact hf
      · dsimp only
        obtain ⟨_, h2⟩ := scanPoints_spec maxSq hmax ((nearPoints ny nx gs i p).map (cellDistSq wrap nx i))
          (by intro d hd; obtain ⟨j, _, rfl⟩ := List.mem_map.mp hd; exact cellDistSq_nonneg wrap nx i j) [] none (by simp)
          (by simp [IsMinUpTo])
        split
        · exact h2
        · rename_i hless
          intro hh
          have h3 := h2 hh
          rw [h3] at hless
          cases hb : st.best with
          | none => rw [hb] at hless; simp [lessInf] at hless
          | some v =>
            rw [hb] at h hless
            obtain ⟨_, ⟨q, _, j, _, hj⟩, _⟩ := h
            have := cellDistSq_nonneg wrap nx i j
            simp only [lessInf, decide_eq_true_eq, not_lt] at hless
            rw [hj] at this
            rw [show v = 0 from le_antisymm hless this]
    · unfold nnParent
      by_cases hc : (st.found || p.isEmpty) = true
      · rw [if_pos hc]
        -- nothing changes
        cases hb : st.best with
        | none =>
          rw [hb] at h
          have hfn : st.found = false := by
            cases hff : st.found with
            | false => rfl
            | true => rw [hf hff] at hb; cases hb
          rw [hfn, Bool.false_or, List.isEmpty_iff] at hc
          refine ⟨h.1, ?_⟩
          intro q hq j hj
          rcases List.mem_append.mp hq with hq | hq
          · exact h.2 q hq j hj
          · rw [List.mem_singleton.mp hq, hc] at hj; simp [nearPoints] at hj
        | some v =>
          rw [hb] at h
          obtain ⟨h1, ⟨q, hq, hj⟩, h3⟩ := h
          refine ⟨h1, ⟨q, hleft _ _ hq, hj⟩, ?_⟩
          intro b q' hb' j hj'
          rcases hlast b q' hb' with ⟨hb'', _⟩ | ⟨rfl, rfl⟩
          · exact h3 b q' hb'' j hj'
          · have := halt q hq
            refine ⟨?_, fun hh => by (try dsimp only at hh); omega⟩
            cases hff : st.found with
            | true =>
              rw [hf hff] at hb
              rw [← Option.some.inj hb]; exact cellDistSq_nonneg wrap nx i j
            | false =>
              rw [hff, Bool.false_or, List.isEmpty_iff] at hc
              rw [hc] at hj'; simp [nearPoints] at hj'
      · rw [if_neg hc]
        dsimp only
        obtain ⟨h1', _⟩ := scanPoints_spec maxSq hmax ((nearPoints ny nx gs i p).map (cellDistSq wrap nx i))
          (by intro d hd; obtain ⟨j, _, rfl⟩ := List.mem_map.mp hd; exact cellDistSq_nonneg wrap nx i j) [] none (by simp)
          (by simp [IsMinUpTo])
        rw [List.nil_append] at h1'
        generalize scanPoints maxSq ((nearPoints ny nx gs i p).map (cellDistSq wrap nx i)) none = r at h1'
        obtain ⟨m, f⟩ := r
        dsimp only at h1' ⊢
        cases m with
        | none =>
          have hr : ∀ j ∈ nearPoints ny nx gs i p, maxSq < cellDistSq wrap nx i j :=
            fun j hj => h1' _ (List.mem_map.mpr ⟨j, hj, rfl⟩)
          simp only [lessInf, Bool.false_eq_true, if_false]
          cases hb : st.best with
          | none =>
            rw [hb] at h
            refine ⟨h.1, ?_⟩
            intro q hq j hj
            rcases List.mem_append.mp hq with hq | hq
            · exact h.2 q hq j hj
            · rw [List.mem_singleton.mp hq] at hj; exact hr j hj
          | some v =>
            rw [hb] at h
            obtain ⟨h1, ⟨q, hq, hj⟩, h3⟩ := h
            refine ⟨h1, ⟨q, hleft _ _ hq, hj⟩, ?_⟩
            intro b q' hb' j hj'
            rcases hlast b q' hb' with ⟨hb'', _⟩ | ⟨rfl, rfl⟩
            · exact h3 b q' hb'' j hj'
            · have := halt q hq
              exact ⟨le_of_lt (lt_of_le_of_lt h1 (hr j hj')), fun hh => by (try dsimp only at hh); omega⟩
        | some u =>
          obtain ⟨hu1, hu2, hu3⟩ := h1'
          obtain ⟨ju, hju, rfl⟩ := List.mem_map.mp hu1
          have hr : ∀ j ∈ nearPoints ny nx gs i p, cellDistSq wrap nx i ju ≤ cellDistSq wrap nx i j :=
            fun j hj => hu3 _ (List.mem_map.mpr ⟨j, hj, rfl⟩)
          cases hb : st.best with
          | none =>
            rw [hb] at h
            simp only [lessInf, if_true]
            refine ⟨hu2, ⟨p, hget, ju, hju, rfl⟩, ?_⟩
            intro b q' hb' j hj'
            rcases hlast b q' hb' with ⟨hb'', _⟩ | ⟨rfl, rfl⟩
            · have := h.2 q' (List.mem_of_getElem? hb'') j hj'
              exact ⟨by linarith, fun _ => by linarith⟩
            · exact ⟨hr j hj', fun hh => by (try dsimp only at hh); omega⟩
          | some v =>
            rw [hb] at h
            obtain ⟨h1, ⟨q, hq, hj⟩, h3⟩ := h
            by_cases hlt : cellDistSq wrap nx i ju < v
            · rw [if_pos (lessInf_some.mpr hlt)]
              refine ⟨hu2, ⟨p, hget, ju, hju, rfl⟩, ?_⟩
              intro b q' hb' j hj'
              rcases hlast b q' hb' with ⟨hb'', _⟩ | ⟨rfl, rfl⟩
              · have := (h3 b q' hb'' j hj').1
                exact ⟨by linarith, fun _ => by linarith⟩
              · exact ⟨hr j hj', fun hh => by (try dsimp only at hh); omega⟩
            · rw [if_neg (fun e => hlt (lessInf_some.mp e))]
              refine ⟨h1, ⟨q, hleft _ _ hq, hj⟩, ?_⟩
              intro b q' hb' j hj'
              rcases hlast b q' hb' with ⟨hb'', _⟩ | ⟨rfl, rfl⟩
              · exact h3 b q' hb'' j hj'
              · have := halt q hq
                have := hr j hj'
                exact ⟨by linarith [not_lt.mp hlt], fun hh => by (try dsimp only at hh); omega⟩

/-! ### Completeness of the 3×3 bucket search for close points -/

theorem bucket_eq {gs len v : Nat} (hgs : 0 < gs) (hv : v < len) : bucket gs len v = v / gs := by
  unfold bucket
  apply min_eq_left
  have : v / gs ≤ (len - 1) / gs := Nat.div_le_div_right (by omega)
  have h2 : (len + gs - 1) / gs = (len - 1) / gs + 1 := by
    rw [show len + gs - 1 = (len - 1) + gs by omega, Nat.add_div_right _ hgs]
  omega

theorem div_lt_buckets {gs len v : Nat} (hgs : 0 < gs) (hv : v < len) : v / gs < (len + gs - 1) / gs := by
  have : v / gs ≤ (len - 1) / gs := Nat.div_le_div_right (by omega)
  have h2 : (len + gs - 1) / gs = (len - 1) / gs + 1 := by
    rw [show len + gs - 1 = (len - 1) + gs by omega, Nat.add_div_right _ hgs]
  omega

theorem bucketShift_plain {gs len a b : Nat} (hgs : 0 < gs) (hb : b < len) (d : Int)
    (hd : ((a / gs : Nat) : Int) + d = ((b / gs : Nat) : Int)) : bucketShift gs len (a / gs) d = b / gs := by
  unfold bucketShift
  rw [hd, Int.emod_eq_of_lt (Int.natCast_nonneg _) (by exact_mod_cast div_lt_buckets hgs hb), Int.toNat_natCast]

theorem div_near {gs a b : Nat} (hgs : 0 < gs) (h : a ≤ b + gs) : a / gs ≤ b / gs + 1 := by
  rw [← Nat.add_div_right _ hgs]; exact Nat.div_le_div_right h

/-- A shift by -1, 0 or 1 leads from the bucket of `a` to the bucket of a value at most `gs` away, ... -/
theorem exists_shift_plain {gs len a b : Nat} (hgs : 0 < gs) (ha : a < len) (hb : b < len) (h1 : a ≤ b + gs) (h2 : b ≤ a + gs) :
    ∃ d ∈ ([-1, 0, 1] : List Int), bucket gs len b = bucketShift gs len (bucket gs len a) d := by
  rw [bucket_eq hgs ha, bucket_eq hgs hb]
  have h3 := div_near hgs h1
  have h4 := div_near hgs h2
  refine ⟨((b / gs : Nat) : Int) - ((a / gs : Nat) : Int), ?_, ?_⟩
  · simp only [List.mem_cons, List.not_mem_nil, or_false]; omega
  · rw [bucketShift_plain hgs hb]; omega

/-- ... also across the seam if the buckets divide the row evenly. -/
theorem exists_shift_seam {gs len a b : Nat} (hgs : 0 < gs) (hdvd : gs ∣ len) (ha : a < len) (hb : b < len)
    (h : b + len ≤ a + gs ∨ a + len ≤ b + gs) :
    ∃ d ∈ ([-1, 0, 1] : List Int), bucket gs len b = bucketShift gs len (bucket gs len a) d := by
  rw [bucket_eq hgs ha, bucket_eq hgs hb]
  obtain ⟨m, hm⟩ := hdvd
  have hng : (len + gs - 1) / gs = m := by
    rw [hm, show gs * m + gs - 1 = (gs - 1) + gs * m by omega, Nat.add_mul_div_left _ _ hgs,
      Nat.div_eq_of_lt (by omega)]; omega
  have hal : a / gs < m := by rw [Nat.div_lt_iff_lt_mul hgs, Nat.mul_comm, ← hm]; exact ha
  have hbl : b / gs < m := by rw [Nat.div_lt_iff_lt_mul hgs, Nat.mul_comm, ← hm]; exact hb
  rcases h with h | h
  · -- `a` is in the last bucket, `b` in the first
    have h1 : m ≤ a / gs + 1 := by
      rw [← Nat.add_div_right _ hgs, Nat.le_div_iff_mul_le hgs, Nat.mul_comm, ← hm]; omega
    have h2 : b / gs = 0 := by apply Nat.div_eq_of_lt; omega
    refine ⟨1, by simp, ?_⟩
    unfold bucketShift
    rw [hng, h2, show ((a / gs : Nat) : Int) + 1 = (m : Int) by omega]
    simp
  · have h1 : m ≤ b / gs + 1 := by
      rw [← Nat.add_div_right _ hgs, Nat.le_div_iff_mul_le hgs, Nat.mul_comm, ← hm]; omega
    have h2 : a / gs = 0 := by apply Nat.div_eq_of_lt; omega
    refine ⟨-1, by simp, ?_⟩
    unfold bucketShift
    have h3 : (((a / gs : Nat) : Int) + -1) % (m : Int) = (m : Int) - 1 := by
      rw [h2]
      have : ((0 : Nat) : Int) + -1 = ((m : Int) - 1) + (m : Int) * (-1) := by push_cast; ring
      rw [this, Int.add_mul_emod_self_left, Int.emod_eq_of_lt (by omega) (by omega)]
    rw [hng, h3]
    omega

theorem mem_nearPoints {ny nx gs : Nat} {i j : Fin n} {cells : List (Fin n)} (hj : j ∈ cells)
    (hy : ∃ d ∈ ([-1, 0, 1] : List Int), bucket gs ny (rowOf nx j) = bucketShift gs ny (bucket gs ny (rowOf nx i)) d)
    (hx : ∃ d ∈ ([-1, 0, 1] : List Int), bucket gs nx (colOf nx j) = bucketShift gs nx (bucket gs nx (colOf nx i)) d) :
    j ∈ nearPoints ny nx gs i cells := by
  obtain ⟨dy, hdy, h1⟩ := hy
  obtain ⟨dx, hdx, h2⟩ := hx
  unfold nearPoints
  rw [List.mem_flatMap]
  refine ⟨dy, hdy, ?_⟩
  rw [List.mem_flatMap]
  refine ⟨dx, hdx, ?_⟩
  rw [List.mem_filter]
  exact ⟨hj, by simp [h1, h2]⟩

theorem nearPoints_subset {ny nx gs : Nat} {i j : Fin n} {cells : List (Fin n)} (h : j ∈ nearPoints ny nx gs i cells) :
    j ∈ cells := by
  unfold nearPoints at h
  simp only [List.mem_flatMap, List.mem_filter] at h
  obtain ⟨_, _, _, _, h, _⟩ := h
  exact h

theorem rowOf_lt {ny nx : Nat} (hn : n = ny * nx) (i : Fin n) : rowOf nx i < ny := by
  unfold rowOf
  have := i.isLt
  have hnx : 0 < nx := by
    rcases Nat.eq_zero_or_pos nx with h | h
    · subst h; omega
    · exact h
  rw [Nat.div_lt_iff_lt_mul hnx]; omega

theorem colOf_lt {ny nx : Nat} (hn : n = ny * nx) (i : Fin n) : colOf nx i < nx := by
  unfold colOf
  have := i.isLt
  apply Nat.mod_lt
  rcases Nat.eq_zero_or_pos nx with h | h
  · subst h; omega
  · exact h

/-- Points at most one bucket size away are always examined. -/
theorem near_of_dist {ny nx gs : Nat} (hn : n = ny * nx) (hgs : 0 < gs) (wrap : Bool) (hw : wrap = false ∨ gs ∣ nx)
    (i j : Fin n) (cells : List (Fin n)) (hj : j ∈ cells) (hd : cellDistSq wrap nx i j ≤ (gs : ℚ) ^ 2) :
    j ∈ nearPoints ny nx gs i cells := by
  have hri := rowOf_lt hn i
  have hrj := rowOf_lt hn j
  have hci := colOf_lt hn i
  have hcj := colOf_lt hn j
  unfold cellDistSq distSqPoint at hd
  generalize hyi : rowOf nx i = yi at *
  generalize hyj : rowOf nx j = yj at *
  have hg0 : (0 : ℚ) ≤ gs := by positivity
  have hy : |((yi : ℚ) - yj)| ≤ gs := by
    apply abs_le_of_sq_le_sq _ hg0
    nlinarith [sq_nonneg (wrapDxPoint wrap nx ((colOf nx i : ℚ) - (colOf nx j : ℚ)))]
  have hx : |wrapDxPoint wrap nx ((colOf nx i : ℚ) - (colOf nx j : ℚ))| ≤ gs := by
    apply abs_le_of_sq_le_sq _ hg0
    nlinarith [sq_nonneg ((yi : ℚ) - yj)]
  have hynat : yi ≤ yj + gs ∧ yj ≤ yi + gs := by
    rw [abs_le] at hy
    constructor
    · have : (yi : ℚ) ≤ ((yj + gs : Nat) : ℚ) := by push_cast; linarith
      exact_mod_cast this
    · have : (yj : ℚ) ≤ ((yi + gs : Nat) : ℚ) := by push_cast; linarith
      exact_mod_cast this
  apply mem_nearPoints hj
  · rw [hyi, hyj]
    exact exists_shift_plain hgs hri hrj hynat.1 hynat.2
  · revert hx hci hcj
    generalize colOf nx i = xi
    generalize colOf nx j = xj
    intro hci hcj hx
    by_cases hp : xi ≤ xj + gs ∧ xj ≤ xi + gs
    · exact exists_shift_plain hgs hci hcj hp.1 hp.2
    · have key : wrap = true ∧ (xj + nx ≤ xi + gs ∨ xi + nx ≤ xj + gs) := by
        have hplain : ¬ |(xi : ℚ) - xj| ≤ gs := by
          intro h
          rw [abs_le] at h
          apply hp
          constructor
          · have : (xi : ℚ) ≤ ((xj + gs : Nat) : ℚ) := by push_cast; linarith
            exact_mod_cast this
          · have : (xj : ℚ) ≤ ((xi + gs : Nat) : ℚ) := by push_cast; linarith
            exact_mod_cast this
        unfold wrapDxPoint at hx
        cases wrap
        · exact absurd (by simpa using hx) hplain
        · refine ⟨rfl, ?_⟩
          simp only [if_true] at hx
          split at hx
          · left
            rw [abs_le] at hx
            have : ((xj + nx : Nat) : ℚ) ≤ ((xi + gs : Nat) : ℚ) := by push_cast; linarith
            exact_mod_cast this
          · split at hx
            · right
              rw [abs_le] at hx
              have : ((xi + nx : Nat) : ℚ) ≤ ((xj + gs : Nat) : ℚ) := by push_cast; linarith
              exact_mod_cast this
            · exact absurd hx hplain
      rcases hw with h | h
      · rw [h] at key; exact absurd key.1 (by simp)
      · exact exists_shift_seam hgs h hci hcj key.2

/-- The nearest-neighbour assignment of a cell with a parent cell within one bucket size. -/
theorem nnAssign_near {ny nx : Nat} (hn : n = ny * nx) (wrap : Bool) (maxDist : Nat) (hmd : 2 ≤ maxDist)
    (hw : wrap = false ∨ max 2 (maxDist / 4) ∣ nx) (parents : List (List (Fin n))) (cens : List (ℚ × ℚ)) (i : Fin n)
    (hnear : ∃ q ∈ parents, ∃ j ∈ q, cellDistSq wrap nx i j ≤ ((max 2 (maxDist / 4) : Nat) : ℚ) ^ 2) :
    ∃ q, parents[nnAssign wrap ny nx maxDist parents cens i]? = some q ∧ ∃ j ∈ q,
      ∀ (b : Nat) (q' : List (Fin n)), parents[b]? = some q' → ∀ j' ∈ q', cellDistSq wrap nx i j ≤ cellDistSq wrap nx i j' ∧
        (b < nnAssign wrap ny nx maxDist parents cens i → cellDistSq wrap nx i j < cellDistSq wrap nx i j') := by
  unfold nnAssign
  have hgs : 0 < max 2 (maxDist / 4) := by omega
  have hle : max 2 (maxDist / 4) ≤ maxDist := by omega
  generalize max 2 (maxDist / 4) = gs at *
  have hspec := nnLoop_spec wrap ny nx gs ((maxDist : ℚ) ^ 2) (by positivity) i parents 0 ⟨none, 0, false⟩ [] rfl (by simp)
    ⟨rfl, by simp⟩
  rw [← List.range_eq_range', List.nil_append] at hspec
  dsimp only at hspec ⊢
  generalize hst : ((List.range parents.length).zip parents).foldl (nnParent wrap ny nx gs ((maxDist : ℚ) ^ 2) i) ⟨none, 0, false⟩ = st at hspec ⊢
  obtain ⟨q0, hq0, j0, hj0, hd0⟩ := hnear
  have hmem0 := near_of_dist hn hgs wrap hw i j0 q0 hj0 hd0
  have hsq : ((gs : Nat) : ℚ) ^ 2 ≤ (maxDist : ℚ) ^ 2 := by
    have : (gs : ℚ) ≤ maxDist := by exact_mod_cast hle
    have h0 : (0 : ℚ) ≤ gs := by positivity
    nlinarith
  cases hb : st.best with
  | none =>
    rw [hb] at hspec
    exact absurd (hspec.2 q0 hq0 j0 hmem0) (by linarith)
  | some v =>
    rw [hb] at hspec
    obtain ⟨hv, ⟨q, hq, j, hj, hjv⟩, hall⟩ := hspec
    dsimp only
    refine ⟨q, hq, j, nearPoints_subset hj, ?_⟩
    obtain ⟨b0, hb0⟩ := List.mem_iff_getElem?.1 hq0
    have hv0 := (hall b0 q0 hb0 j0 hmem0).1
    intro b q' hbq j' hj'
    rw [hjv]
    by_cases hc : cellDistSq wrap nx i j' ≤ (gs : ℚ) ^ 2
    · exact hall b q' hbq j' (near_of_dist hn hgs wrap hw i j' q' hj' hc)
    · rw [not_le] at hc
      exact ⟨by linarith, fun _ => by linarith⟩

/-- The assignment is always a parent index. -/
theorem nnAssign_lt (wrap : Bool) (ny nx maxDist : Nat) (parents : List (List (Fin n))) (cens : List (ℚ × ℚ)) (i : Fin n)
    (hne : parents ≠ []) (hlen : cens.length = parents.length) : nnAssign wrap ny nx maxDist parents cens i < parents.length := by
  unfold nnAssign
  have hspec := nnLoop_spec wrap ny nx (max 2 (maxDist / 4)) ((maxDist : ℚ) ^ 2) (by positivity) i parents 0 ⟨none, 0, false⟩ [] rfl (by simp)
    ⟨rfl, by simp⟩
  rw [← List.range_eq_range', List.nil_append] at hspec
  dsimp only at hspec ⊢
  generalize hst : ((List.range parents.length).zip parents).foldl (nnParent wrap ny nx (max 2 (maxDist / 4)) ((maxDist : ℚ) ^ 2) i) ⟨none, 0, false⟩ = st at hspec ⊢
  cases hb : st.best with
  | none =>
    dsimp only
    rw [← hlen]
    have hc : cens.map (fun c => distSqPoint wrap nx (rowOf nx i) (colOf nx i) c.1 c.2) ≠ [] := by
      intro h
      rw [List.map_eq_nil_iff] at h
      rw [h] at hlen
      exact hne (List.length_eq_zero_iff.1 hlen.symm)
    simpa using argmin_lt hc
  | some v =>
    rw [hb] at hspec
    obtain ⟨_, ⟨q, hq, _⟩, _⟩ := hspec
    exact (List.getElem?_eq_some_iff.1 hq).1

end MarEx
