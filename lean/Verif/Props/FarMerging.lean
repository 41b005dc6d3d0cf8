import Verif.Props.FarAway
import Verif.Props.Choice
/-! C199 with `allow_merging = True`. -/
namespace MarEx.Props
open MarEx Spec

/-- Cell 0, twice; nothing; cells 0–4; cells 4–8. -/
def leaning : List (Fin (1 * 9) → Bool) := [cellsFrom 0 0, cellsFrom 0 0, fun _ => false, cellsFrom 0 4, cellsFrom 4 8]

/-- The same, without cells 7 and 8 of the last step. -/
def leaningCut : List (Fin (1 * 9) → Bool) := [cellsFrom 0 0, cellsFrom 0 0, fun _ => false, cellsFrom 0 4, cellsFrom 4 6]

theorem leaning_far (i : Fin (1 * 9)) (hi : i.val ≤ 4) : SameWithin true 1 9 2 leaning leaningCut i := by
  rintro t j ⟨dy, dx, -, hdx, -, hc⟩
  have hj : j.val ≤ 6 := by
    have h9 : j.val < 9 := j.isLt
    have h9' : i.val < 9 := i.isLt
    rw [Nat.mod_eq_of_lt h9, Nat.mod_eq_of_lt h9'] at hc
    unfold moved at hc
    rw [if_pos rfl] at hc
    omega
  unfold IsExtreme
  match t with
  | 0 | 1 | 2 | 3 => rfl
  | 4 => simp [leaning, leaningCut, cellsFrom]; omega
  | t + 5 => simp [leaning, leaningCut]

/-- **C199** negative, with `allow_merging = True`: whether an object continues an event depends on its size, and so on cells far from the event. The event of
cells 0–4 at step 3 is unchanged within `6 R_fill + ⌈a⌉ + 1 = 2` cells of all its cells, at all steps; it lasts one step in the first run, and goes on at step 4 in
the second. -/
theorem C199_overlap_fails : (∀ i : Fin (1 * 9), i.val ≤ 4 → SameWithin true 1 9 2 leaning leaningCut i) ∧ ∃ pre ids pre' ids',
    runGrid quickFind (rowRun 9 true (1 / 3)) [5] leaning = .ok (pre, ids) ∧ runGrid quickFind (rowRun 9 true (1 / 3)) [5] leaningCut = .ok (pre', ids') ∧
    (∀ u j, SameEvent ids 3 0 u j ↔ u = 3 ∧ j.val ≤ 4) ∧ SameEvent ids' 3 0 4 4 := by
  refine ⟨leaning_far, ?_⟩
  have h1 : (match runGrid quickFind (rowRun 9 true (1 / 3)) [5] leaning with
    | .ok (_, [a, b, c, g, e]) => decide (0 < g 0 ∧ ∀ j, a j ≠ g 0 ∧ b j ≠ g 0 ∧ c j ≠ g 0 ∧ e j ≠ g 0 ∧ (g j = g 0 ↔ j.val ≤ 4))
    | _ => false) = true := by decide +kernel
  have h2 : (match runGrid quickFind (rowRun 9 true (1 / 3)) [5] leaningCut with
    | .ok (_, [_, _, _, g, e]) => decide (0 < g 0 ∧ e 4 = g 0) | _ => false) = true := by decide +kernel
  split at h1
  · rename_i pre a b c g e hr
    split at h2
    · rename_i pre' a' b' c' g' e' hr'
      obtain ⟨k1, k2⟩ := of_decide_eq_true h1
      obtain ⟨m1, m2⟩ := of_decide_eq_true h2
      refine ⟨_, _, _, _, hr, hr', ?_, ⟨g', e', rfl, rfl, m1, m2.symm⟩⟩
      intro u j
      obtain ⟨n0, n1, n2, n4, n3⟩ := k2 j
      constructor
      · rintro ⟨x, y, hx, hy, -, he⟩
        cases hx
        match u with
        | 0 => cases hy; exact absurd he.symm n0
        | 1 => cases hy; exact absurd he.symm n1
        | 2 => cases hy; exact absurd he.symm n2
        | 3 => cases hy; exact ⟨rfl, n3.1 he.symm⟩
        | 4 => cases hy; exact absurd he.symm n4
        | u + 5 => simp at hy
      · rintro ⟨rfl, hj⟩
        exact ⟨g, g, rfl, rfl, k1, (n3.2 hj).symm⟩
    · cases h2
  · cases h1

end MarEx.Props
