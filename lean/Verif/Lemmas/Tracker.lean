import Verif.Model.Tracker
import Mathlib.Tactic.Linarith
import Mathlib.Tactic.NormNum
/-! Lemmas about the tracker constructor. -/
namespace MarEx
open Spec

theorem require_ok {c : Prop} [Decidable c] {e : CErr} {u : Unit} : require c e = .ok u ↔ c := by
  unfold require
  split <;> simp_all

theorem require_bind {α : Type} {c : Prop} [Decidable c] {e : CErr} {f : Unit → Except CErr α} {x : α} :
    (require c e >>= f) = .ok x ↔ c ∧ f () = .ok x := by
  unfold require
  split
  · simp_all [bind, Except.bind]
  · simp_all [bind, Except.bind]

theorem except_bind_ok {α β : Type} {m : Except CErr α} {f : α → Except CErr β} {x : β} :
    (m >>= f) = .ok x ↔ ∃ y, m = .ok y ∧ f y = .ok x := by
  cases m <;> simp [bind, Except.bind]

theorem foldl_max_spec (xs : List ℚ) (x : ℚ) : xs.foldl max x ∈ x :: xs ∧ ∀ y ∈ x :: xs, y ≤ xs.foldl max x := by
  induction xs generalizing x with
  | nil => simp
  | cons z zs ih =>
    obtain ⟨h1, h2⟩ := ih (max x z)
    rw [List.foldl_cons]
    refine ⟨?_, fun y hy => ?_⟩
    · rcases List.mem_cons.mp h1 with h | h
      · rw [h]
        rcases max_choice x z with h' | h' <;> rw [h'] <;> simp
      · simp [h]
    · have hm := h2 (max x z) (by simp)
      rcases List.mem_cons.mp hy with rfl | h
      · exact le_trans (le_max_left _ _) hm
      · rcases List.mem_cons.mp h with rfl | h
        · exact le_trans (le_max_right _ _) hm
        · exact h2 y (by simp [h])

theorem foldl_min_spec (xs : List ℚ) (x : ℚ) : xs.foldl min x ∈ x :: xs ∧ ∀ y ∈ x :: xs, xs.foldl min x ≤ y := by
  induction xs generalizing x with
  | nil => simp
  | cons z zs ih =>
    obtain ⟨h1, h2⟩ := ih (min x z)
    rw [List.foldl_cons]
    refine ⟨?_, fun y hy => ?_⟩
    · rcases List.mem_cons.mp h1 with h | h
      · rw [h]
        rcases min_choice x z with h' | h' <;> rw [h'] <;> simp
      · simp [h]
    · have hm := h2 (min x z) (by simp)
      rcases List.mem_cons.mp hy with rfl | h
      · exact le_trans hm (min_le_left _ _)
      · rcases List.mem_cons.mp h with rfl | h
        · exact le_trans hm (min_le_right _ _)
        · exact h2 y (by simp [h])

theorem lonRange_ok {v : List ℚ} {r : ℚ} : lonRange v = .ok r ↔ IsSpan v r := by
  cases v with
  | nil => simp [lonRange, IsSpan]
  | cons x xs =>
    obtain ⟨h1, h2⟩ := foldl_max_spec xs x
    obtain ⟨h3, h4⟩ := foldl_min_spec xs x
    unfold lonRange IsSpan
    rw [Except.ok.injEq]
    constructor
    · rintro rfl
      exact ⟨_, h3, _, h1, fun y hy => ⟨h4 y hy, h2 y hy⟩, rfl⟩
    · rintro ⟨lo, hlo, hi, hhi, hb, rfl⟩
      have e1 : xs.foldl max x = hi := le_antisymm (hb _ h1).2 (h2 _ hhi)
      have e2 : xs.foldl min x = lo := le_antisymm (h4 _ hlo) (hb _ h3).1
      rw [e1, e2]

theorem readCoord_ok {a : Arr} {k : String} {v : List ℚ} : readCoord a k = .ok v ↔ a.Reads k v := by
  unfold readCoord Arr.Reads
  cases h : a.coord k with
  | some w => simp
  | none =>
    by_cases hk : k ∈ a.dims
    · simp [hk, eq_comm]
    · simp [hk]

theorem npPi_bounds : (314 : ℚ) / 100 < npPi ∧ npPi < 315 / 100 := by unfold npPi; constructor <;> norm_num

theorem resolveUnits_ok {regional : Bool} {units : Option String} {lon : List ℚ} {rad : Bool} :
    resolveUnits regional units lon = .ok rad ↔ UnitsAre (2 * npPi) regional units lon rad := by
  unfold resolveUnits UnitsAre
  have hu : ∀ u : String, ((if u ∉ ["degrees", "radians"] then (Except.error CErr.coordinate : Except CErr Bool) else .ok (u == "radians")) = .ok rad) ↔
      (u = "degrees" ∧ rad = false) ∨ (u = "radians" ∧ rad = true) := by
    intro u
    by_cases h1 : u = "degrees"
    · subst h1; simp [eq_comm]
    · by_cases h2 : u = "radians"
      · subst h2; simp [eq_comm]
      · simp [h1, h2]
  cases regional <;> cases units with
  | some u => simp only [Bool.false_eq_true, if_false, if_true]; rw [hu]; simp
  | none =>
    simp only [Bool.false_eq_true, if_false, if_true, reduceCtorEq, false_and, false_or, true_and]
    try
      (cases hl : lonRange lon with
      | error e =>
        simp only [reduceCtorEq, false_iff]
        rintro ⟨r, hr, _⟩
        rw [lonRange_ok.mpr hr] at hl
        cases hl
      | ok r =>
        have hr := lonRange_ok.mp hl
        have huniq : ∀ r', IsSpan lon r' → r' = r := fun r' h' => by
          have := lonRange_ok.mpr h'
          rw [hl] at this
          exact (Except.ok.inj this).symm
        constructor
        · intro h
          refine ⟨r, hr, ?_⟩
          dsimp only at h
          by_cases h1 : |r - 360| ≤ 1
          · rw [if_pos h1] at h; left; exact ⟨h1, (Except.ok.inj h).symm⟩
          · rw [if_neg h1] at h
            by_cases h2 : |r - 2 * npPi| ≤ 2 / 100
            · rw [if_pos h2] at h; right; exact ⟨h2, (Except.ok.inj h).symm⟩
            · rw [if_neg h2] at h; cases h
        · rintro ⟨r', hr', h⟩
          rw [huniq r' hr'] at h
          dsimp only
          rcases h with ⟨h1, rfl⟩ | ⟨h2, rfl⟩
          · rw [if_pos h1]
          · rw [if_neg, if_pos h2]
            intro h1
            have := abs_le.mp h1
            have := abs_le.mp h2
            have := npPi_bounds.2
            linarith)

end MarEx
