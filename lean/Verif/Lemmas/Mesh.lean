import Verif.Spec.Mesh
/-! Helper lemmas for mesh morphology. -/
namespace MarEx
open Spec

variable {n : Nat}

theorem toCell_eq_some {k : Int} {j : Fin n} : toCell n k = some j ↔ k = j.val := by
  unfold toCell
  constructor
  · intro h
    split at h
    · rename_i hk
      simp only [Option.some.injEq] at h
      rw [← h]; simp only; omega
    · simp at h
  · intro h
    have := j.isLt
    rw [dif_pos (by omega)]
    simp only [Option.some.injEq]
    apply Fin.ext
    simp only; omega

theorem mem_dilationRow {nbr : NbrTable n} {i j : Fin n} :
    j ∈ dilationRow nbr i ↔ ListsNeighbour nbr i j ∨ j = i := by
  unfold dilationRow ListsNeighbour neighboursInt
  simp only [List.mem_append, List.mem_filterMap, List.mem_finRange, true_and, List.mem_singleton, toCell_eq_some]
  constructor
  · rintro (⟨v, hv⟩ | h)
    · exact Or.inl ⟨v, by omega⟩
    · exact Or.inr h
  · rintro (⟨v, hv⟩ | h)
    · exact Or.inl ⟨v, by omega⟩
    · exact Or.inr h

theorem Spec.HopsLE.weaken {V : Type} {s : V → V → Prop} {k : Nat} {a b : V} (h : HopsLE s k a b) :
    HopsLE s (k + 1) a b := by
  induction h with
  | here k a => exact .here _ _
  | hop h1 _ ih => exact .hop h1 ih

theorem Spec.HopsLE.mono {V : Type} {s : V → V → Prop} {k l : Nat} {a b : V} (h : HopsLE s k a b) (hkl : k ≤ l) :
    HopsLE s l a b := by
  induction hkl with
  | refl => exact h
  | step _ ih => exact ih.weaken

theorem Spec.HopsLE.trans {V : Type} {s : V → V → Prop} {k l : Nat} {a b c : V} (h : HopsLE s k a b)
    (h' : HopsLE s l b c) : HopsLE s (k + l) a c := by
  induction h with
  | here k a => exact h'.mono (by omega)
  | hop h1 _ ih => rw [Nat.add_right_comm]; exact .hop h1 (ih h')

theorem Spec.HopsLE.symm {V : Type} {s : V → V → Prop} (hs : ∀ a b, s a b → s b a) {k : Nat} {a b : V}
    (h : HopsLE s k a b) : HopsLE s k b a := by
  induction h with
  | here k a => exact .here _ _
  | @hop k a b c h1 _ ih => exact ih.trans (l := 1) (.hop (hs _ _ h1) (.here _ _))

theorem Spec.HopsLE.split {V : Type} {s : V → V → Prop} {l : Nat} :
    ∀ {k : Nat} {a c : V}, HopsLE s (k + l) a c → ∃ b, HopsLE s k a b ∧ HopsLE s l b c
  | 0, a, c, h => ⟨a, .here _ _, by simpa using h⟩
  | k + 1, a, c, h => by
    rw [Nat.add_right_comm] at h
    cases h with
    | here => exact ⟨a, .here _ _, .here _ _⟩
    | hop h1 h2 =>
      obtain ⟨b, hb1, hb2⟩ := HopsLE.split h2
      exact ⟨b, .hop h1 hb1, hb2⟩

theorem power_iff {nbr : NbrTable n} {f : Fin n → Bool} {R : Nat} {i : Fin n} :
    sparseBoolPower (dilationRow nbr) f R i = true ↔ ∃ j, f j = true ∧ WithinHops nbr R i j := by
  unfold WithinHops
  induction R generalizing i with
  | zero =>
    simp only [sparseBoolPower]
    constructor
    · intro h; exact ⟨i, h, .here _ _⟩
    · rintro ⟨j, hj, hh⟩
      cases hh; exact hj
  | succ R ih =>
    simp only [sparseBoolPower, sparseStep, List.any_eq_true, mem_dilationRow]
    constructor
    · rintro ⟨j, hj, hp⟩
      obtain ⟨k, hk, hw⟩ := ih.1 hp
      rcases hj with hj | rfl
      · exact ⟨k, hk, .hop hj hw⟩
      · exact ⟨k, hk, hw.weaken⟩
    · rintro ⟨k, hk, hw⟩
      cases hw with
      | here => exact ⟨i, Or.inr rfl, ih.2 ⟨i, hk, .here _ _⟩⟩
      | hop h1 h2 => exact ⟨_, Or.inl h1, ih.2 ⟨k, hk, h2⟩⟩

theorem dilateMesh_iff {nbr : NbrTable n} {f : Fin n → Bool} {R : Nat} {i : Fin n} :
    dilateMesh (dilationRow nbr) R f i = true ↔ ∃ j, f j = true ∧ WithinHops nbr R i j := power_iff

theorem erodeMesh_iff {nbr : NbrTable n} {f : Fin n → Bool} {R : Nat} {i : Fin n} :
    erodeMesh (dilationRow nbr) R f i = true ↔ ∀ j, WithinHops nbr R i j → f j = true := by
  unfold erodeMesh
  rw [Bool.not_eq_true', ← Bool.not_eq_true, power_iff]
  constructor
  · intro h j hj
    cases hf : f j
    · exact absurd ⟨j, by simp [hf], hj⟩ h
    · rfl
  · rintro h ⟨j, hf, hj⟩
    simp [h j hj] at hf

theorem setLandTrue_iff {mask f : Fin n → Bool} {i : Fin n} :
    setLandTrue mask f i = true ↔ (mask i = true → f i = true) := by
  unfold setLandTrue
  split <;> simp_all

theorem closeMesh_iff {nbr : NbrTable n} {mask f : Fin n → Bool} {R : Nat} {i : Fin n} :
    closeMesh (dilationRow nbr) mask R f i = true ↔
      ∀ j, WithinHops nbr R i j → mask j = true → ∃ k, f k = true ∧ WithinHops nbr R j k := by
  unfold closeMesh
  rw [erodeMesh_iff]
  constructor
  · intro h j hj hm
    have := setLandTrue_iff.1 (h j hj) hm
    exact dilateMesh_iff.1 this
  · intro h j hj
    exact setLandTrue_iff.2 fun hm => dilateMesh_iff.2 (h j hj hm)

theorem openMesh_iff {nbr : NbrTable n} {mask f : Fin n → Bool} {R : Nat} {i : Fin n} :
    openMesh (dilationRow nbr) mask R f i = true ↔
      ∃ j, WithinHops nbr R i j ∧ ∀ k, WithinHops nbr R j k → mask k = true → f k = true := by
  unfold openMesh
  rw [dilateMesh_iff]
  constructor
  · rintro ⟨j, hj, hw⟩
    exact ⟨j, hw, fun k hk => setLandTrue_iff.1 (erodeMesh_iff.1 hj k hk)⟩
  · rintro ⟨j, hw, h⟩
    exact ⟨j, erodeMesh_iff.2 fun k hk => setLandTrue_iff.2 (h k hk), hw⟩

theorem Spec.WithinHops.symm {nbr : NbrTable n} (hs : SymmetricTable nbr) {R : Nat} {i j : Fin n}
    (h : WithinHops nbr R i j) : WithinHops nbr R j i := HopsLE.symm hs h

end MarEx
