import Verif.Model.Overlap
import Verif.Lemmas.Util
import Verif.Lemmas.Components
import Mathlib.Algebra.BigOperators.Group.List.Basic
/-! Lemmas about overlap tables. -/
namespace MarEx
variable {n : Nat}

theorem sum_filter_eq_sum_ite {α : Type} (l : List α) (p : α → Bool) (w : α → ℚ) :
    ((l.filter p).map w).sum = (l.map fun i => if p i = true then w i else 0).sum := by
  induction l with
  | nil => rfl
  | cons a l ih =>
    by_cases h : p a = true
    · rw [List.filter_cons_of_pos h]; simp [h, ih]
    · rw [List.filter_cons_of_neg h]; simp [h, ih]

/-- Decoding inverts encoding. -/
theorem decode_encode {a b m : Nat} (h : b < m) : (a * m + b) / m = a ∧ (a * m + b) % m = b := by
  have hm : 0 < m := by omega
  constructor
  · rw [Nat.mul_comm, Nat.mul_add_div hm, Nat.div_eq_of_lt h, Nat.add_zero]
  · rw [Nat.mul_comm, Nat.mul_add_mod, Nat.mod_eq_of_lt h]

theorem code_inj {a b a' b' m : Nat} (h : b < m) (h' : b' < m) (e : a * m + b = a' * m + b') : a = a' ∧ b = b' := by
  have h1 := decode_encode (a := a) h
  have h2 := decode_encode (a := a') h'
  rw [e] at h1
  omega

/-- Weight shared by object `a` of `f` and object `b` of `g`. -/
def sharedWeight (w : Fin n → ℚ) (f g : Fin n → Nat) (a b : Nat) : ℚ :=
  ((List.finRange n).map fun i => if f i = a ∧ g i = b then w i else 0).sum

theorem mem_checkOverlapSlice {w : Fin n → ℚ} {f g : Fin n → Nat} {o : Ov} :
    o ∈ checkOverlapSlice w f g ↔
      0 < o.a ∧ 0 < o.b ∧ (∃ i, f i = o.a ∧ g i = o.b) ∧ o.v = sharedWeight w f g o.a o.b := by
  have hb : ∀ i, g i < max (fieldMax f) (fieldMax g + 1) := by
    intro i; have := le_fieldMax g i; omega
  unfold checkOverlapSlice
  dsimp only
  split
  · rename_i hemp
    simp only [List.isEmpty_iff, List.filter_eq_nil_iff, List.mem_finRange, true_implies, Bool.and_eq_true,
      decide_eq_true_eq] at hemp
    simp only [List.not_mem_nil, false_iff]
    rintro ⟨h1, h2, ⟨i, hi⟩, _⟩
    exact hemp i ⟨by omega, by omega⟩
  · simp only [List.mem_map, mem_npUnique, List.mem_filter, List.mem_finRange, true_and, Bool.and_eq_true,
      decide_eq_true_eq]
    -- the value stored for a code
    have hval : ∀ i, 0 < f i → 0 < g i →
        ((((List.finRange n).filter fun i => decide (0 < f i) && decide (0 < g i)).filter
            fun j => f j * max (fieldMax f) (fieldMax g + 1) + g j
              == f i * max (fieldMax f) (fieldMax g + 1) + g i).map w).sum = sharedWeight w f g (f i) (g i) := by
      intro i hfi hgi
      rw [List.filter_filter, sum_filter_eq_sum_ite]
      unfold sharedWeight
      congr 1
      apply List.map_congr_left
      intro j _
      congr 1
      simp only [Bool.and_eq_true, beq_iff_eq, decide_eq_true_eq, eq_iff_iff]
      constructor
      · rintro ⟨h, _⟩; exact code_inj (hb j) (hb i) h
      · rintro ⟨h1, h2⟩; rw [h1, h2]; exact ⟨rfl, hfi, hgi⟩
    constructor
    · rintro ⟨p, ⟨i, ⟨hfi, hgi⟩, rfl⟩, rfl⟩
      obtain ⟨d1, d2⟩ := decode_encode (a := f i) (hb i)
      dsimp only
      rw [d1, d2]
      exact ⟨hfi, hgi, ⟨i, rfl, rfl⟩, hval i hfi hgi⟩
    · rintro ⟨h1, h2, ⟨i, hi1, hi2⟩, hv⟩
      refine ⟨_, ⟨i, ⟨by omega, by omega⟩, rfl⟩, ?_⟩
      obtain ⟨d1, d2⟩ := decode_encode (a := f i) (hb i)
      rw [d1, d2, hval i (by omega) (by omega), hi1, hi2, ← hv]

theorem pairwise_checkOverlapSlice (w : Fin n → ℚ) (f g : Fin n → Nat) :
    ((checkOverlapSlice w f g).map fun o => (o.a, o.b)).Nodup := by
  have hb : ∀ i, g i < max (fieldMax f) (fieldMax g + 1) := by
    intro i; have := le_fieldMax g i; omega
  unfold checkOverlapSlice
  dsimp only
  split
  · simp
  · rw [List.map_map]
    apply List.Nodup.map_on _ (nodup_npUnique _)
    intro x hx y hy hxy
    simp only [Function.comp_apply, Prod.mk.injEq] at hxy
    rw [← Nat.div_add_mod x (max (fieldMax f) (fieldMax g + 1)), ← Nat.div_add_mod y (max (fieldMax f) (fieldMax g + 1)),
      hxy.1, hxy.2]

theorem mem_uniquePairs {l : List (Nat × Nat)} {p : Nat × Nat} : p ∈ uniquePairs l ↔ p ∈ l := by
  unfold uniquePairs
  simp only [List.mem_flatMap, mem_npUnique, List.mem_map, List.mem_filter, List.contains_iff_mem]
  constructor
  · rintro ⟨a, _, b, ⟨_, h⟩, rfl⟩; exact h
  · intro h; exact ⟨p.1, ⟨p, h, rfl⟩, p.2, ⟨⟨p, h, rfl⟩, h⟩, rfl⟩

theorem nodup_uniquePairs (l : List (Nat × Nat)) : (uniquePairs l).Nodup := by
  unfold uniquePairs
  rw [List.nodup_flatMap]
  refine ⟨fun a _ => ?_, ?_⟩
  · exact ((nodup_npUnique _).filter _).map (fun x y h => by simpa using h)
  · refine (nodup_npUnique _).imp ?_
    intro a b hab p hp hq
    simp only [List.mem_map] at hp hq
    obtain ⟨_, _, rfl⟩ := hp
    obtain ⟨_, _, h⟩ := hq
    simp only [Prod.mk.injEq] at h
    exact hab h.1.symm

theorem areaOf_isSome {props : List Obj} {k : Nat} : (areaOf props k).isSome = true ↔ hasId props k = true := by
  unfold areaOf hasId
  rw [Option.isSome_map, List.find?_isSome, List.any_eq_true]

theorem checkOverlapSlice_zero (w : Fin n → ℚ) (f : Fin n → Nat) : checkOverlapSlice w f (fun _ => 0) = [] := by
  rw [List.eq_nil_iff_forall_not_mem]
  intro o ho
  obtain ⟨_, h, ⟨i, _, hi⟩, _⟩ := mem_checkOverlapSlice.mp ho
  omega

theorem allOverlaps_eq (w : Fin n → ℚ) (fs : List (Fin n → Nat)) :
    allOverlaps w fs = (fs.zip fs.tail).flatMap fun p => checkOverlapSlice w p.1 p.2 := by
  induction fs with
  | nil => rfl
  | cons f fs ih =>
    cases fs with
    | nil => simp [allOverlaps, checkOverlapSlice_zero]
    | cons g fs => rw [allOverlaps, ih]; rfl

/-- The overlap recorded for `(a, b)` in one slice, 0 if the pair is not listed. -/
theorem sum_slice (w : Fin n → ℚ) (f g : Fin n → Nat) (a b : Nat) (ha : 0 < a) (hb : 0 < b) :
    (((checkOverlapSlice w f g).filter fun o => o.a == a && o.b == b).map (·.v)).sum = sharedWeight w f g a b := by
  by_cases hex : ∃ i, f i = a ∧ g i = b
  · have hm : (⟨a, b, sharedWeight w f g a b⟩ : Ov) ∈ checkOverlapSlice w f g :=
      mem_checkOverlapSlice.mpr ⟨ha, hb, hex, rfl⟩
    have hnd := pairwise_checkOverlapSlice w f g
    have : (checkOverlapSlice w f g).filter (fun o => o.a == a && o.b == b) = [⟨a, b, sharedWeight w f g a b⟩] := by
      generalize checkOverlapSlice w f g = l at hm hnd
      induction l with
      | nil => simp at hm
      | cons x l ih =>
        simp only [List.map_cons, List.nodup_cons] at hnd
        by_cases hx : x.a = a ∧ x.b = b
        · have hnone : l.filter (fun o => o.a == a && o.b == b) = [] := by
            rw [List.filter_eq_nil_iff]
            intro o ho hc
            simp only [Bool.and_eq_true, beq_iff_eq] at hc
            exact hnd.1 (List.mem_map.mpr ⟨o, ho, by rw [hx.1, hx.2, hc.1, hc.2]⟩)
          rw [List.filter_cons_of_pos (by simp [hx]), hnone]
          rcases List.mem_cons.mp hm with h | h
          · rw [h]
          · exfalso
            exact hnd.1 (List.mem_map.mpr ⟨_, h, by simp [hx.1, hx.2]⟩)
        · rw [List.filter_cons_of_neg (by simpa using hx)]
          rcases List.mem_cons.mp hm with h | h
          · exact absurd (by rw [← h]; exact ⟨rfl, rfl⟩) hx
          · exact ih h hnd.2
    rw [this]; simp
  · have : (checkOverlapSlice w f g).filter (fun o => o.a == a && o.b == b) = [] := by
      rw [List.filter_eq_nil_iff]
      intro o ho hc
      simp only [Bool.and_eq_true, beq_iff_eq] at hc
      obtain ⟨_, _, h, _⟩ := mem_checkOverlapSlice.mp ho
      rw [hc.1, hc.2] at h
      exact hex h
    rw [this]
    unfold sharedWeight
    have : (List.finRange n).map (fun i => if f i = a ∧ g i = b then w i else 0) = (List.finRange n).map (fun _ => (0 : ℚ)) := by
      apply List.map_congr_left
      intro i _
      rw [if_neg (fun h => hex ⟨i, h⟩)]
    rw [this]
    simp

theorem sum_all (w : Fin n → ℚ) (fs : List (Fin n → Nat)) (a b : Nat) (ha : 0 < a) (hb : 0 < b) :
    (((allOverlaps w fs).filter fun o => o.a == a && o.b == b).map (·.v)).sum
      = ((fs.zip fs.tail).map fun p => sharedWeight w p.1 p.2 a b).sum := by
  rw [allOverlaps_eq]
  generalize fs.zip fs.tail = ps
  induction ps with
  | nil => rfl
  | cons p ps ih =>
    rw [List.flatMap_cons, List.filter_append, List.map_append, List.sum_append, List.map_cons, List.sum_cons, ih,
      sum_slice w p.1 p.2 a b ha hb]

theorem mem_findOverlaps {w : Fin n → ℚ} {fs : List (Fin n → Nat)} {o : Ov} :
    o ∈ findOverlaps w fs ↔ 0 < o.a ∧ 0 < o.b ∧ (∃ p ∈ fs.zip fs.tail, ∃ i, p.1 i = o.a ∧ p.2 i = o.b) ∧
      o.v = ((fs.zip fs.tail).map fun p => sharedWeight w p.1 p.2 o.a o.b).sum := by
  have hex : ∀ a b, ((a, b) ∈ (allOverlaps w fs).map fun o => (o.a, o.b)) ↔
      0 < a ∧ 0 < b ∧ (∃ p ∈ fs.zip fs.tail, ∃ i, p.1 i = a ∧ p.2 i = b) := by
    intro a b
    rw [allOverlaps_eq]
    simp only [List.mem_map, List.mem_flatMap, Prod.mk.injEq]
    constructor
    · rintro ⟨o, ⟨p, hp, ho⟩, rfl, rfl⟩
      obtain ⟨h1, h2, h3, _⟩ := mem_checkOverlapSlice.mp ho
      exact ⟨h1, h2, p, hp, h3⟩
    · rintro ⟨h1, h2, p, hp, h3⟩
      exact ⟨⟨a, b, sharedWeight w p.1 p.2 a b⟩, ⟨p, hp, mem_checkOverlapSlice.mpr ⟨h1, h2, h3, rfl⟩⟩, rfl, rfl⟩
  unfold findOverlaps
  simp only [List.mem_map, mem_uniquePairs]
  constructor
  · rintro ⟨p, hp, rfl⟩
    have := (hex p.1 p.2).mp (by simpa using hp)
    refine ⟨this.1, this.2.1, this.2.2, ?_⟩
    dsimp only
    rw [sum_all w fs p.1 p.2 this.1 this.2.1]
  · rintro ⟨h1, h2, h3, hv⟩
    refine ⟨(o.a, o.b), ?_, ?_⟩
    · have := (hex o.a o.b).mpr ⟨h1, h2, h3⟩
      simpa using this
    · rw [sum_all w fs o.a o.b h1 h2, ← hv]

theorem nodup_findOverlaps (w : Fin n → ℚ) (fs : List (Fin n → Nat)) :
    ((findOverlaps w fs).map fun o => (o.a, o.b)).Nodup := by
  unfold findOverlaps
  rw [List.map_map]
  have : ((fun o : Ov => (o.a, o.b)) ∘ fun p : Nat × Nat =>
      ({ a := p.1, b := p.2, v := (((allOverlaps w fs).filter fun o => o.a == p.1 && o.b == p.2).map (·.v)).sum } : Ov)) = id := by
    funext p; rfl
  rw [this, List.map_id]
  exact nodup_uniquePairs _

end MarEx
