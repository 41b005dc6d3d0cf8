import Verif.Spec.Graph
/-! Specification vocabulary for structured grids. -/
namespace MarEx.Spec

/-- Two cells of a grid of `nx` columns touch (edge, corner or equal): rows differ by at most one and columns differ by at most one,
counted around the globe unless `regional`. -/
def Touch {n : Nat} (regional : Bool) (nx : Nat) (i j : Fin n) : Prop :=
  ((i.val / nx : Int) - (j.val / nx : Int)).natAbs ≤ 1 ∧
  ∃ d : Int, d.natAbs ≤ 1 ∧
    if regional then ((j.val % nx : Nat) : Int) = (i.val % nx : Nat) + d else ((j.val % nx : Nat) : Int) = ((i.val % nx : Nat) + d) % nx

/-- Cell `i` is extreme at step `t` of a record. -/
def IsExtreme {n : Nat} (data : List (Fin n → Bool)) (t : Nat) (i : Fin n) : Prop := ∃ d, data[t]? = some d ∧ d i = true

/-- Touching extreme cells of one step. -/
def JoinedInStep {n : Nat} (regional : Bool) (nx : Nat) (data : List (Fin n → Bool)) (t : Nat) (i j : Fin n) : Prop :=
  Touch regional nx i j ∧ IsExtreme data t i ∧ IsExtreme data t j

/-- Touching extreme cells of equal or consecutive steps. -/
def JoinedInTime {n : Nat} (regional : Bool) (nx : Nat) (data : List (Fin n → Bool)) (a b : Nat × Fin n) : Prop :=
  ((a.1 : Int) - b.1).natAbs ≤ 1 ∧ Touch regional nx a.2 b.2 ∧ IsExtreme data a.1 a.2 ∧ IsExtreme data b.1 b.2

end MarEx.Spec
