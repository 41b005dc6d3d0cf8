import Mathlib.Algebra.Order.Field.Rat
/-! Specification vocabulary for partitions. -/
namespace MarEx.Spec

/-- `d` is the squared distance between (y1, x1) and the nearest of the periodic images (y2, x2 + k·Nx). -/
def PeriodicDistSq (Nx y1 x1 y2 x2 d : ℚ) : Prop :=
  (∃ k : Int, d = (y1 - y2) ^ 2 + (x1 - (x2 + k * Nx)) ^ 2) ∧ ∀ k : Int, d ≤ (y1 - y2) ^ 2 + (x1 - (x2 + k * Nx)) ^ 2

/-- `d` is the squared distance between two points of a plain (regional) grid. -/
def PlainDistSq (y1 x1 y2 x2 d : ℚ) : Prop := d = (y1 - y2) ^ 2 + (x1 - x2) ^ 2

/-- Squared distance, periodic in x or not. -/
def DistSq (wrap : Bool) (Nx y1 x1 y2 x2 d : ℚ) : Prop :=
  if wrap then PeriodicDistSq Nx y1 x1 y2 x2 d else PlainDistSq y1 x1 y2 x2 d

/-- `r` is the first position of the smallest entry of `l`. -/
def FirstMin (l : List ℚ) (r : Nat) : Prop := ∃ v, l[r]? = some v ∧ ∀ j u, l[j]? = some u → v ≤ u ∧ (j < r → v < u)

/-- `q` is reached from `p` in exactly `k` steps along the neighbour table (`none`: missing neighbour). -/
inductive Hops {n : Nat} (nbr : Fin 3 → Fin n → Option (Fin n)) : Nat → Fin n → Fin n → Prop
  | zero (p : Fin n) : Hops nbr 0 p p
  | succ {p p1 q : Fin n} {k : Nat} (d : Fin 3) : nbr d p = some p1 → Hops nbr k p1 q → Hops nbr (k + 1) p q

/-- `q` is reached from `p` in `k` neighbour hops, each of which leads to a cell of the object `S`. -/
inductive HopsIn {n : Nat} (nbr : Fin 3 → Fin n → Option (Fin n)) (S : Fin n → Bool) : Nat → Fin n → Fin n → Prop
  | zero (p : Fin n) : HopsIn nbr S 0 p p
  | succ {k : Nat} {p q r : Fin n} (d : Fin 3) : nbr d p = some q → S q = true → HopsIn nbr S k q r → HopsIn nbr S (k + 1) p r

end MarEx.Spec
