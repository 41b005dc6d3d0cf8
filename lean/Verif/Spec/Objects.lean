import Mathlib.Data.Finset.Card
import Mathlib.Data.Finset.Image
import Mathlib.Data.Fintype.Basic
import Mathlib.Data.Multiset.Basic
import Mathlib.Algebra.Order.Field.Rat
/-! Specification vocabulary for label fields and for quantiles. -/
namespace MarEx.Spec
variable {n : Nat}

/-- Number of cells carrying ID `k` in one step. -/
def size (f : Fin n → Nat) (k : Nat) : Nat := (Finset.univ.filter fun i => f i = k).card

/-- The objects (positive IDs) of one step. -/
def objectsOf (f : Fin n → Nat) : Finset Nat := (Finset.univ.image f).filter fun k => 0 < k

/-- The sizes of all objects of a record, each object of each step counted once. -/
def allSizes : List (Fin n → Nat) → Multiset Nat
  | [] => 0
  | f :: fs => (objectsOf f).val.map (size f) + allSizes fs

/-- The number of objects of `f` that still have a cell in the selection `g`. -/
def survivors (f : Fin n → Nat) (g : Fin n → Bool) : Nat := ((objectsOf f).filter fun k => ∃ i, f i = k ∧ g i = true).card

/-- The first object of the record: no earlier step has an object, and no object of its own step has a smaller ID. -/
def IsFirst (labels : List (Fin n → Nat)) (t k : Nat) : Prop :=
  (∀ (s : Nat) (f : Fin n → Nat), s < t → labels[s]? = some f → ∀ i, f i = 0) ∧
  ∀ (f : Fin n → Nat), labels[t]? = some f → ∀ i, 0 < f i → k ≤ f i

/-- `v` is the `q`-quantile of the numbers `xs` with linear interpolation: with the numbers in increasing order, from position 0,
it lies at position `q (N - 1)`, interpolating between the two neighbouring numbers. -/
def IsQuantile (xs : Multiset ℚ) (q v : ℚ) : Prop :=
  ∃ (s : List ℚ) (k : Nat) (r lo hi : ℚ), (s : Multiset ℚ) = xs ∧ s.Pairwise (· ≤ ·) ∧ 0 ≤ r ∧ r < 1 ∧
    q * ((s.length : ℚ) - 1) = k + r ∧ s[k]? = some lo ∧ (s[k + 1]? = some hi ∨ r = 0) ∧ v = lo + r * (hi - lo)

end MarEx.Spec
