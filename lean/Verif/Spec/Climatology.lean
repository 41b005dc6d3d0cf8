import Mathlib.Algebra.Order.Field.Rat
import Mathlib.Tactic
/-! Specification vocabulary for baselines and anomalies: what a sample is, and what "the mean of the valid samples" means. -/
namespace MarEx

/-- One time step of the series of one location: calendar year, day of year, and the value (`none` is NaN). -/
structure Sample where
  year : Nat
  doy : Nat
  val : Option ℚ
deriving DecidableEq, Repr

namespace Spec

/-- `m` is the mean of the numbers in `l`, missing exactly when there are none. -/
def IsMean (l : List ℚ) (m : Option ℚ) : Prop :=
  (l = [] ∧ m = none) ∨ (l ≠ [] ∧ ∃ a : ℚ, m = some a ∧ a * (l.length : ℚ) = l.sum)

/-- The numbers among the values of some samples. -/
def numbers (l : List Sample) : List ℚ := l.filterMap Sample.val

/-- The samples on day-of-year `d` in the `W` years before year `y`. -/
def baseline (W y d : Nat) (record : List Sample) : List Sample :=
  record.filter fun r => r.doy = d ∧ y ≤ r.year + W ∧ r.year < y

/-- Two records on the same dates. -/
def SameDates (a b : List Sample) : Prop := a.map (fun s => (s.year, s.doy)) = b.map (fun s => (s.year, s.doy))

end Spec
end MarEx
