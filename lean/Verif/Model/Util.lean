import Mathlib.Algebra.Order.Field.Rat
import Mathlib.Data.Rat.Floor
/-! Models of the numpy routines the code calls. -/
namespace MarEx

/-- `np.unique` on non-negative integers: the distinct values in increasing order. -/
def npUnique (l : List Nat) : List Nat := (List.range (l.foldl max 0 + 1)).filter fun k => l.contains k

/-- `np.percentile(xs, 100*q)` with the default linear interpolation, for a non-empty list and `0 ≤ q ≤ 1`
(called at track.py 1843, 1889): sort, virtual index `q*(n-1)`, interpolate between the two neighbouring order statistics. -/
def percentile (xs : List ℚ) (q : ℚ) : ℚ :=
  let s := xs.mergeSort (fun a b => decide (a ≤ b))
  let v := q * ((s.length : ℚ) - 1)
  let k := ⌊v⌋.toNat
  let lo := s.getD k 0
  let hi := s.getD (min (k + 1) (s.length - 1)) 0
  lo + (v - k) * (hi - lo)

end MarEx
