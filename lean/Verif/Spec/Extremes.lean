import Verif.Spec.Threshold
import Verif.Spec.Objects
/-! Specification vocabulary for the exact percentile method. -/
namespace MarEx.Spec

/-- All values of a record. -/
def values (record : List Sample) : List ℚ := record.filterMap Sample.val

/-- The values pooled for day of year `d`: for every step on that day, the values of the steps at most `h` steps before or after it. A step that is
near several steps on day `d` counts once for each. -/
def stepPool (h : Nat) (record : List Sample) (d : Nat) : List ℚ :=
  (List.range record.length).flatMap fun i => match record[i]? with
    | none => []
    | some s => if s.doy = d then
        (List.range record.length).filterMap fun j => if i ≤ j + h ∧ j ≤ i + h then (record[j]?).bind Sample.val else none
      else []

end MarEx.Spec
