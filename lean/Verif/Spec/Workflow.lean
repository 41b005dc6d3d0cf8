import Verif.Spec.Grid
import Verif.Spec.Objects
import Verif.Spec.Threshold
import Verif.Spec.Graph
/-! Specification vocabulary for the workflow from raw data to events, in terms of the returned anomalies and thresholds. -/
namespace MarEx.Spec
variable {n : Nat}

/-- The anomaly of step `t` is a number and at least the threshold stored for it: the one of its day of year (`perDay`), or the only one. -/
def Exceeds (perDay : Prop) [Decidable perDay] (anomalies : List Sample) (thresholds : List (Option ℚ)) (t : Nat) : Prop :=
  ∃ s v h, anomalies[t]? = some s ∧ s.val = some v ∧ thresholds[if perDay then s.doy - 1 else 0]? = some (some h) ∧ h ≤ v

/-- Two cells that are both `hot` at a step and related by `touch`. -/
def TouchingHot (touch : Fin n → Fin n → Prop) (hot : Nat → Fin n → Prop) (t : Nat) (i j : Fin n) : Prop :=
  touch i j ∧ hot t i ∧ hot t j

open Classical in
/-- The number of cells in the cluster of cell `i` at step `t`. -/
noncomputable def clusterSize (touch : Fin n → Fin n → Prop) (hot : Nat → Fin n → Prop) (t : Nat) (i : Fin n) : Nat :=
  (Finset.univ.filter fun j => Linked (TouchingHot touch hot t) i j).card

/-- `labels` numbers the clusters of touching hot cells of every step. -/
def Numbers (touch : Fin n → Fin n → Prop) (hot : Nat → Fin n → Prop) (labels : List (Fin n → Nat)) : Prop :=
  ∀ (t : Nat) (f : Fin n → Nat), labels[t]? = some f → ∀ i j, (0 < f i ↔ hot t i) ∧
    ((0 < f i ∧ f i = f j) ↔ (hot t i ∧ hot t j ∧ Linked (TouchingHot touch hot t) i j))

/-- The index at distance `d` from `k` along an axis of `m` cells: clamped to the ends in regional mode, else counted around. -/
def moved (regional : Bool) (m k : Nat) (d : Int) : Int :=
  if regional then max 0 (min ((m : Int) - 1) (k + d)) else ((k : Int) + d) % m

/-- Cell `j` lies within Euclidean distance `R` of cell `i` on a grid of `ny` rows and `nx` columns. -/
def WithinCells (regional : Bool) (ny nx R : Nat) (i j : Fin (ny * nx)) : Prop :=
  ∃ dy dx : Int, dy ^ 2 + dx ^ 2 ≤ (R : Int) ^ 2 ∧
    ((j.val / nx : Nat) : Int) = moved regional ny (i.val / nx) dy ∧ ((j.val % nx : Nat) : Int) = moved regional nx (i.val % nx) dx

end MarEx.Spec
