import Verif.Spec.Threshold
/-! Specification vocabulary for the preprocessing entry points. -/
namespace MarEx.Spec

/-- What a data array offers: dimension names and coordinate names. -/
structure DataInfo where
  dims : List String
  coords : List String

/-- Value of a key in a dictionary given as a list of pairs (keys occur once). -/
def Maps (dict : List (String × String)) (k v : String) : Prop := (k, v) ∈ dict

/-- A key of a dictionary. -/
def HasKey (dict : List (String × String)) (k : String) : Prop := ∃ v, (k, v) ∈ dict

/-- The parameters of identify_extremes. -/
structure ExtParams where
  methodExtreme : String
  percentile : ℚ
  windowDays : Option Int
  windowSpatial : Option Int
  methodPercentile : String
  precision : ℚ
  maxAnomaly : ℚ

/-- The documented reasons to reject the parameters of identify_extremes; `gridded` says that the data have a y dimension. -/
def Rejected (gridded : Prop) (P : ExtParams) : Prop :=
  (P.methodPercentile ≠ "exact" ∧ P.methodPercentile ≠ "approximate") ∨
  (P.methodExtreme ≠ "global_extreme" ∧ P.methodExtreme ≠ "hobday_extreme") ∨
  (P.methodPercentile = "exact" ∧ (P.precision ≠ 1 / 100 ∨ P.maxAnomaly ≠ 5)) ∨
  (P.methodPercentile = "approximate" ∧ P.percentile < 60) ∨
  (P.windowSpatial ≠ none ∧ (¬ gridded ∨ P.methodExtreme = "global_extreme" ∨ P.methodPercentile = "exact")) ∨
  (P.methodExtreme = "hobday_extreme" ∧ ∃ w, P.windowDays = some w ∧ w % 2 = 0) ∨
  (P.methodExtreme = "hobday_extreme" ∧ ∃ s, P.windowSpatial = some s ∧ s % 2 = 0)

end MarEx.Spec
