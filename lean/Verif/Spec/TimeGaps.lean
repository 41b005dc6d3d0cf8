import Verif.Model.TimeGaps
/-! Specification of temporal gap filling, independent of dilation and erosion. -/
namespace MarEx.Spec

/-- Cell `c` is extreme at step `t` of the record `fs` (`False` outside the record). -/
def ExtremeAt {ι : Type} (fs : List (ι → Bool)) (t : Nat) (c : ι) : Prop :=
  ∃ f, fs[t]? = some f ∧ f c = true

/-- Step `t` of cell `c` lies in a gap: a run of non-extreme steps strictly between two extreme steps
`a < t < b` of the same cell, and the run has at most `maxLen` steps. -/
def InGap {ι : Type} (fs : List (ι → Bool)) (maxLen : Nat) (t : Nat) (c : ι) : Prop :=
  ∃ a b, a < t ∧ t < b ∧ ExtremeAt fs a c ∧ ExtremeAt fs b c ∧
    (∀ s, a < s → s < b → ¬ ExtremeAt fs s c) ∧ b - a - 1 ≤ maxLen

end MarEx.Spec
