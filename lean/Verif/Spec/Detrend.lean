import Mathlib.Analysis.SpecialFunctions.Trigonometric.Basic
import Mathlib.LinearAlgebra.Matrix.ConjTranspose
import Mathlib.LinearAlgebra.Span.Basic
import Mathlib.Tactic
/-! Specification vocabulary for detrending: the components that are fitted, and what a least-squares residual is. -/
namespace MarEx.Spec

/-- The time mean of a series. -/
noncomputable def timeMean {n : Nat} (v : Fin n → ℝ) : ℝ := (∑ t, v t) / n

/-- The fitted components, in the words of the documentation: a constant, the requested powers of centred time and,
if harmonics are removed, the annual and semi-annual sine and cosine. -/
inductive Fitted {n : Nat} (orders : List Nat) (harmonics : Bool) (dy : Fin n → ℝ) : (Fin n → ℝ) → Prop
  | constant : Fitted orders harmonics dy (fun _ => 1)
  | trend (o : Nat) : o ∈ orders → Fitted orders harmonics dy (fun t => (dy t - timeMean dy) ^ o)
  | sine (k : Nat) : harmonics = true → k = 1 ∨ k = 2 →
      Fitted orders harmonics dy (fun t => Real.sin (2 * k * Real.pi * dy t))
  | cosine (k : Nat) : harmonics = true → k = 1 ∨ k = 2 →
      Fitted orders harmonics dy (fun t => Real.cos (2 * k * Real.pi * dy t))

/-- `P` is the Moore–Penrose pseudo-inverse of `M` (the contract of `np.linalg.pinv`). -/
structure IsPinv {k n : Nat} (M : Matrix (Fin k) (Fin n) ℝ) (P : Matrix (Fin n) (Fin k) ℝ) : Prop where
  mpm : M * P * M = M
  pmp : P * M * P = P
  symM : (M * P).transpose = M * P
  symP : (P * M).transpose = P * M

/-- `r` is what is left of `d` after a least-squares fit of `components`: what was removed is a combination of the components and the
remainder is orthogonal to each of them. -/
def IsResidual {n : Nat} (components : Set (Fin n → ℝ)) (d r : Fin n → ℝ) : Prop :=
  d - r ∈ Submodule.span ℝ components ∧ ∀ c ∈ components, ∑ t, c t * r t = 0

/-- Days from 1 January of year 1 to 1 January of year `y` in the Gregorian calendar. -/
def newYear (y : Int) : Int := 365 * (y - 1) + (y - 1) / 4 - (y - 1) / 100 + (y - 1) / 400

end MarEx.Spec
