import Verif.Model.Overlap
/-! Specification vocabulary for tracking: what it means for object IDs and the object table to describe a record. -/
namespace MarEx.Spec
open MarEx
variable {n : Nat}

/-- No positive ID occurs at two different time steps. -/
def TimeUnique (fs : List (Fin n → Nat)) : Prop := fs.Pairwise fun f g => ∀ i j, 0 < f i → f i ≠ g j

/-- Total weight of the cells carrying ID `k` in one frame. -/
def objectArea (w : Fin n → ℚ) (f : Fin n → Nat) (k : Nat) : ℚ :=
  ((List.finRange n).map fun i => if f i = k then w i else 0).sum

/-- Total weight of the cells carrying `a` in `f` and `b` in `g`. -/
def commonArea (w : Fin n → ℚ) (f : Fin n → Nat) (a : Nat) (g : Fin n → Nat) (b : Nat) : ℚ :=
  ((List.finRange n).map fun i => if f i = a ∧ g i = b then w i else 0).sum

/-- Objects `a` of `f` and `b` of `g` share cells with at least the fraction `thr` of the smaller object. -/
def OverlapEnough (w : Fin n → ℚ) (thr : ℚ) (f : Fin n → Nat) (a : Nat) (g : Fin n → Nat) (b : Nat) : Prop :=
  0 < a ∧ (∃ i, f i = a ∧ g i = b) ∧ thr * min (objectArea w f a) (objectArea w g b) ≤ commonArea w f a g b

/-- `l` lists, in increasing order, the objects of `f` that overlap object `b` of `g` enough. -/
def ParentList (w : Fin n → ℚ) (thr : ℚ) (f g : Fin n → Nat) (b : Nat) (l : List Nat) : Prop :=
  l.Pairwise (· < ·) ∧ ∀ p, p ∈ l ↔ OverlapEnough w thr f p g b

/-- The table lists exactly the objects of the record, each with its total area. -/
structure TableExact (w : Fin n → ℚ) (fs : List (Fin n → Nat)) (props : List Obj) : Prop where
  ids : ∀ k, hasId props k = true ↔ 0 < k ∧ ∃ f ∈ fs, ∃ i, f i = k
  areas : ∀ f ∈ fs, ∀ i, 0 < f i → areaOf props (f i) = some (objectArea w f (f i))

/-- Parent `p` is linked to child `k`. -/
def LinkedTo (links : List Ov) (p k : Nat) : Prop := ∃ o ∈ links, o.a = p ∧ o.b = k

/-- Objects `a` and `b` of the record are related when they overlap enough in two consecutive steps. -/
def Follows (w : Fin n → ℚ) (thr : ℚ) (fs : List (Fin n → Nat)) (a b : Nat) : Prop :=
  ∃ (t : Nat) (f g : Fin n → Nat), fs[t]? = some f ∧ fs[t + 1]? = some g ∧ 0 < b ∧ OverlapEnough w thr f a g b

/-- `k` is present at step `t` of the record. -/
def PresentAt (fs : List (Fin n → Nat)) (k t : Nat) : Prop := ∃ f, fs[t]? = some f ∧ ∃ i, f i = k

/-- Events with no gaps: an ID present at two steps is present at every step between. -/
def NoGaps (out : List (Fin n → Nat)) : Prop :=
  ∀ k, 0 < k → ∀ t v u, t ≤ v → v ≤ u → PresentAt out k t → PresentAt out k u → PresentAt out k v

/-- All chunks are non-empty and all but the first have at least two time steps. -/
def ChunksOfTwo {α : Type} : List (List α) → Prop
  | [] => True
  | ch :: chs => ch ≠ [] ∧ ∀ x ∈ chs, 2 ≤ x.length

end MarEx.Spec
