import Verif.Spec.Graph
/-! Specification of a connected-component labelling (the contract assumed of `scipy.sparse.csgraph.connected_components`). -/
namespace MarEx.Spec

/-- `lab` labels the nodes `0..n-1` of an undirected graph by connected component, with exactly the labels `0..N-1`. -/
structure IsComponents (n : Nat) (edges : List (Nat × Nat)) (N : Nat) (lab : Nat → Nat) : Prop where
  same_iff : ∀ a b, a < n → b < n → (lab a = lab b ↔ Linked (fun u v => (u, v) ∈ edges) a b)
  labels : ∀ k, k < N ↔ ∃ a, a < n ∧ lab a = k

/-- All edges join nodes below `n` (otherwise `csr_matrix(..., shape=(n, n))` raises). -/
def EdgesBelow (n : Nat) (edges : List (Nat × Nat)) : Prop := ∀ e ∈ edges, e.1 < n ∧ e.2 < n

/-- A labelling routine that is correct on every graph. -/
def CorrectLabeller (cc : Nat → List (Nat × Nat) → Nat × (Nat → Nat)) : Prop :=
  ∀ n edges, EdgesBelow n edges → IsComponents n edges (cc n edges).1 (cc n edges).2

end MarEx.Spec
