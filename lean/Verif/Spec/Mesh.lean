import Verif.Model.Mesh
import Verif.Spec.Graph
/-! Specification vocabulary for unstructured meshes. -/
namespace MarEx.Spec

/-- The grid file lists cell `j` (1-based number `j+1`) as one of the three neighbours of cell `i`. -/
def ListsNeighbour {n : Nat} (nbr : NbrTable n) (i j : Fin n) : Prop := ∃ v : Fin 3, nbr v i = (j.val : Int) + 1

/-- The neighbour table is symmetric. -/
def SymmetricTable {n : Nat} (nbr : NbrTable n) : Prop :=
  ∀ i j, ListsNeighbour nbr i j → ListsNeighbour nbr j i

/-- Cell `j` can be reached from `i` in at most `R` neighbour hops. -/
def WithinHops {n : Nat} (nbr : NbrTable n) (R : Nat) (i j : Fin n) : Prop := HopsLE (ListsNeighbour nbr) R i j

end MarEx.Spec
