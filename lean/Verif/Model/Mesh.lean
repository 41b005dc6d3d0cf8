/-!
# Model of the unstructured-mesh morphology

`/repo/marEx/track.py`:
* 1060 `neighbours_int = neighbours - 1`, 1094–1117 `_build_sparse_dilation_matrix`
* 5422–5468 `sparse_bool_power`
* 1549–1582 `fill_holes` (unstructured branch, `binary_open_close`)

A mesh with `n` cells is given by its neighbour table `nbr : Fin 3 → Fin n → Int` exactly as in the grid file
(1-based, 0 or negative = missing neighbour). A field at one time step is `Fin n → Bool`.
The CSR matrix is represented by the list of column indices of each row (stored entries are all `True`).
-/
namespace MarEx

/-- The raw neighbour table of a triangular grid (`neighbours`, shape `(3, ncells)`, 1-based). -/
abbrev NbrTable (n : Nat) := Fin 3 → Fin n → Int

/-- `self.neighbours_int = neighbours.astype(int32) - 1` (track.py 1060). -/
def neighboursInt {n : Nat} (nbr : NbrTable n) (v : Fin 3) (c : Fin n) : Int := nbr v c - 1

/-- A 0-based index as a cell, `none` if it is negative or outside the table. -/
def toCell (n : Nat) (k : Int) : Option (Fin n) :=
  if h : 0 ≤ k ∧ k.toNat < n then some ⟨k.toNat, h.2⟩ else none

/-- `coo_matrix(..., shape=(ncells, ncells))` raises if a column index is `>= ncells`;
negative indices have been filtered out before (track.py 1100–1111). -/
def tableFits {n : Nat} (nbr : NbrTable n) : Bool :=
  (List.finRange n).all fun c => (List.finRange 3).all fun v => decide (neighboursInt nbr v c < (n : Int))

/-- Column indices stored in row `i` of `dilate_sparse` (track.py 1094–1117): the valid neighbours of `i`,
plus `i` itself (identity matrix added at 1114–1115). -/
def dilationRow {n : Nat} (nbr : NbrTable n) (i : Fin n) : List (Fin n) :=
  (List.finRange 3).filterMap (fun v => toCell n (neighboursInt nbr v i)) ++ [i]

/-- `_build_sparse_dilation_matrix` (track.py 1094–1117): `none` when `coo_matrix` raises. -/
def buildDilation {n : Nat} (nbr : NbrTable n) : Option (Fin n → List (Fin n)) :=
  if tableFits nbr then some (dilationRow nbr) else none

/-- One pass of the loop in `sparse_bool_power` (track.py 5455–5466):
`temp_result[i] = any(result[indices[j]] for j in row i)`. -/
def sparseStep {n : Nat} (rows : Fin n → List (Fin n)) (vec : Fin n → Bool) : Fin n → Bool :=
  fun i => (rows i).any vec

/-- `sparse_bool_power` (track.py 5422–5468): `exponent` passes. (The code also carries a batch dimension of
time steps, processed independently.) -/
def sparseBoolPower {n : Nat} (rows : Fin n → List (Fin n)) (vec : Fin n → Bool) : Nat → Fin n → Bool
  | 0 => vec
  | k + 1 => sparseStep rows (sparseBoolPower rows vec k)

/-- `bitmap_binary[:, ~mask] = True` (track.py 1566, 1574). -/
def setLandTrue {n : Nat} (mask : Fin n → Bool) (f : Fin n → Bool) : Fin n → Bool :=
  fun i => if mask i then f i else true

/-- Erosion as negated dilation of the negated image (track.py 1569, 1577). -/
def erodeMesh {n : Nat} (rows : Fin n → List (Fin n)) (R : Nat) (f : Fin n → Bool) : Fin n → Bool :=
  fun i => !(sparseBoolPower rows (fun j => !f j) R i)

/-- Dilation (track.py 1563, 1580). -/
def dilateMesh {n : Nat} (rows : Fin n → List (Fin n)) (R : Nat) (f : Fin n → Bool) : Fin n → Bool :=
  sparseBoolPower rows f R

/-- Closing half of `binary_open_close` (track.py 1562–1569). -/
def closeMesh {n : Nat} (rows : Fin n → List (Fin n)) (mask : Fin n → Bool) (R : Nat) (f : Fin n → Bool) :
    Fin n → Bool :=
  erodeMesh rows R (setLandTrue mask (dilateMesh rows R f))

/-- Opening half of `binary_open_close` (track.py 1574–1580). -/
def openMesh {n : Nat} (rows : Fin n → List (Fin n)) (mask : Fin n → Bool) (R : Nat) (f : Fin n → Bool) :
    Fin n → Bool :=
  dilateMesh rows R (erodeMesh rows R (setLandTrue mask f))

/-- `fill_holes`, unstructured branch (track.py 1542–1606). The result is *not* masked here. -/
def fillHolesMesh {n : Nat} (rows : Fin n → List (Fin n)) (mask : Fin n → Bool) (R : Nat) (f : Fin n → Bool) :
    Fin n → Bool :=
  openMesh rows mask R (closeMesh rows mask R f)

end MarEx
