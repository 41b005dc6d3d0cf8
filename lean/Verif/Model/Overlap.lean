import Verif.Model.Filter
import Verif.Model.Components
/-!
# Model of overlap detection

`/repo/marEx/track.py` 2396–2452 (`check_overlap_slice`), 2454–2504 (`find_overlapping_objects`),
2506–2552 (`enforce_overlap_threshold`).

Cells of a step are `Fin n`. `w` is the weight added per shared cell: `cell_area` on a mesh, 1 on a structured grid.
-/
namespace MarEx

variable {n : Nat}

/-- A row `[id_t0, id_next, overlap]` of an overlap table. -/
structure Ov where
  a : Nat
  b : Nat
  v : ℚ
  deriving DecidableEq, Repr

/-- `check_overlap_slice` (track.py 2396–2452): encode each pair as `id_t0 * max_id + id_next`, `np.unique` the codes, sum
the weights per code, and decode with `//` and `%`. -/
def checkOverlapSlice (w : Fin n → ℚ) (f g : Fin n → Nat) : List Ov :=
  let cells := (List.finRange n).filter fun i => decide (0 < f i) && decide (0 < g i)
  if cells.isEmpty then []
  else
    let maxId := max (fieldMax f) (fieldMax g + 1)
    let code := fun i => f i * maxId + g i
    (npUnique (cells.map code)).map fun p =>
      { a := p / maxId, b := p % maxId, v := ((cells.filter fun i => code i == p).map w).sum }

/-- Distinct pairs of a list in lexicographic order: `np.unique(pairs, axis=0)` (track.py 2493). -/
def uniquePairs (l : List (Nat × Nat)) : List (Nat × Nat) :=
  (npUnique (l.map (·.1))).flatMap fun a => ((npUnique (l.map (·.2))).filter fun b => l.contains (a, b)).map fun b => (a, b)

/-- All consecutive-step overlaps: `object_id_field` against its `shift(time=-1, fill_value=0)` (track.py 2474–2490).
The last step is compared with an all-zero field. -/
def allOverlaps (w : Fin n → ℚ) : List (Fin n → Nat) → List Ov
  | [] => []
  | [f] => checkOverlapSlice w f (fun _ => 0)
  | f :: g :: fs => checkOverlapSlice w f g ++ allOverlaps w (g :: fs)

/-- `find_overlapping_objects` (track.py 2454–2504): sum the overlaps of equal pairs. -/
def findOverlaps (w : Fin n → ℚ) (fs : List (Fin n → Nat)) : List Ov :=
  let all := allOverlaps w fs
  (uniquePairs (all.map fun o => (o.a, o.b))).map fun p =>
    { a := p.1, b := p.2, v := ((all.filter fun o => o.a == p.1 && o.b == p.2).map (·.v)).sum }

/-- A row of the object property table. -/
structure Obj where
  id : Nat
  area : ℚ
  cen : ℚ × ℚ
  deriving DecidableEq, Repr

/-- `object_props.area.sel(ID=k)`; `none` if the ID is not in the table. -/
def areaOf (props : List Obj) (k : Nat) : Option ℚ := (props.find? fun o => o.id == k).map (·.area)

/-- `k in object_props.ID`. -/
def hasId (props : List Obj) (k : Nat) : Bool := props.any fun o => o.id == k

/-- `overlap / min_area >= threshold` in floating-point arithmetic with its zero division: `x/0` is infinite for positive
`x` and NaN (so not `>=`) for 0 (track.py 2540–2548). -/
def fractionAtLeast (v m thr : ℚ) : Bool := if m = 0 then decide (0 < v) else decide (thr ≤ v / m)

/-- `enforce_overlap_threshold` (track.py 2506–2552). -/
def enforceOverlap (thr : ℚ) (props : List Obj) (ovs : List Ov) : List Ov :=
  ovs.filter fun o =>
    match areaOf props o.a, areaOf props o.b with
    | some x, some y => fractionAtLeast o.v (min x y) thr
    | _, _ => false

end MarEx
