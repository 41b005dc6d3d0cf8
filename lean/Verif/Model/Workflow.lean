import Verif.Model.Preprocess
import Verif.Model.Pipeline
/-!
# Model of the documented workflow: `preprocess_data`, then `tracker(ds.extreme_events, ds.mask, ...).run()`

`/repo/README.md` 45–61, `/repo/docs/concepts.rst` 189–191: the outputs `extreme_events` and `mask` of `preprocess_data`
(`/repo/marEx/detect.py` 560–800) are the first two arguments of `tracker` (`/repo/marEx/track.py` 163–166, 1162–1232).

A cell of the grid is `Fin (ny * nx)`: row `i / nx`, column `i % nx`.  On a mesh there is one row.
-/
namespace MarEx

/-- `extreme_events` as the tracker receives it: one frame per step of the anomalies (detect.py 779, track.py 163). -/
def eventFrames (ny nx : Nat) (e : ExtOut) : List (Fin (ny * nx) → Bool) :=
  (List.range (e.extremes 0 0).length).map fun t i => ((e.extremes (i.val / nx) (i.val % nx))[t]?).getD false

/-- `mask` as the tracker receives it (detect.py 2148, track.py 164). -/
def maskFrame (ny nx : Nat) (mask : Nat → Nat → Bool) : Fin (ny * nx) → Bool := fun i => mask (i.val / nx) (i.val % nx)

/-- Errors of the workflow. -/
inductive FlowErr
  | prep (e : PrepErr)
  | track (e : FilterError)
  | mesh (e : MeshErr)

/-- What the workflow leaves: the dataset of `preprocess_data`, the preprocessed field and the `ID_field` of `run`. -/
structure FlowOut (n : Nat) where
  prep : PrepOut
  pre : List (Fin n → Bool)
  ids : List (Frame n)

/-- The workflow on a structured grid (README.md 45–61; detect.py 560–800, track.py 1162–1232).  `p` holds the arguments of `tracker`; its
mask is that of `preprocess_data`. -/
def workflowGrid {ny nx : Nat} (cc : Labeller) (fit : List Nat → Bool → List ℚ → Nat → ℚ) (A : AnomParams) (P : Spec.ExtParams)
    (p : GridRun ny nx) (chunks : List Nat) (raw : Nat → Nat → List Sample) : Except FlowErr (FlowOut (ny * nx)) :=
  match preprocessData true fit A P ny nx raw with
  | .error e => .error (.prep e)
  | .ok out =>
    match runGrid cc { p with mask := maskFrame ny nx out.mask } chunks (eventFrames ny nx out.ext) with
    | .error e => .error (.track e)
    | .ok r => .ok ⟨out, r.1, r.2⟩

/-- The workflow on a mesh of `1 * n` cells (one row; detect.py 560–800, track.py 1162–1232). -/
def workflowMesh {n : Nat} (cc : Labeller) (fit : List Nat → Bool → List ℚ → Nat → ℚ) (A : AnomParams) (P : Spec.ExtParams)
    (p : MeshRun (1 * n)) (raw : Nat → Nat → List Sample) : Except FlowErr (FlowOut (1 * n)) :=
  match preprocessData false fit A P 1 n raw with
  | .error e => .error (.prep e)
  | .ok out =>
    match runMesh cc { p with mask := maskFrame 1 n out.mask } (eventFrames 1 n out.ext) with
    | .error e => .error (.mesh e)
    | .ok r => .ok ⟨out, r.1, r.2⟩

end MarEx
