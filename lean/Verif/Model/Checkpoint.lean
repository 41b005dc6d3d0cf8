import Mathlib.Data.Rat.Defs
import Mathlib.Algebra.Order.Field.Rat
import Mathlib.Data.List.Infix
/-!
# Model of `run_preprocess`: checkpoint files, statistics, state of the tracker object

`/repo/marEx/track.py` 1234–1368. Field chunks have an abstract type `C`, the statistics a type `S`.

External contracts (trusted): `to_zarr(mode="w")` first replaces the store by one with metadata only (xarray writes and
consolidates the metadata before it computes the dask chunks), then writes the chunks one at a time in some order; a chunk
that was not written is read as the fill value; `np.savez` first truncates the file, and a truncated file cannot be loaded.
A value written is read back unchanged.
-/
namespace MarEx

/-- Errors of `run_preprocess`. -/
inductive PErr
  | attribute      -- `AttributeError`: missing attribute of the tracker
  | missingFile    -- `FileNotFoundError` / group not found
  | corruptFile    -- unreadable `.npz`
  | zeroDivision   -- `ZeroDivisionError`
  | noObjects      -- `TrackingError` of the area filter
  deriving DecidableEq

/-- The zarr store of the field: number of time chunks and the chunks written so far. -/
structure ZStore (C : Type) where
  len : Nat
  chunk : Nat → Option C

/-- The `.npz` file. -/
inductive Npz (S : Type)
  | absent | truncated | complete (s : S)

/-- The two checkpoint files of a scratch directory (track.py 1259, 1265). -/
structure Disk (C S : Type) where
  zarr : Option (ZStore C)
  npz : Npz S

/-- Elementary disk writes. -/
inductive DiskOp (C S : Type)
  | zarrInit (len : Nat)
  | zarrChunk (i : Nat) (c : C)
  | npzOpen
  | npzWrite (s : S)

variable {C S Raw : Type}

/-- Effect of one write. -/
def Disk.apply (d : Disk C S) : DiskOp C S → Disk C S
  | .zarrInit len => { d with zarr := some ⟨len, fun _ => none⟩ }
  | .zarrChunk i c => { d with zarr := d.zarr.map fun z => ⟨z.len, fun j => if j = i then some c else z.chunk j⟩ }
  | .npzOpen => { d with npz := .truncated }
  | .npzWrite s => { d with npz := .complete s }

/-- Effect of a sequence of writes. -/
def Disk.run (d : Disk C S) (ops : List (DiskOp C S)) : Disk C S := ops.foldl Disk.apply d

/-- Writing the field (track.py 1321–1323); `order` is the order in which the scheduler writes the chunks. -/
def fieldOps (order : List Nat) (field : List C) : List (DiskOp C S) :=
  .zarrInit field.length :: order.filterMap fun i => (field[i]?).map fun c => .zarrChunk i c

/-- Writing the statistics (track.py 1354–1363). -/
def statsOps (s : S) : List (DiskOp C S) := [.npzOpen, .npzWrite s]

/-- `load_data_from_checkpoint` (track.py 1256–1262). -/
def loadData (fill : C) (d : Disk C S) : Except PErr (List C) :=
  match d.zarr with
  | none => .error .missingFile
  | some z => .ok ((List.range z.len).map fun i => (z.chunk i).getD fill)

/-- `load_stats_from_checkpoint` (track.py 1264–1277). -/
def loadStats (d : Disk C S) : Except PErr S :=
  match d.npz with
  | .absent => .error .missingFile
  | .truncated => .error .corruptFile
  | .complete s => .ok s

/-- The pair returned for `checkpoint == "load"` (track.py 1279–1281). -/
def loadBoth (fill : C) (d : Disk C S) : Except PErr (List C × S) :=
  match loadData fill d with
  | .error e => .error e
  | .ok f => match loadStats d with
    | .error e => .error e
    | .ok s => .ok (f, s)

/-- Parts of the tracker object used by `run_preprocess`. `data = none`: the attribute was deleted (track.py 1292).
`mesh`: `scratch_dir` exists only on unstructured trackers (it is set in `_setup_unstructured_grid`, track.py 1041, called at 489,
and nowhere else). `inst`: the constructor argument `checkpoint`. -/
structure Mem (Raw : Type) where
  data : Option Raw
  mesh : Bool
  inst : Option String

/-- `if not checkpoint: checkpoint = self.checkpoint` (track.py 1253–1254). -/
def effectiveMode (arg inst : Option String) : Option String :=
  match arg with
  | none => inst
  | some s => if s = "" then inst else some s

/-- `checkpoint and "save" in checkpoint` (track.py 1316, 1354): substring test. -/
def wantsSave : Option String → Bool
  | none => false
  | some s => decide ("save".toList <:+: s.toList)

/-- `run_preprocess` (track.py 1234–1368). `field`: the filling stages and the area filter (1288–1313); `stats`: the statistics
(1333–1350), which may raise and are computed after the field was written. Result, tracker and disk afterwards. -/
def runPreprocess (fill : C) (field : Raw → Except PErr (List C)) (stats : Raw → Except PErr S) (order : List Nat)
    (arg : Option String) (m : Mem Raw) (d : Disk C S) : Except PErr (List C × S) × Mem Raw × Disk C S :=
  let mode := effectiveMode arg m.inst
  if mode = some "load" then
    if m.mesh then (loadBoth fill d, m, d) else (.error .attribute, m, d)
  else match m.data with
    | none => (.error .attribute, m, d)
    | some raw =>
      let m' := { m with data := none }
      match field raw with
      | .error e => (.error e, m', d)
      | .ok f =>
        if wantsSave mode then
          if m.mesh then
            let d1 := d.run (fieldOps order f)
            match stats raw with
            | .error e => (.error e, m', d1)
            | .ok s => let d2 := d1.run (statsOps s); (loadBoth fill d2, m', d2)
          else (.error .attribute, m', d)
        else match stats raw with
          | .error e => (.error e, m', d)
          | .ok s => (.ok (f, s), m', d)

/-- All the disk writes of a saving run, in order. -/
def saveOps (order : List Nat) (field : List C) (s : S) : List (DiskOp C S) := fieldOps order field ++ statsOps s

/-- The statistics of `run_preprocess` (track.py 1333–1350), the counts excepted. -/
structure AreaStats where
  totalIded : ℚ
  threshold : ℚ
  acceptedFraction : ℚ
  preprocessedFraction : ℚ
  deriving DecidableEq

/-- `accepted_area`, the two fractions and their divisions (track.py 1333–1341). Python's `float / float` raises for a zero
divisor. `raw`, `processed`: total area of the extreme cells before and after preprocessing. -/
def areaStats (areas : List ℚ) (thr raw processed : ℚ) : Except PErr AreaStats :=
  let total := areas.sum
  let accepted := (areas.filter fun a => decide (thr < a)).sum
  if total = 0 then .error .zeroDivision
  else if processed = 0 then .error .zeroDivision
  else .ok ⟨total, thr, accepted / total, raw / processed⟩

end MarEx
