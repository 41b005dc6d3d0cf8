/-!
# Model of `tracker.fill_time_gaps` (temporal closing)

Models `/repo/marEx/track.py` lines 1675–1726 (`fill_time_gaps`) up to the final call of `fill_holes`,
and the one-dimensional binary dilation/erosion of `dask_image.ndmorph` it calls
(`binary_closing` = erosion of dilation, default `border_value=0`, `iterations=1`).

A binary field is a list of frames, one per time step; a frame is a function from cells to `Bool`
(the structuring element has extent 1 in space, so all cells are processed independently).
-/

namespace MarEx

/-- A time series of binary frames over cells `ι` (`data_bin`, dims `(time, ...)`). -/
abbrev Frames (ι : Type) := List (ι → Bool)

/-- Reading an array along time with `border_value = 0`: outside the array every cell reads `False`
(dask_image/scipy morphology convention). -/
def readT {ι : Type} (fs : Frames ι) (t : Int) (c : ι) : Bool :=
  if 0 ≤ t then
    match fs[t.toNat]? with
    | some f => f c
    | none => false
  else false

/-- The offsets of a centred all-ones kernel with half width `r`: `-r, …, r`
(track.py 1696–1703: `np.ones(kernel_size)`, `kernel_size = T_fill + 1`, origin in the middle). -/
def offsets (r : Nat) : List Int :=
  (List.range (2 * r + 1)).map (fun (k : Nat) => (k : Int) - (r : Int))

/-- Binary dilation along time with a kernel of half width `r` (`dask_image.ndmorph.binary_dilation`). -/
def dilateT {ι : Type} (r : Nat) (fs : Frames ι) : Frames ι :=
  (List.range fs.length).map (fun (t : Nat) c => (offsets r).any (fun d => readT fs ((t : Int) + d) c))

/-- Binary erosion along time with a kernel of half width `r` (`dask_image.ndmorph.binary_erosion`). -/
def erodeT {ι : Type} (r : Nat) (fs : Frames ι) : Frames ι :=
  (List.range fs.length).map (fun (t : Nat) c => (offsets r).all (fun d => readT fs ((t : Int) + d) c))

/-- `data_bin.pad({time: k}, mode="constant", constant_values=False)` (track.py 1706). -/
def padT {ι : Type} (k : Nat) (fs : Frames ι) : Frames ι :=
  List.replicate k (fun _ => false) ++ fs ++ List.replicate k (fun _ => false)

/-- `isel(time=slice(k, -k))` (track.py 1721). -/
def trimT {ι : Type} (k : Nat) (fs : Frames ι) : Frames ι :=
  (fs.drop k).take (fs.length - 2 * k)

/-- The temporal closing of `fill_time_gaps` (track.py 1692–1721).
`T_fill` is validated to be even (track.py 704), so the kernel of size `T_fill + 1` has half width `T_fill / 2`. -/
def closeTimeGaps {ι : Type} (Tfill : Nat) (fs : Frames ι) : Frames ι :=
  if Tfill = 0 then fs
  else
    let k := Tfill + 1
    trimT k (erodeT (Tfill / 2) (dilateT (Tfill / 2) (padT k fs)))

/-- `fill_time_gaps` (track.py 1675–1726): temporal closing, then the spatial hole filling (`fillHoles R`,
a parameter here, modelled in `FillHoles.lean`) with radius `R_fill // 2` on every frame. -/
def fillTimeGaps {ι : Type} (fillHoles : Nat → (ι → Bool) → (ι → Bool)) (Tfill Rfill : Nat)
    (fs : Frames ι) : Frames ι :=
  if Tfill = 0 then fs
  else (closeTimeGaps Tfill fs).map (fillHoles (Rfill / 2))

end MarEx
