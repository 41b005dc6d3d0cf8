/-!
# Model of gridded hole filling

`/repo/marEx/track.py` 1608–1673, the structured branch of `fill_holes` (with `use_dask_morph = True`).

One time step of a gridded field is `Int → Int → Bool` (row `y`, column `x`); only indices `0 ≤ y < ny`, `0 ≤ x < nx`
are meaningful and only those are read. The morphology of `dask_image.ndmorph` is the textbook one with
`border_value = 0`: reads outside the (padded) array are `False`.
Simplification: `pad(mode="wrap")` is taken as periodic for every width (numpy's definition); the code only relies on
it for padding not wider than the array.
-/
namespace MarEx

/-- One time step of a gridded boolean field. -/
abbrev Img := Int → Int → Bool

/-- Is the index inside an array of shape `(H, W)`? -/
def inImg (H W : Int) (y x : Int) : Bool := decide (0 ≤ y ∧ y < H ∧ 0 ≤ x ∧ x < W)

/-- Read with `border_value = 0`: `False` outside the array. -/
def readImg (H W : Int) (f : Img) : Img := fun y x => inImg H W y x && f y x

/-- `np.ogrid[-R:R+1]` (track.py 1613). -/
def ogrid (R : Nat) : List Int := (List.range (2 * R + 1)).map fun k : Nat => (k : Int) - R

/-- Offsets where `se_kernel = x**2 + y**2 < R**2 + 1` is `True` (track.py 1613–1616). -/
def seKernel (R : Nat) : List (Int × Int) :=
  (ogrid R).flatMap fun dy => (ogrid R).filterMap fun dx =>
    if dx ^ 2 + dy ^ 2 < (R : Int) ^ 2 + 1 then some (dy, dx) else none

/-- Binary dilation of an array of shape `(H, W)` (inside `binary_closing_dask`/`binary_opening_dask`, track.py 1630–1634). -/
def dilateImg (H W : Int) (R : Nat) (f : Img) : Img :=
  fun y x => (seKernel R).any fun d => readImg H W f (y + d.1) (x + d.2)

/-- Binary erosion with `border_value = 0` (track.py 1630–1634). -/
def erodeImg (H W : Int) (R : Nat) (f : Img) : Img :=
  fun y x => (seKernel R).all fun d => readImg H W f (y + d.1) (x + d.2)

/-- `binary_closing_dask` (track.py 1630): dilation, then erosion. -/
def closeImg (H W : Int) (R : Nat) (f : Img) : Img := erodeImg H W R (dilateImg H W R f)

/-- `binary_opening_dask` (track.py 1634): erosion, then dilation. -/
def openImg (H W : Int) (R : Nat) (f : Img) : Img := dilateImg H W R (erodeImg H W R f)

/-- Source index of padded index `k` along an axis of length `n` padded by `p` (track.py 1625):
`mode="wrap"` when not regional, `mode="edge"` in regional mode. -/
def padIndex (regional : Bool) (n p : Int) (k : Int) : Int :=
  if regional then max 0 (min (n - 1) (k - p)) else (k - p) % n

/-- `data_bin.pad({ydim: diameter, xdim: diameter}, mode=mode)` (track.py 1625). -/
def padImg (regional : Bool) (ny nx : Int) (R : Nat) (f : Img) : Img :=
  fun y x => f (padIndex regional ny (2 * R) y) (padIndex regional nx (2 * R) x)

/-- `fill_holes` for a structured grid (track.py 1608–1673): pad by `2R`, close, open, trim `2R`, then
`.where(mask, other=False)`; with `R_fill = 0` only the mask is applied. -/
def fillHolesGrid (regional : Bool) (ny nx : Int) (mask : Img) (R : Nat) (f : Img) : Img :=
  let filled : Img :=
    if R = 0 then f
    else
      let H := ny + 4 * R
      let W := nx + 4 * R
      let s := openImg H W R (closeImg H W R (padImg regional ny nx R f))
      fun y x => s (y + 2 * R) (x + 2 * R)
  fun y x => mask y x && filled y x

end MarEx
