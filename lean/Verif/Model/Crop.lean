import Verif.Model.Bitmap
import Verif.Model.Nurbs
import Mathlib.Algebra.Order.Floor.Ring
/-!
# Model of cropping flux images

`artist/flux/bitmap.py` 121-246 (`crop_flux_distributions_around_center`).  One bitmap with `W` columns and `H` rows, `img r c` is the pixel in
row `r` and column `c`; the batch dimension only repeats it.
-/
namespace Artist.Crop
open Artist Finset
variable {K : Type} [Field K] [LinearOrder K]

/-- Centre of brightness in normalised coordinates (`bitmap.py` 168-188): east and up component; `eps` is `1e-8`. -/
def center (eps : K) (W H : Nat) (img : Nat → Nat → K) : K × K :=
  let total := ∑ r ∈ range H, ∑ c ∈ range W, img r c
  (∑ r ∈ range H, ∑ c ∈ range W, Nurbs.linspace (-1) 1 W c * (img r c / (total + eps)),
   ∑ r ∈ range H, ∑ c ∈ range W, Nurbs.linspace (-1) 1 H r * (img r c / (total + eps)))

/-- Width and height of a target area by its global index (`bitmap.py` 190-219): width and height of the planar ones, then arc length and
height of the cylindrical ones `(radius, opening, height)`. -/
def targetSize (planar : List (K × K)) (cylinders : List (K × K × K)) (index : Nat) : Except PyErr (K × K) :=
  if index < planar.length then
    match planar[index]? with
    | some d => .ok d
    | none => .error .indexError
  else
    match cylinders[index - planar.length]? with
    | some c => .ok (c.1 * c.2.1, c.2.2)
    | none => .error .indexError

/-- Base coordinate of `affine_grid` with `align_corners=True`: equidistant from -1 to 1, zero for a single pixel. -/
def base (n k : Nat) : K := if n ≤ 1 then 0 else Nurbs.linspace (-1) 1 n k

/-- Sampling position in pixels of `grid_sample` with `align_corners=True`.  As used in `bitmap.py` 239-244. -/
def toPixel (n : Nat) (x : K) : K := (x + 1) / 2 * ((n - 1 : Nat) : K)

/-- A pixel, zero outside of the image (`padding_mode="zeros"`).  As used in `bitmap.py` 239-244. -/
def pixel (W H : Nat) (img : Nat → Nat → K) (r c : Int) : K :=
  if 0 ≤ r ∧ r < H ∧ 0 ≤ c ∧ c < W then img r.toNat c.toNat else 0

/-- Bilinear interpolation of `grid_sample` at column `x` and row `y`.  As used in `bitmap.py` 239-244. -/
def bilinear [FloorRing K] (W H : Nat) (img : Nat → Nat → K) (x y : K) : K :=
  let c := ⌊x⌋
  let r := ⌊y⌋
  let fx := x - c
  let fy := y - r
  pixel W H img r c * ((1 - fx) * (1 - fy)) + pixel W H img r (c + 1) * (fx * (1 - fy)) +
    pixel W H img (r + 1) c * ((1 - fx) * fy) + pixel W H img (r + 1) (c + 1) * (fx * fy)

/-- `crop_flux_distributions_around_center` (`bitmap.py` 121-246) for one bitmap on a target area of the given size; `epsSize` is the
smallest size used (221-224). -/
def crop [FloorRing K] (eps epsSize : K) (W H : Nat) (img : Nat → Nat → K) (size : K × K) (cropWidth cropHeight : K) : Nat → Nat → K :=
  let com := center eps W H img
  let scaleX := cropWidth / max size.1 epsSize
  let scaleY := cropHeight / max size.2 epsSize
  fun r c => bilinear W H img (toPixel W (scaleX * base W c + com.1)) (toPixel H (scaleY * base H r + com.2))

end Artist.Crop
