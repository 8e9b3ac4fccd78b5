import Verif.Model.Bitmap
import Mathlib.Analysis.SpecialFunctions.Sqrt
/-!
# Model of the focal spot loss (`artist/optim/loss.py` 152-248)
-/
namespace Artist.FocalSpotLoss
open Artist

/-- A target area of either kind (`coordinates.py` 187-191: planar indices first, cylindrical second). -/
inductive Target where
  | planar (p : Intersect.Plane ℝ)
  | cylindrical (c : Intersect.Cylinder)

/-- A bitmap with its width and height.  Source: `loss.py` 198-248. -/
structure Image where
  width : Nat
  height : Nat
  pixel : Nat → Nat → ℝ

/-- `bitmap_coordinates_to_target_coordinates` (`coordinates.py` 182-249) for one sample. -/
noncomputable def toTarget (W H : Nat) (t : Target) (c : ℝ × ℝ) : V3 ℝ :=
  match t with
  | .planar p => Bitmap.toPlane W H p c.1 c.2
  | .cylindrical cyl => Bitmap.toCylinder W H cyl c.1 c.2

/-- Euclidean norm (`torch.norm`, `loss.py` 244-248). -/
noncomputable def norm (v : V3 ℝ) : ℝ := √(v.e ^ 2 + v.n ^ 2 + v.u ^ 2)

/-- `FocalSpotLoss.__call__` (`loss.py` 200-248) for one sample.  The resolution of the prediction is used for both bitmaps (210-216, 231-237);
`shape[batched_bitmap_u]` is the width.  `eps` is that of `get_center_of_mass`. -/
noncomputable def focalSpotLoss (eps : ℝ) (t : Target) (prediction truth : Image) : ℝ :=
  let p := Bitmap.centerOfMass eps prediction.width prediction.height prediction.pixel
  let g := Bitmap.centerOfMass eps truth.width truth.height truth.pixel
  norm (toTarget prediction.width prediction.height t p - toTarget prediction.width prediction.height t g)

end Artist.FocalSpotLoss
