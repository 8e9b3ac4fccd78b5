import Verif.Model.Splat
/-!
# Model of the backward pass of bilinear splatting (`artist/raytracing/heliostat_ray_tracer.py` 610-778)

`bilinear_splatting` has no backward function of its own: `backward` applies the chain rule to its operations.  `.long()` (lines 674-675) makes integer tensors, and
comparisons (723-728) make boolean tensors; neither belongs to the graph, so indices and mask are constants.  What is left of the graph are the contributions
(694-700, slope -1 or 1 in the coordinate), the products (706-717 and the mask 762-765), `scatter_add_` (767-770, whose backward gives every added value the
gradient of the pixel it was added to), `view` (772-774) and `flip` (778).
-/
namespace Artist.Splat
open Artist

/-- What `backward` leaves for one ray: the gradients for its east and up coordinates and for its intensity (the flattened inputs, lines 652-654). -/
structure Gradient (K : Type) where
  e : K
  u : K
  w : K
  deriving DecidableEq, Repr

section
variable {K : Type} [Field K] [LinearOrder K] [IsStrictOrderedRing K] [FloorRing K]

/-- Backward of `flip` and `view` (lines 772-778): the gradient of entry `i` of the flat bitmap, given the gradients `g row column` of the pixels of the result. -/
def flatGradient (W H : Nat) (g : Nat → Nat → K) (i : Int) : K := g (H - 1 - i.toNat / W) (i.toNat % W)

/-- The flat index at which the value of a ray is added (lines 748-760): 0 for a ray outside the bitmap. -/
def maskedIndex (W H : Nat) (h : Hit K) (i : Int) : Int := if onTarget W H h then i else 0

/-- The mask as a number (lines 762-765). -/
def maskValue (W H : Nat) (h : Hit K) : K := if onTarget W H h then 1 else 0

/-- Backward of lines 694-778 for one ray: `d1` to `d4` are the gradients of `intensities_pixel_1` to `intensities_pixel_4` of lines 706-717. -/
def backward (W H : Nat) (g : Nat → Nat → K) (h : Hit K) : Gradient K :=
  let d (i : Int) : K := flatGradient W H g (maskedIndex W H h i) * maskValue W H h
  let d1 := d ((long h.u + 1) * W + long h.e)
  let d2 := d ((long h.u + 1) * W + long h.e + 1)
  let d3 := d (long h.u * W + long h.e + 1)
  let d4 := d (long h.u * W + long h.e)
  let lowE := d1 * high h.u * h.w + d4 * low h.u * h.w
  let highE := d2 * high h.u * h.w + d3 * low h.u * h.w
  let lowU := d3 * high h.e * h.w + d4 * low h.e * h.w
  let highU := d1 * low h.e * h.w + d2 * high h.e * h.w
  ⟨highE - lowE, highU - lowU,
    d1 * (low h.e * high h.u) + d2 * (high h.e * high h.u) + d3 * (high h.e * low h.u) + d4 * (low h.e * low h.u)⟩

end
end Artist.Splat
