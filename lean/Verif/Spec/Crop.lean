import Mathlib.Algebra.BigOperators.Group.Finset.Basic
import Mathlib.Algebra.Order.Field.Basic
import Mathlib.Algebra.Order.Group.Abs
/-!
# Specification: bilinear interpolation of an image

Every pixel spreads as a tent of width one pixel to each side; nothing outside of the image contributes.
-/
namespace Artist.Crop
open Finset
variable {K : Type} [Field K] [LinearOrder K]

/-- the tent function -/
def tent (t : K) : K := max 0 (1 - |t|)

/-- brightness at column `x` and row `y` -/
def interpolate (W H : Nat) (img : Nat → Nat → K) (x y : K) : K :=
  ∑ r ∈ range H, ∑ c ∈ range W, img r c * (tent (x - c) * tent (y - r))

end Artist.Crop
