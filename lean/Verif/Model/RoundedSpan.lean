import Verif.Model.Nurbs
import Verif.Model.Rounded
/-!
# Model of the search for knot spans in floating point arithmetic

`nurbs/surfaces.py` 198-207 finds the span of an evaluation point by multiplying it with the number of spans and cutting off the digits behind the point.
The product is rounded.  Here this one operation is rounded by `rnd`; the rest of the evaluation (326-343 and 524-657) is exact, so that the effect of a
wrong span is seen alone.
-/
namespace Artist.RoundedSpan
open Artist Nurbs

noncomputable section
variable (rnd : ℝ → ℝ)

/-- `torch.floor(evaluation_points * (unique_knots.shape[...] - 1)).long() + degree` (`nurbs/surfaces.py` 198-207) with a rounded product.  Simplified:
the evaluation point is not negative, so that `long` of the whole number is a natural number. -/
def findSpan (knots : List ℝ) (degree : Nat) (x : ℝ) : Nat := ⌊rnd (x * ((knots.dedup.length - 1 : Nat) : ℝ))⌋₊ + degree

/-- The surface point and the unnormalised normal (`nurbs/surfaces.py` 475-689) with spans found by rounded products. -/
def evaluate (net : Net ℝ) (degU degV : Nat) (x y : ℝ) : Except PyErr (H ℝ × (Fin 3 → ℝ)) := do
  let ku := uniformKnots net.nu degU
  let kv := uniformKnots net.nv degV
  let d ← derivativesAt net ku kv degU degV (findSpan rnd ku degU x) (findSpan rnd kv degV y) x y
  pure (pointOf d, crossOf d)

end
end Artist.RoundedSpan
