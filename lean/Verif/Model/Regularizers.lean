import Verif.Model.Vec3
import Mathlib.Algebra.BigOperators.Group.Finset.Basic
/-!
# Model of the surface regularisers (`artist/optim/regularizers.py`)

One heliostat (the heliostat dimension only repeats it) with `facets` facets of `h × w` control points; `cp f i j` is the control point in row
`i` (u direction) and column `j` (v direction) of facet `f`.  `reduction_dimensions` is the facet dimension, as in all callers
(`artist/optim/surface_reconstructor.py` 692-718).  A facet without control points would give `0 / 0` and is excluded in the theorems.
-/
namespace Artist.Regularizers
open Artist Finset
variable {K : Type} [Field K]

/-- Index of the entry of an axis of `n` entries found at position `a` of the axis padded by one on both sides
(`torch.nn.functional.pad(..., (0, 0, 1, 1, 1, 1), mode="replicate")`, lines 117-119). -/
def padIndex (n a : Nat) : Nat := min (a - 1) (n - 1)

/-- `delta_padded[i, j]` (lines 117-119). -/
def padded (h w : Nat) (delta : Nat → Nat → V3 K) (i j : Nat) : V3 K := delta (padIndex h i) (padIndex w j)

/-- `laplace[i, j]` (lines 122-128): slices `:-2`, `2:` and `1:-1` of the padded array start at 0, 2 and 1. -/
def laplace (h w : Nat) (delta : Nat → Nat → V3 K) (i j : Nat) : V3 K :=
  (4 : K) • delta i j - padded h w delta i (j + 1) - padded h w delta (i + 2) (j + 1)
    - padded h w delta (i + 1) j - padded h w delta (i + 1) (j + 2)

/-- `(x**2).mean(dim=(2, 3, 4))` (lines 130 and 185). -/
def meanSquare (h w : Nat) (x : Nat → Nat → V3 K) : K :=
  (∑ i ∈ range h, ∑ j ∈ range w, ((x i j).e ^ 2 + (x i j).n ^ 2 + (x i j).u ^ 2)) / ((h : K) * w * 3)

/-- `SmoothnessRegularizer.__call__` (lines 114-131). -/
def smoothness (facets h w : Nat) (current original : Nat → Nat → Nat → V3 K) : K :=
  ∑ f ∈ range facets, meanSquare h w (laplace h w (fun i j => current f i j - original f i j))

/-- `IdealSurfaceRegularizer.__call__` (lines 182-186). -/
def ideal (facets h w : Nat) (current original : Nat → Nat → Nat → V3 K) : K :=
  ∑ f ∈ range facets, meanSquare h w (fun i j => current f i j - original f i j)

end Artist.Regularizers
