import Verif.Model.Surfaces
import Verif.Spec.BSpline
/-! Specification vocabulary for C117: mirrors that differ only in their control points, and grids that are fine enough. -/
namespace Artist.Sampling
open Artist Nurbs Surfaces Transforms

/-- The same number of control points in both directions. -/
def SameSize {K : Type} (net net' : Net K) : Prop := net'.nu = net.nu ∧ net'.nv = net.nv

/-- All control points are the same. -/
def SamePoints {K : Type} (net net' : Net K) : Prop := ∀ i j, i < net.nu → j < net.nv → net'.at' i j = net.at' i j

/-- Two facets mounted in the same way, with as many control points. -/
structure SameMount (f f' : Facet) : Prop where
  size : SameSize f.net f'.net
  translation : f'.translation = f.translation
  cantE : f'.cantE = f.cantE
  cantN : f'.cantN = f.cantN

/-- the three coordinates of a direction -/
def axis (v : Fin 4 → ℝ) : Fin 3 → ℝ := ![v 0, v 1, v 2]

/-- The canting vectors of a facet are neither tiny nor parallel. -/
def Spread (f : Facet) : Prop :=
  1 / 10 ^ 12 ≤ norm3 (axis f.cantE) ∧ 1 / 10 ^ 8 * norm3 (axis f.cantE) ≤ norm3 (crossProduct (axis f.cantE) (axis f.cantN))

/-- A grid with `steps` points per direction, `eps` away from the border, against `n` control points of a degree: `degree + 1` steps of the grid fit between two knots, border excluded. -/
def Fine (eps : ℝ) (steps n degree : Nat) : Prop :=
  2 ≤ steps ∧ ((degree : ℝ) + 1) * ((1 - 2 * eps) / ((steps : ℝ) - 1)) ≤ 1 / ((n : ℝ) - degree) - 2 * eps

end Artist.Sampling
