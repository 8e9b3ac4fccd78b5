import Verif.Model.Intersect
import Mathlib.Algebra.BigOperators.Group.Finset.Basic
import Mathlib.Analysis.SpecialFunctions.Trigonometric.Basic
/-!
# Model of bitmap evaluation and coordinate conversions

`artist/flux/bitmap.py` 12-118, `artist/geometry/coordinates.py` 96-249.  One bitmap; the batch dimension only repeats it.
-/
namespace Artist.Bitmap
open Artist Finset

section
variable {K : Type} [Field K] [LinearOrder K]

/-- `get_center_of_mass` (`bitmap.py` 45-71): east (column) and up (row) pixel position.  `img r c` is the pixel in row `r` from the top and
column `c`; `eps` is `1e-8` in the code. -/
def centerOfMass (eps : K) (W H : Nat) (img : Nat → Nat → K) : K × K :=
  let total := ∑ r ∈ range H, ∑ c ∈ range W, img r c
  (∑ r ∈ range H, ∑ c ∈ range W, (c : K) * (img r c / (total + eps)),
   ∑ r ∈ range H, ∑ c ∈ range W, (r : K) * (img r c / (total + eps)))

/-- `bitmap_coordinates_to_target_coordinates` (`coordinates.py` 182-218) for a planar target area; `e`, `u` are pixel positions. -/
def toPlane (W H : Nat) (p : Intersect.Plane K) (e u : K) : V3 K :=
  let eNorm := (e + 1 / 2) / (W : K)
  let uNorm := (u + 1 / 2) / (H : K)
  p.center + ((1 / 2 - eNorm) * p.width) • (⟨1, 0, 0⟩ : V3 K) + ((1 / 2 - uNorm) * p.height) • (⟨0, 0, 1⟩ : V3 K)

/-- `trapezoid_distribution` (`bitmap.py` 106-118).  Widths are natural numbers. -/
def trapezoid (total slope plateau : Nat) : List K :=
  (List.range total).map fun (i : Nat) =>
    let distance := |(i : K) - ((total : K) - 1) / 2| - (plateau : K) / 2
    if slope = 0 then (if distance ≤ 0 then 1 else 0)
    else 1 - min (max (distance / (slope : K)) 0) 1

/-- Minimum of the first element and the rest (`torch.min(...).values`, `coordinates.py` 113). -/
def minimum : K → List K → K := List.foldl min
/-- Maximum of the first element and the rest (`torch.max(...).values`, `coordinates.py` 115). -/
def maximum : K → List K → K := List.foldl max

/-- `normalize_points` (`coordinates.py` 112-116) for one column `x :: xs` of the points; `eps` is `1e-5` in the code. -/
def normalizeColumn (eps : K) (x : K) (xs : List K) : List K :=
  let low := minimum x xs
  let high := maximum (x - low + 2 * eps) (xs.map fun y => y - low + 2 * eps)
  (x :: xs).map fun y => (y - low + eps) / high
end

noncomputable section

/-- `bitmap_coordinates_to_target_coordinates` (`coordinates.py` 182-186, 230-247) for a cylindrical target area. -/
def toCylinder (W H : Nat) (cyl : Intersect.Cylinder) (e u : ℝ) : V3 ℝ :=
  let theta := ((e + 1 / 2) / (W : ℝ) - 1 / 2) * cyl.opening
  let z := (1 / 2 - (u + 1 / 2) / (H : ℝ)) * cyl.height
  cyl.center + (cyl.radius * Real.cos theta) • cyl.normal + (cyl.radius * Real.sin theta) • V3.cross cyl.axis cyl.normal + z • cyl.axis
end

end Artist.Bitmap
