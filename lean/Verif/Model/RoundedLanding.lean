import Verif.Model.Rounded
import Verif.Model.Intersect
/-!
# Model of the rounding of float32 arithmetic where rays meet plane target areas

`artist/raytracing/geometry.py` 44-204 with every operation followed by a rounding `rnd` (see `Rounded`).  The whole numbers `W - 1` and `H - 1` are exact, overflow is not modelled, and a product with a mask is
written as `if`.
-/
namespace Artist.RoundedLanding
open Artist Intersect
noncomputable section
variable (rnd : ℝ → ℝ)

/-- The order in which `torch.sum` adds three numbers is not specified.  As used in `geometry.py` 116-118 and 126-128. -/
inductive Order
  | first
  | last
  | outer

/-- `.sum(dim=-1)` of three numbers, every addition rounded (`geometry.py` 116-118, 126-128). -/
def sum3 : Order → ℝ → ℝ → ℝ → ℝ
  | .first, x, y, z => rnd (rnd (x + y) + z)
  | .last, x, y, z => rnd (x + rnd (y + z))
  | .outer, x, y, z => rnd (rnd (x + z) + y)

/-- `(a * b).sum(dim=-1)` (`geometry.py` 116-118, 126-128). -/
def dot3 (o : Order) (a b : V3 ℝ) : ℝ := sum3 rnd o (rnd (a.e * b.e)) (rnd (a.n * b.n)) (rnd (a.u * b.u))

/-- `angle_based_intensities` (`geometry.py` 116-118). -/
def angle (o : Order) (dir : V3 ℝ) (p : Plane ℝ) : ℝ := dot3 rnd o dir p.normal

/-- `numerator` (`geometry.py` 126-128). -/
def numerator (o : Order) (origin : V3 ℝ) (p : Plane ℝ) : ℝ :=
  dot3 rnd o ⟨rnd (p.center.e - origin.e), rnd (p.center.n - origin.n), rnd (p.center.u - origin.u)⟩ p.normal

/-- `intersection_distances` before the bounds are checked (`geometry.py` 130-131). -/
def distance (o₁ o₂ : Order) (origin dir : V3 ℝ) (p : Plane ℝ) : ℝ :=
  if angle rnd o₁ dir p < 0 then rnd (numerator rnd o₂ origin p / angle rnd o₁ dir p) else 0

/-- One coordinate in bitmap space (`geometry.py` 133-136, 147-174): of the origin, of the direction and of the center; `size` is width or height, `n` the resolution minus one. -/
def bitmap (t origin dir center size n : ℝ) : ℝ :=
  rnd (rnd (rnd (rnd (rnd (origin + rnd (dir * t)) + rnd (size / 2)) - center) / size) * n)

/-- `line_plane_intersections` (`geometry.py` 44-204) for one ray.  Multiplication with the 0/1 mask is written as `if`. -/
def linePlane (o₁ o₂ : Order) (W H : Nat) (origin dir : V3 ℝ) (magnitude : ℝ) (p : Plane ℝ) : Landing ℝ :=
  let t := distance rnd o₁ o₂ origin dir p
  let be := bitmap rnd t origin.e dir.e p.center.e p.width ((W : ℝ) - 1)
  let bu := bitmap rnd t origin.u dir.u p.center.u p.height ((H : ℝ) - 1)
  let valid := decide (0 ≤ be) && decide (be ≤ (W : ℝ) - 1) && decide (0 ≤ bu) && decide (bu ≤ (H : ℝ) - 1) && decide (angle rnd o₁ dir p < 0)
  { e := rnd (((W : ℝ) - 1) - (if valid then be else 0))
    u := if valid then bu else 0
    distance := if valid then t else 0
    intensity := if valid then rnd (magnitude * -(angle rnd o₁ dir p)) else 0 }

end
end Artist.RoundedLanding
