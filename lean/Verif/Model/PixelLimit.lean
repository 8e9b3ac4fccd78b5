import Verif.Model.Aim
import Verif.Model.Intersect
import Verif.Model.Splat
import Verif.Model.Tower
/-!
# Model of the limit of the local flux in the aim point optimisation

`artist/optim/aim_point_optimizer.py` 305-348, 808-821.
-/
namespace Artist.PixelLimit
open Artist

/-- The sizes of the target areas of a tower: width and height of the planar ones, radius, opening angle and height of the cylindrical ones.  Source: `tower_target_areas_planar.py` 45-74, `tower_target_areas_cylindrical.py` 56-102. -/
structure Sizes (K : Type) where
  planar : List (K × K)
  cylinders : List (K × K × K)

/-- `_get_target_plane_dimensions` (305-348) for a target area index that is not negative.  The lookup in `index_to_target_area` raises `IndexError`
if there are fewer target areas. -/
def dimensions {K : Type} [Mul K] (s : Sizes K) (index : Nat) : Except PyErr (K × K) :=
  if s.planar.length + s.cylinders.length ≤ index then .error .indexError
  else if index < s.planar.length then
    match s.planar[index]? with
    | some d => .ok d
    | none => .error .indexError
  else
    match s.cylinders[index - s.planar.length]? with
    | some (radius, opening, height) => .ok (radius * opening, height)
    | none => .error .indexError

/-- `max_flux_density_per_pixel` (819-821). -/
def limit {K : Type} [Field K] (d : K × K) (W H : Nat) (density : K) : K := d.1 * d.2 / ((W : K) * (H : K)) * density

end Artist.PixelLimit
