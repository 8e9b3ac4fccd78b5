import Verif.Props.Flux
import Verif.Model.Bitmap
/-!
Specification vocabulary for C120: what an image says about the light that made it.
-/
namespace Artist.Resolution
open Artist Intersect Flux Splat Bitmap
noncomputable section

/-- Where the line of a ray meets the plane of a target. -/
def meets (p : Plane ℝ) (ray : V3 ℝ × V3 ℝ) : V3 ℝ := ray.1 + (V3.dot (p.center - ray.1) p.normal / V3.dot ray.2 p.normal) • ray.2

open Classical in
/-- What a ray brings to a target: nothing if it does not land, otherwise its magnitude times the cosine of incidence times the unblocked fraction times what extinction leaves
times the reflectivity. -/
def arriving (m ext refl : ℝ) (p : Plane ℝ) (blocked : V3 ℝ × V3 ℝ → ℝ) (ray : V3 ℝ × V3 ℝ) : ℝ :=
  if Lands p ray then m * -(V3.dot ray.2 p.normal) * (1 - blocked ray) * (1 - ext) * refl else 0

/-- A measurement of the light itself: every ray counts with what `g` says about the east and the up coordinate of the point where it lands. -/
def ofLight (m ext refl : ℝ) (p : Plane ℝ) (blocked : V3 ℝ × V3 ℝ → ℝ) (rays : List (V3 ℝ × V3 ℝ)) (g : ℝ → ℝ → ℝ) : ℝ :=
  (rays.map fun ray => arriving m ext refl p blocked ray * g (meets p ray).e (meets p ray).u).sum

/-- The same measurement of the image: every pixel counts with what `g` says about the coordinates on the target that the program computes for that pixel. -/
def ofImage (W H : Nat) (p : Plane ℝ) (bitmap : List (List ℝ)) (g : ℝ → ℝ → ℝ) : ℝ :=
  ∑ r ∈ Finset.range H, ∑ c ∈ Finset.range W, pixel bitmap r c * g (toPlane W H p (c : ℝ) (r : ℝ)).e (toPlane W H p (c : ℝ) (r : ℝ)).u

/-- Where an east coordinate is among the columns of the image: the first column is the eastern edge of the target, the last one the western edge. -/
def column (W : Nat) (p : Plane ℝ) (east : ℝ) : ℝ := ((W : ℝ) - 1) * (1 / 2 - (east - p.center.e) / p.width)

/-- Where an up coordinate is among the rows of the image: the first row is the upper edge of the target, the last one the lower edge. -/
def row (H : Nat) (p : Plane ℝ) (up : ℝ) : ℝ := ((H : ℝ) - 1) * (1 / 2 - (up - p.center.u) / p.height)

end
end Artist.Resolution
