import Verif.Spec.MotorImage
import Verif.Props.Intersect
/-! Specification vocabulary for C112: rays that meet a cylindrical target properly. -/
namespace Artist.CylinderImage
open Artist Intersect

noncomputable section

/-- Squared length of the part of a direction across the axis. -/
def slope (cyl : Cylinder) (dir : V3 ℝ) : ℝ := V3.normSq dir - V3.dot dir cyl.axis ^ 2

/-- The point of the line after the distance `t`. -/
def along (ray : V3 ℝ × V3 ℝ) (t : ℝ) : V3 ℝ := ray.1 + t • ray.2

/-- The line passes through the surface at the distance `t`.  The surface is that of a cylinder which is wider by the constant added for numerical stability. -/
def Meets (cyl : Cylinder) (ray : V3 ℝ × V3 ℝ) (t : ℝ) : Prop := cyl.radial (along ray t) = cyl.radius ^ 2 + 1 / 10 ^ 12 / (4 * slope cyl ray.2)

/-- The point is not on the line behind which angles jump from π to -π. -/
def OffSeam (cyl : Cylinder) (x : V3 ℝ) : Prop := 0 < (cyl.toLocal (x - cyl.center)).e ∨ (cyl.toLocal (x - cyl.center)).n ≠ 0

/-- The point is on the target area, or not on it, but not at its edge. -/
def Proper (cyl : Cylinder) (x : V3 ℝ) : Prop :=
  (OffSeam cyl x ∧ |V3.dot (x - cyl.center) cyl.axis| < cyl.height / 2 ∧ 0 < cyl.angle (cyl.toLocal (x - cyl.center)) ∧ cyl.angle (cyl.toLocal (x - cyl.center)) < cyl.opening) ∨
  cyl.height / 2 < |V3.dot (x - cyl.center) cyl.axis| ∨
  (OffSeam cyl x ∧ (cyl.angle (cyl.toLocal (x - cyl.center)) < 0 ∨ cyl.opening < cyl.angle (cyl.toLocal (x - cyl.center))))

/-- The line is nearly parallel to the axis, or it passes the cylinder at a distance, or it goes through the cylinder, does not start on its surface, and the first point of the surface
in front of it, if there is one, is not at the edge of the target area. -/
def Clear (cyl : Cylinder) (ray : V3 ℝ × V3 ℝ) : Prop :=
  slope cyl ray.2 < 1 / 10 ^ 8 ∨ (∀ t, cyl.radius ^ 2 < cyl.radial (along ray t)) ∨
  (1 / 10 ^ 8 < slope cyl ray.2 ∧ (∃ t, cyl.radial (along ray t) < cyl.radius ^ 2) ∧ ¬ Meets cyl ray 0 ∧
    ∀ t, 0 < t → Meets cyl ray t → (∀ s, 0 < s → s < t → ¬ Meets cyl ray s) → Proper cyl (along ray t))

end
end Artist.CylinderImage
