import Verif.Model.RoundedKinematics
import Verif.Model.Flux
/-!
# Model of the whole way of a ray in float32 arithmetic

From the joint angles of a heliostat to the bitmap coordinates on a plane target: `RoundedKinematics` followed by `RoundedRay` and `RoundedLanding`.
-/
namespace Artist.RoundedChain
open Artist Transforms Kinematics Intersect RoundedRay RoundedKinematics RoundedLanding Matrix
noncomputable section

/-- In which order the sums are added up on the way: products of matrices, surface points and normals, the reflection, the scattering and the two sums of the intersection.  As used in
`kinematics_rigid_body.py` 224-324, `heliostat_group_rigid_body.py` 217-222, 265-270, `geometry.py` 35-39, 116-128 and `heliostat_ray_tracer.py` 547-553. -/
structure Plans where
  matrices : Nat → RoundedKinematics.Plans
  point : Fin 4 → Plan
  normal : Fin 4 → Plan
  reflection : Plan
  scattering : Fin 3 → Plan
  angle : Order
  distance : Order

/-- A heliostat with its joint angles, a surface point and a normal in its own coordinates, the light and the two angles of scattering of one ray, and its magnitude
(`heliostat_group_rigid_body.py` 217-222, 265-270, `heliostat_ray_tracer.py` 285-290, 328-335). -/
structure Ray where
  heliostat : Heliostat
  first : ℝ
  second : ℝ
  point : Fin 4 → ℝ
  normal : Fin 4 → ℝ
  incident : Fin 4 → ℝ
  e : ℝ
  u : ℝ
  magnitude : ℝ

/-- East, north and up of a point (`geometry.py` 148-166 use these components). -/
def enu (v : Fin 4 → ℝ) : V3 ℝ := ⟨v 0, v 1, v 2⟩

variable (rnd : ℝ → ℝ) (fcos fsin : ℝ → ℝ) (f : Fin 3 → ℝ) (P : Plans) (x : Ray)

/-- The orientation of the heliostat (`kinematics_rigid_body.py` 534-538) -/
def pose : Mat := orientation rnd fcos fsin P.matrices f x.heliostat x.first x.second

/-- Where the ray starts (`heliostat_group_rigid_body.py` 217-219, 265-267) -/
def start : V3 ℝ := enu (place rnd P.point (pose rnd fcos fsin f P x) x.point)

/-- Its direction (`heliostat_group_rigid_body.py` 220-222, 268-270, `heliostat_ray_tracer.py` 285-290, 541-553) -/
def leave : V3 ℝ := direction rnd P.reflection P.scattering fcos fsin x.incident (place rnd P.normal (pose rnd fcos fsin f P x) x.normal) x.e x.u

/-- Where it lands (`geometry.py` 104-204) -/
def landing (W H : Nat) (p : Plane ℝ) : Landing ℝ := linePlane rnd P.angle P.distance W H (start rnd fcos fsin f P x) (leave rnd fcos fsin f P x) x.magnitude p

/-- The orientation in exact arithmetic (`kinematics_rigid_body.py` 534-538) -/
def Ray.pose : Mat := x.heliostat.anglesToOrientation x.first x.second * orientationOffset

/-- The start in exact arithmetic (`heliostat_group_rigid_body.py` 217-219, 265-267) -/
def Ray.start : V3 ℝ := enu (x.pose *ᵥ x.point)

/-- The direction in exact arithmetic (`heliostat_group_rigid_body.py` 220-222, 268-270, `heliostat_ray_tracer.py` 285-290, 541-553) -/
def Ray.leave : V3 ℝ := Flux.direction x.incident (x.pose *ᵥ x.normal) x.e x.u

end
end Artist.RoundedChain
