import Verif.Model.RoundedMotors
import Verif.Spec.RoundedLanding
/-!
# Model of rays from several heliostats with their motors, in float32 arithmetic

What `geometry.py` 104-204 hands over to the splatting for the active heliostats: a list of rays, each with the actuators and motor positions of its heliostat.
-/
namespace Artist.RoundedMotors
open Artist Actuators Kinematics Intersect RoundedRay RoundedLanding RoundedChain
noncomputable section

/-- One ray together with the two actuators and the motor positions of its heliostat (`kinematics_rigid_body.py` 222-225). -/
structure Sent where
  ray : Ray
  first : Linear
  second : Linear
  motors : ℝ × ℝ

/-- What it leaves on the bitmap in exact arithmetic (`geometry.py` 104-204). -/
def Sent.exact (W H : Nat) (p : Plane ℝ) (k : Sent) : Splat.Hit ℝ :=
  hit (Intersect.linePlane W H (driven k.first k.second k.motors k.ray).start (driven k.first k.second k.motors k.ray).leave k.ray.magnitude p)

/-- The same, everything computed (`geometry.py` 104-204). -/
def Sent.computed (rnd fsoft facos fcos fsin : ℝ → ℝ) (f : Fin 3 → ℝ) (P : Plans) (W H : Nat) (p : Plane ℝ) (k : Sent) : Splat.Hit ℝ :=
  hit (landing rnd fsoft facos fcos fsin f P k.first k.second k.motors k.ray W H p)

end
end Artist.RoundedMotors
