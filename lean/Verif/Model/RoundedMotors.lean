import Verif.Model.RoundedChain
import Verif.Model.RoundedActuator
/-!
# Model of the way from the motor positions to the target in float32 arithmetic

The joint angles of `RoundedChain` are those that `RoundedActuator` computes from motor positions.
-/
namespace Artist.RoundedMotors
open Artist Actuators Kinematics Intersect RoundedChain
noncomputable section

/-- A ray from a heliostat with other joint angles (`kinematics_rigid_body.py` 272-274 and 301-303 use them). -/
def turned (x : Ray) (first second : ℝ) : Ray := { x with first := first, second := second }

/-- A ray from a heliostat whose motors are at `m`, with the joint angles in exact arithmetic (`kinematics_rigid_body.py` 222-225, 272-274, 301-303, 534-538, `actuators_linear.py` 235-291). -/
def driven (a₁ a₂ : Linear) (m : ℝ × ℝ) (x : Ray) : Ray := turned x (a₁.toAngle m.1) (a₂.toAngle m.2)

/-- Where the ray lands if everything is computed, beginning with the joint angles (`kinematics_rigid_body.py` 222-225, 272-274, 301-303, 534-538, `actuators_linear.py` 235-291, then as in `RoundedChain.landing`). -/
def landing (rnd fsoft facos fcos fsin : ℝ → ℝ) (f : Fin 3 → ℝ) (P : Plans) (a₁ a₂ : Linear) (m : ℝ × ℝ) (x : Ray) (W H : Nat) (p : Plane ℝ) : Landing ℝ :=
  RoundedChain.landing rnd fcos fsin f P (turned x (RoundedActuator.toAngle rnd fsoft facos a₁ m.1) (RoundedActuator.toAngle rnd fsoft facos a₂ m.2)) W H p

end
end Artist.RoundedMotors
