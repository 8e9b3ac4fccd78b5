import Verif.Model.RoundedMotorsImage
import Verif.Spec.RoundedMotors
/-! Specification vocabulary for C138. -/
namespace Artist.RoundedMotors
open Artist Actuators Kinematics Intersect RoundedRay RoundedLanding RoundedChain
noncomputable section

/-- A ray for which it is clear whether it counts: it comes from behind, lands on the target or passes beside it, each by more than it can move. -/
def Clear (ε R ρ s r κ : ℝ) (W H : Nat) (p : Plane ℝ) (y : Ray) : Prop :=
  V3.normSq p.normal ≤ 101 / 100 ∧ 3860 * ε ≤ V3.dot y.leave p.normal ∨ ∃ t, Arrives ε R ρ s r κ p t y ∧ (Inside ε R ρ s r κ W H p t y ∨ Outside ε R ρ s r κ W H p t y)

/-- By how much the two joint angles are wrong together. -/
def Sent.off (rnd fsoft facos : ℝ → ℝ) (k : Sent) : ℝ :=
  |RoundedActuator.toAngle rnd fsoft facos k.first k.motors.1 - k.first.toAngle k.motors.1| + |RoundedActuator.toAngle rnd fsoft facos k.second k.motors.2 - k.second.toAngle k.motors.2|

/-- Its heliostat, surface point, normal, light and scattering are of the sizes of C131, cosine and sine right at the computed joint angles. -/
def Sent.Regular (ε R ρ s : ℝ) (rnd fsoft facos fcos fsin : ℝ → ℝ) (f : Fin 3 → ℝ) (k : Sent) : Prop :=
  (turned k.ray (RoundedActuator.toAngle rnd fsoft facos k.first k.motors.1) (RoundedActuator.toAngle rnd fsoft facos k.second k.motors.2)).Regular ε R ρ s fcos fsin f

end
end Artist.RoundedMotors
