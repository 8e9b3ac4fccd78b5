import Verif.Model.RoundedMotors
import Verif.Spec.RoundedChain
import Verif.Spec.RoundedActuator
/-! Specification vocabulary for C136. -/
namespace Artist.RoundedMotors
open Artist Actuators Kinematics Intersect RoundedRay RoundedLanding RoundedChain
noncomputable section

/-- Units of rounding together with joint angles that are wrong by `D` in total. -/
def units (ε D : ℝ) : ℝ := ε + D / 1000

/-- The ray arrives at a plane target: in a scene of size `r` that contains the heliostat, from the front, with a cosine of at least `κ`, against which `ε` is small. -/
def Arrives (ε R ρ s r κ : ℝ) (p : Plane ℝ) (t : ℝ) (y : Ray) : Prop :=
  Arriving ε r κ y.start y.leave p t ∧ (s ≤ r ∧ R ≤ 2 * r ∧ ρ ≤ r) ∧ 400000 * ε ≤ κ

/-- How far a ray can move on the plane of the target, in metres. -/
def reach (ε R ρ s r κ : ℝ) : ℝ := (2140 * s + 193 * R + 4280 * ρ + 577 + 5980 * r) * (ε / κ)

/-- The same in pixels. -/
def pixels (ε R ρ s r κ size : ℝ) (n : Nat) : ℝ := reach ε R ρ s r κ * (((n : ℝ) - 1) / size)

/-- It lands on the target, further from the edges than it can move. -/
def Inside (ε R ρ s r κ : ℝ) (W H : Nat) (p : Plane ℝ) (t : ℝ) (y : Ray) : Prop :=
  (pixels ε R ρ s r κ p.width W < column W y.start y.leave p t ∧ column W y.start y.leave p t < (W : ℝ) - 1 - pixels ε R ρ s r κ p.width W) ∧
  (pixels ε R ρ s r κ p.height H < row H y.start y.leave p t ∧ row H y.start y.leave p t < (H : ℝ) - 1 - pixels ε R ρ s r κ p.height H)

/-- It passes beside the target, further from the edges than it can move. -/
def Outside (ε R ρ s r κ : ℝ) (W H : Nat) (p : Plane ℝ) (t : ℝ) (y : Ray) : Prop :=
  column W y.start y.leave p t < -pixels ε R ρ s r κ p.width W ∨ (W : ℝ) - 1 + pixels ε R ρ s r κ p.width W < column W y.start y.leave p t ∨
  row H y.start y.leave p t < -pixels ε R ρ s r κ p.height H ∨ (H : ℝ) - 1 + pixels ε R ρ s r κ p.height H < row H y.start y.leave p t

/-- An actuator with lengths of at most 40 cm, offset and pivot radius of 32 cm at least, that stays thirty degrees away from where it is in line with its pivot radius. -/
structure Steady (a : Linear) (m : ℝ) : Prop where
  offset : 32 / 100 ≤ a.offset ∧ a.offset ≤ 2 / 5
  pivot : 32 / 100 ≤ a.pivotRadius ∧ a.pivotRadius ≤ 2 / 5
  initial : a.initialStroke ≤ 2 / 5
  motor : |m / a.increment| ≤ 2 / 5
  angle : |a.initialAngle| ≤ 7
  moved : 1 / 2 ≤ Real.sin (a.absoluteAngle m)
  rest : 1 / 2 ≤ Real.sin (a.absoluteAngle 0)

end
end Artist.RoundedMotors
