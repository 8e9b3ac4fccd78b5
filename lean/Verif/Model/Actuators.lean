import Mathlib.Analysis.SpecialFunctions.Trigonometric.Inverse
import Mathlib.Analysis.SpecialFunctions.Log.Basic
import Mathlib.Analysis.SpecialFunctions.Sqrt
/-!
# Model of the actuators (`artist/field/actuators_linear.py`, `artist/field/actuators_ideal.py`)

One actuator of one heliostat; the tensors repeat this for both actuators of every active heliostat.
-/
namespace Artist.Actuators
open Real

/-- `torch.clamp`.  As used in `actuators_linear.py` 222-232 and 353-368. -/
noncomputable def clamp (x lo hi : ℝ) : ℝ := min (max x lo) hi

/-- `torch.nn.functional.softplus` with its default threshold 20 -/
noncomputable def softplus (beta x : ℝ) : ℝ := if x * beta > 20 then x else log (1 + exp (beta * x)) / beta

/-- `self.epsilon` (`actuators_linear.py` 77) -/
noncomputable def eps : ℝ := 1 / 10 ^ 6

/-- Parameters of one linear actuator as stored (`artist/util/indices.py` 3-19).  The type and the motor limits are kept in
`minMotor`, `maxMotor`; the actuator type is not needed. -/
structure Linear where
  clockwise : ℝ
  minMotor : ℝ
  maxMotor : ℝ
  rawIncrement : ℝ
  rawOffset : ℝ
  rawPivotRadius : ℝ
  initialAngle : ℝ
  rawInitialStroke : ℝ

namespace Linear
variable (a : Linear)

/-- `_physics_informed_parameters` (`actuators_linear.py` 79-178): the four strictly positive parameters. -/
noncomputable def physical (x : ℝ) : ℝ := softplus 100 x + eps
/-- increment (`actuators_linear.py` 138-146) -/
noncomputable def increment : ℝ := physical a.rawIncrement
/-- offset (`actuators_linear.py` 147-153) -/
noncomputable def offset : ℝ := physical a.rawOffset
/-- pivot radius (`actuators_linear.py` 154-163) -/
noncomputable def pivotRadius : ℝ := physical a.rawPivotRadius
/-- initial stroke length (`actuators_linear.py` 164-173) -/
noncomputable def initialStroke : ℝ := physical a.rawInitialStroke

/-- limit of the stroke (`actuators_linear.py` 220-224 and 363-367) -/
noncomputable def clampStroke (s : ℝ) : ℝ :=
  clamp s (|a.offset - a.pivotRadius| + eps) (a.offset + a.pivotRadius - eps)

/-- `_motor_positions_to_absolute_angles` (`actuators_linear.py` 180-233) -/
noncomputable def absoluteAngle (motor : ℝ) : ℝ :=
  let stroke := a.clampStroke (motor / a.increment + a.initialStroke)
  let numerator := a.offset ^ 2 + a.pivotRadius ^ 2 - stroke ^ 2
  let denominator := 2 * a.offset * a.pivotRadius
  arccos (clamp (numerator / denominator) (-1 + 1 / 10 ^ 6) (1 - 1 / 10 ^ 6))

/-- `motor_positions_to_angles` (`actuators_linear.py` 235-291) -/
noncomputable def toAngle (motor : ℝ) : ℝ :=
  let delta := a.absoluteAngle 0 - a.absoluteAngle motor
  a.initialAngle + delta * (if a.clockwise = 1 then 1 else 0) - delta * (if a.clockwise = 0 then 1 else 0)

/-- `angles_to_motor_positions` (`actuators_linear.py` 293-370) -/
noncomputable def toMotor (angle : ℝ) : ℝ :=
  let delta := if a.clockwise = 1 then angle - a.initialAngle else a.initialAngle - angle
  let initial := a.absoluteAngle 0 - delta
  let c := clamp (cos initial) (-1 + 1 / 10 ^ 6) (1 - 1 / 10 ^ 6)
  let stroke := √(a.offset ^ 2 + a.pivotRadius ^ 2 - 2 * a.offset * a.pivotRadius * c)
  (a.clampStroke stroke - a.initialStroke) * a.increment
end Linear

/-- An ideal actuator; only its motor limits matter.  Source: `actuators_ideal.py` 37-64; limits `actuators.py` 37-77. -/
structure Ideal where
  minMotor : ℝ
  maxMotor : ℝ

/-- `IdealActuators.motor_positions_to_angles` (`actuators_ideal.py` 66-87) -/
def Ideal.toAngle (_ : Ideal) (motor : ℝ) : ℝ := motor
/-- `IdealActuators.angles_to_motor_positions` (`actuators_ideal.py` 89-111) -/
def Ideal.toMotor (_ : Ideal) (angle : ℝ) : ℝ := angle

end Artist.Actuators
