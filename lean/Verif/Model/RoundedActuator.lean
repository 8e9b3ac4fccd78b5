import Verif.Model.Actuators
/-!
# Model of the rounding of float32 arithmetic in the linear actuators

`artist/field/actuators_linear.py` 138-173 and 180-291 with every operation followed by a rounding `rnd` (see `Rounded`), the softplus `fsoft` and the arc cosine `facos` of PyTorch.  Python numbers such as `1e-6`
are rounded once.  Overflow is not modelled.
-/
namespace Artist.RoundedActuator
open Artist Actuators
noncomputable section
variable (rnd fsoft facos : ℝ → ℝ) (a : Linear)

/-- one strictly positive parameter (`actuators_linear.py` 138-173) -/
def physical (x : ℝ) : ℝ := rnd (fsoft x + rnd eps)

/-- `stroke_lengths` after the clamp (`actuators_linear.py` 218-224) -/
def stroke (motor : ℝ) : ℝ :=
  let o := physical rnd fsoft a.rawOffset
  let r := physical rnd fsoft a.rawPivotRadius
  clamp (rnd (rnd (motor / physical rnd fsoft a.rawIncrement) + physical rnd fsoft a.rawInitialStroke))
    (rnd (|rnd (o - r)| + rnd eps)) (rnd (rnd (o + r) - rnd eps))

/-- the argument of `torch.arccos` (`actuators_linear.py` 226-232) -/
def cosine (motor : ℝ) : ℝ :=
  let o := physical rnd fsoft a.rawOffset
  let r := physical rnd fsoft a.rawPivotRadius
  let numerator := rnd (rnd (rnd (o ^ 2) + rnd (r ^ 2)) - rnd (stroke rnd fsoft a motor ^ 2))
  let denominator := rnd (rnd (2 * o) * r)
  clamp (rnd (numerator / denominator)) (rnd (-1 + 1 / 10 ^ 6)) (rnd (1 - 1 / 10 ^ 6))

/-- `_motor_positions_to_absolute_angles` (`actuators_linear.py` 180-233) -/
def absoluteAngle (motor : ℝ) : ℝ := facos (cosine rnd fsoft a motor)

/-- `motor_positions_to_angles` (`actuators_linear.py` 235-291) -/
def toAngle (motor : ℝ) : ℝ :=
  let delta := rnd (absoluteAngle rnd fsoft facos a 0 - absoluteAngle rnd fsoft facos a motor)
  rnd (rnd (a.initialAngle + rnd (delta * (if a.clockwise = 1 then 1 else 0))) - rnd (delta * (if a.clockwise = 0 then 1 else 0)))

end
end Artist.RoundedActuator
