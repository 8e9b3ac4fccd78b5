import Verif.Model.Kinematics
/-!
# Model of `rotation_angle_and_axis` (`artist/geometry/rotations.py` 67-119) and its use for linear actuators

`decompose_rotations` is modelled in `Model/Kinematics.lean`.
-/
namespace Artist.Rotations
open Matrix Real Transforms Kinematics

open Classical in
/-- `rotation_angle_and_axis` (`rotations.py` 67-119) on the first three components: axis and angle.  `x / torch.norm(x)` is only modelled for
vectors that are not zero (torch gives NaN otherwise). -/
noncomputable def angleAndAxis (source target : Fin 3 → ℝ) : (Fin 3 → ℝ) × ℝ :=
  let a := (norm3 source)⁻¹ • source
  let b := (norm3 target)⁻¹ • target
  let dot := Actuators.clamp (a ⬝ᵥ b) (-1) 1
  let angle := arccos dot
  let axis := crossProduct a b
  let axisNorm := norm3 axis
  let epsilon : ℝ := 1 / 10 ^ 6
  if axisNorm < epsilon ∧ dot > 0 then (![1, 0, 0], 0)
  else if axisNorm < epsilon ∧ dot < 0 then
    let orthogonal : Fin 3 → ℝ := if |a 0| < |a 1| then ![1, 0, 0] else ![0, 1, 0]
    let axis := crossProduct a orthogonal
    ((norm3 axis)⁻¹ • axis, π)
  else (axisNorm⁻¹ • axis, angle)

/-- The angle added to the initial angle of the first linear actuator on loading (`artist/io/h5_scenario_parser.py` 631-642). -/
noncomputable def initialAngleShift : ℝ :=
  let r := angleAndAxis ![0, -1, 0] ![0, 0, 1]
  r.1 0 * r.2

end Artist.Rotations
