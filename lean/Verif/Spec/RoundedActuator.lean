import Verif.Model.RoundedActuator
/-! Specification vocabulary for C132. -/
namespace Artist.RoundedActuator
open Artist Actuators
noncomputable section

/-- Softplus and arc cosine of the library are right up to two and four units of rounding. -/
structure Library (ε : ℝ) (fsoft facos : ℝ → ℝ) : Prop where
  softplus : ∀ x, |fsoft x - softplus 100 x| ≤ 2 * ε * softplus 100 x
  arccos : ∀ x, -1 ≤ x → x ≤ 1 → |facos x - Real.arccos x| ≤ 4 * ε

/-- Offset, pivot radius and initial stroke of an actuator, and how far the motor extends it, are `L` at most; `ε` is small against the lengths. -/
structure Sized (ε L : ℝ) (a : Linear) (motor : ℝ) : Prop where
  size : 1 / 1000 ≤ L
  offset : a.offset ≤ L
  pivot : a.pivotRadius ≤ L
  initial : a.initialStroke ≤ L
  motor : |motor / a.increment| ≤ L
  small : 20000 * ε * L ^ 2 ≤ 2 * a.offset * a.pivotRadius

/-- Units of rounding, magnified by the shape of the actuator: a slim triangle has less to lose. -/
def loss (ε L : ℝ) (a : Linear) : ℝ := ε * L ^ 2 / (2 * a.offset * a.pivotRadius)

end
end Artist.RoundedActuator
