import Verif.Spec.Converge
import Verif.Spec.MotorImage
/-! Specification vocabulary for C119: how far rays and their hits are apart. -/
namespace Artist.Pointing
open Artist Kinematics Converge

noncomputable section

/-- Distance of two points, or length of the difference of two directions. -/
def apart (a b : V3 ℝ) : ℝ := Real.sqrt ((a.e - b.e) ^ 2 + (a.n - b.n) ^ 2 + (a.u - b.u) ^ 2)

/-- The two joint angles for two motor positions. -/
def angles (h : Heliostat) (m : ℝ × ℝ) : ℝ × ℝ := (h.actuator1.toAngle m.1, h.actuator2.toAngle m.2)

/-- How far the points of a mirror of radius `R` move at most when the joints turn by `e₁` and `e₂`. -/
def shift (h : Heliostat) (R e₁ e₂ : ℝ) : ℝ := e₁ * (R + lever h) + e₂ * (R + concentrator h)

/-- A mirror within a radius `R` around its centre: points with unit normals, in homogeneous coordinates. -/
def Within (R : ℝ) (mirror : List ((Fin 4 → ℝ) × (Fin 4 → ℝ))) : Prop :=
  ∀ q ∈ mirror, q.1 3 = 1 ∧ length3 q.1 ≤ R ∧ UnitDirection q.2

end
end Artist.Pointing
