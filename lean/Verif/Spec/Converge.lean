import Verif.Props.Aiming
/-! Specification vocabulary for C110: how far the mirror centre is from the joints, and what a heliostat meets while it is being aligned. -/
namespace Artist.Converge
open Artist Matrix Real Transforms Kinematics Aiming

noncomputable section

/-- The mirror centre of an orientation. -/
def centre (M : Matrix (Fin 4) (Fin 4) ℝ) : Fin 4 → ℝ := M *ᵥ ![0, 0, 0, 1]

/-- Distance between first and second joint. -/
def secondJoint (h : Heliostat) : ℝ := length3 ![h.translation 3, h.translation 4, h.translation 5, 0]

/-- Distance between second joint and mirror centre. -/
def concentrator (h : Heliostat) : ℝ := length3 ![h.translation 6, h.translation 7, h.translation 8, 0]

/-- Length of the arm that carries the mirror centre around the first joint. -/
def lever (h : Heliostat) : ℝ := secondJoint h + concentrator h

/-- The normal that is wanted from a heliostat with motors at `m`. -/
def wanted (h : Heliostat) (incident aim : Fin 4 → ℝ) (m : ℝ × ℝ) : Fin 4 → ℝ := Heliostat.desiredNormal incident aim (h.forward m)

/-- Wherever its motors are, the heliostat is at least `far` away from its aim point, the light does not come from (nearly) behind (`back` is twice the cosine of the
angle of incidence), the wanted normal keeps away from the axis of the first joint, the actuators can realise the joint angles, and it is always the same one of the two solutions for the joint angles that is
chosen. -/
structure Regular (h : Heliostat) (incident aim : Fin 4 → ℝ) (far back s : ℝ) : Prop where
  unit : UnitDirection incident
  far_pos : 1 / 10 ^ 8 ≤ far
  back_pos : 1 / 10 ^ 8 ≤ back
  s_pos : 0 ≤ s
  s_lt : s ≤ 1 - 1 / 10 ^ 8
  axes : cos (h.rotation 3) ≠ 0
  distant : ∀ m, far ≤ slant aim (h.forward m)
  facing : ∀ m, back ≤ length3 (toAim aim (h.forward m) - incident)
  away : ∀ m, |((rotN (h.rotation 0) * rotU (h.rotation 1))ᵀ *ᵥ wanted h incident aim m) 0| ≤ s * |cos (h.rotation 3)|
  actuators : ∀ m θ, (θ = (h.jointAngles (1 / 10 ^ 8) (wanted h incident aim m)).1 ∨ θ = (h.jointAngles (1 / 10 ^ 8) (wanted h incident aim m)).2) →
    h.actuator1.toAngle (h.actuator1.toMotor θ.1) = θ.1 ∧ h.actuator2.toAngle (h.actuator2.toMotor θ.2) = θ.2
  branch : (∀ m, h.InLimits (h.motors (h.jointAngles (1 / 10 ^ 8) (wanted h incident aim m)).1)) ∨
    ∀ m, ¬ h.InLimits (h.motors (h.jointAngles (1 / 10 ^ 8) (wanted h incident aim m)).1)

/-- How far the mirror centre moves at most, per change of the wanted normal; `s` bounds the wanted normals as above. -/
def stretch (h : Heliostat) (s : ℝ) : ℝ :=
  lever h * ((1 + 1 / (|cos (h.rotation 3)| * √(1 - s ^ 2))) / √(1 - s ^ 2)) + concentrator h / (|cos (h.rotation 3)| * √(1 - s ^ 2))

/-- By which factor an iteration reduces the movement of the mirror centre. -/
def factor (h : Heliostat) (far back s : ℝ) : ℝ := stretch h s / (far * back)

/-- What the epsilon of the inverse kinematics costs. -/
def slack (s : ℝ) : ℝ := 1 / 10 ^ 8 / √(1 - s ^ 2)

end
end Artist.Converge
