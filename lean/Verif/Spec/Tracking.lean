import Verif.Model.Kinematics
import Verif.Spec.MotorImage
import Mathlib.Algebra.Ring.Periodic
/-! Specification vocabulary for C111: tracking a sun (or an aim point) that moves continuously. -/
namespace Artist.Tracking
open Artist Kinematics Real Matrix

/-- Both conversions of the actuator are continuous. -/
def Gentle (a : Actuator) : Prop := Continuous a.toAngle ∧ Continuous a.toMotor

/-- A joint angle is no half turn, where angles jump from π to -π; or the motor position does not change by a full turn. -/
def NoHalfTurn (a : Actuator) (angle : ℝ) : Prop := angle ≠ π ∨ Function.Periodic a.toMotor (2 * π)

/-- Neither joint angle is a half turn that matters. -/
def Clear (h : Heliostat) (angles : ℝ × ℝ) : Prop := NoHalfTurn h.actuator1 angles.1 ∧ NoHalfTurn h.actuator2 angles.2

/-- Both motor positions are between their limits, and none is at a limit. -/
def StrictlyInside (h : Heliostat) (m : ℝ × ℝ) : Prop :=
  (h.actuator1.minMotor < m.1 ∧ m.1 < h.actuator1.maxMotor) ∧ h.actuator2.minMotor < m.2 ∧ m.2 < h.actuator2.maxMotor

/-- One motor position is beyond a limit. -/
def Outside (h : Heliostat) (m : ℝ × ℝ) : Prop :=
  m.1 < h.actuator1.minMotor ∨ h.actuator1.maxMotor < m.1 ∨ m.2 < h.actuator2.minMotor ∨ h.actuator2.maxMotor < m.2

/-- The normal `n` is not along the axis of the first joint; the first of the two solutions for the joint angles is properly inside or properly outside the limits of the motors; and
the solutions that come into question contain no half turn that matters. -/
structure Steady (h : Heliostat) (n : Fin 4 → ℝ) : Prop where
  axis : (h.deviation1ᵀ *ᵥ n) 1 ≠ 0 ∨ (h.deviation1ᵀ *ᵥ n) 2 ≠ 0
  first : Clear h (h.jointAngles (1 / 10 ^ 8) n).1
  choice : StrictlyInside h (h.motors (h.jointAngles (1 / 10 ^ 8) n).1) ∨
    (Outside h (h.motors (h.jointAngles (1 / 10 ^ 8) n).1) ∧ Clear h (h.jointAngles (1 / 10 ^ 8) n).2)

/-- A group of heliostats that follows light and aim points which depend on `x`. -/
structure Following (X : Type) (k : Nat) where
  heliostat : Fin k → Heliostat
  incident : Fin k → X → Fin 4 → ℝ
  aim : Fin k → X → Fin 4 → ℝ

/-- What is to be aligned at `x`. -/
def Following.task {X : Type} {k : Nat} (f : Following X k) (x : X) : Task k := ⟨f.heliostat, fun i => f.incident i x, fun i => f.aim i x⟩

end Artist.Tracking
