import Verif.Model.Transforms
import Verif.Model.Actuators
import Verif.Model.Intersect
/-!
# Model of the rigid body kinematics (`artist/field/kinematics_rigid_body.py`, `artist/geometry/rotations.py`)
-/
namespace Artist.Kinematics
open Matrix Real Transforms Intersect

/-- `decompose_rotations` (`artist/geometry/rotations.py` 7-64) for one initial vector: the rotation vector. -/
noncomputable def decomposeRotations (initial target : Fin 3 → ℝ) : Fin 3 → ℝ :=
  let i := normalizeEps (1 / 10 ^ 12) initial
  let t := normalizeEps (1 / 10 ^ 12) target
  let r := normalizeEps (1 / 10 ^ 12) (crossProduct i t)
  arccos (Actuators.clamp (i ⬝ᵥ t) (-1) 1) • r

/-- One actuator seen from the kinematics (`artist/field/actuators.py`): both conversions and the motor limits.  Lines 37-123. -/
structure Actuator where
  toAngle : ℝ → ℝ
  toMotor : ℝ → ℝ
  minMotor : ℝ
  maxMotor : ℝ

/-- Linear actuator (`actuators_linear.py`).  Lines 180-370. -/
noncomputable def _root_.Artist.Actuators.Linear.actuator (a : Actuators.Linear) : Actuator :=
  ⟨a.toAngle, a.toMotor, a.minMotor, a.maxMotor⟩
/-- Ideal actuator (`actuators_ideal.py`).  Lines 66-109. -/
def _root_.Artist.Actuators.Ideal.actuator (a : Actuators.Ideal) : Actuator :=
  ⟨a.toAngle, a.toMotor, a.minMotor, a.maxMotor⟩

/-- One active heliostat of `RigidBody` (`kinematics_rigid_body.py` 76-192): position, the nine translation and the four rotation
deviations (`artist/util/indices.py` 21-45), and the two actuators. -/
structure Heliostat where
  position : Fin 4 → ℝ
  translation : Fin 9 → ℝ
  rotation : Fin 4 → ℝ
  actuator1 : Actuator
  actuator2 : Actuator

/-- `self.kinematics_standard_orientation` (`kinematics_rigid_body.py` 178-180) -/
def south : Fin 4 → ℝ := ![0, -1, 0, 0]
/-- `sampled_surface_orientation` (`kinematics_rigid_body.py` 181) -/
def up : Fin 4 → ℝ := ![0, 0, 1, 0]
/-- `self.homogeneous_origin` (`kinematics_rigid_body.py` 192) -/
def origin : Fin 4 → ℝ := ![0, 0, 0, 1]

/-- `self.initial_orientation_offsets` (`kinematics_rigid_body.py` 181-190) -/
noncomputable def orientationOffset : Mat :=
  let c := decomposeRotations ![up 0, up 1, up 2] ![south 0, south 1, south 2]
  rotE (c 0) * rotN (c 1) * rotU (c 2)

namespace Heliostat
variable (h : Heliostat)

/-- The forward kinematics after the joint angles are known (`kinematics_rigid_body.py` 224-324). -/
noncomputable def anglesToOrientation (θ₁ θ₂ : ℝ) : Mat :=
  let initial := 1 * transl (h.position 0) (h.position 1) (h.position 2)
  let joint1 := rotN (h.rotation 0) * rotU (h.rotation 1) *
    transl (h.translation 0) (h.translation 1) (h.translation 2) * rotE θ₁
  let joint2 := rotE (h.rotation 2) * rotN (h.rotation 3) *
    transl (h.translation 3) (h.translation 4) (h.translation 5) * rotU θ₂
  initial * joint1 * joint2 * transl (h.translation 6) (h.translation 7) (h.translation 8)

/-- `_compute_orientations_from_motor_positions` (`kinematics_rigid_body.py` 194-324) -/
noncomputable def forward (m : ℝ × ℝ) : Mat :=
  h.anglesToOrientation (h.actuator1.toAngle m.1) (h.actuator2.toAngle m.2)

/-- `motor_positions_to_orientations` (`kinematics_rigid_body.py` 510-538) -/
noncomputable def motorToOrientation (m : ℝ × ℝ) : Mat := h.forward m * orientationOffset

/-- `torch.atan2(torch.sin(x), torch.cos(x))`: wrapping of an angle (`kinematics_rigid_body.py` 428-434, 461-467) -/
noncomputable def wrap (x : ℝ) : ℝ := atan2 (sin x) (cos x)

/-- `first_rotation_axis_deviations` (`kinematics_rigid_body.py` 373-379) -/
noncomputable def deviation1 : Mat := rotN (h.rotation 0) * rotU (h.rotation 1)
/-- `second_rotation_axis_deviations` (`kinematics_rigid_body.py` 381-387) -/
noncomputable def deviation2 : Mat := rotE (h.rotation 2) * rotN (h.rotation 3)

/-- First joint angle for a known second one (`kinematics_rigid_body.py` 438-467); `n'` is the normal after the first deviation. -/
noncomputable def firstAngle (n' : Fin 4 → ℝ) (θ₂ : ℝ) : ℝ :=
  let v := (h.deviation2 * rotU θ₂) *ᵥ south
  wrap (atan2 (v 1 * n' 2 - v 2 * n' 1) (v 1 * n' 1 + v 2 * n' 2))

/-- Both solutions for the joint angles (`kinematics_rigid_body.py` 373-467). -/
noncomputable def jointAngles (epsilon : ℝ) (normal : Fin 4 → ℝ) : (ℝ × ℝ) × (ℝ × ℝ) :=
  let n' := h.deviation1ᵀ *ᵥ normal
  let d00 := h.deviation2 0 0
  let d01 := h.deviation2 0 1
  let denominator := √(d00 ^ 2 + d01 ^ 2)
  let phi := atan2 (-d01) d00
  let ratio := Actuators.clamp (n' 0 / (denominator + epsilon)) (-1 + epsilon) (1 - epsilon)
  let θ₂₁ := wrap (arcsin ratio - phi)
  let θ₂₂ := wrap (π - arcsin ratio - phi)
  ((h.firstAngle n' θ₂₁, θ₂₁), (h.firstAngle n' θ₂₂, θ₂₂))

/-- conversion of both angles (`kinematics_rigid_body.py` 469-477) -/
def motors (θ : ℝ × ℝ) : ℝ × ℝ := (h.actuator1.toMotor θ.1, h.actuator2.toMotor θ.2)

/-- both motor positions inside their limits (`kinematics_rigid_body.py` 479-490) -/
def InLimits (m : ℝ × ℝ) : Prop :=
  (h.actuator1.minMotor ≤ m.1 ∧ m.1 ≤ h.actuator1.maxMotor) ∧ (h.actuator2.minMotor ≤ m.2 ∧ m.2 ≤ h.actuator2.maxMotor)

open Classical in
/-- `_compute_motor_positions_from_normal` (`kinematics_rigid_body.py` 326-508): the motor positions and whether the warning that no
valid combination exists is logged. -/
noncomputable def inverse (epsilon : ℝ) (normal : Fin 4 → ℝ) : (ℝ × ℝ) × Bool :=
  let s := h.jointAngles epsilon normal
  let m1 := h.motors s.1
  let m2 := h.motors s.2
  (if h.InLimits m1 then m1 else m2, decide (¬ (h.InLimits m1 ∨ h.InLimits m2)))

/-- the desired normal for an orientation (`kinematics_rigid_body.py` 592-615): the bisector of the direction to the sun and the
direction from the concentrator origin to the aim point. -/
noncomputable def desiredNormal (incident aim : Fin 4 → ℝ) (orientation : Mat) : Fin 4 → ℝ :=
  let o := orientation *ᵥ origin
  let r := normalizeEps (1 / 10 ^ 8) ![aim 0 - o 0, aim 1 - o 1, aim 2 - o 2]
  let d := normalizeEps (1 / 10 ^ 8) ![-incident 0 + r 0, -incident 1 + r 1, -incident 2 + r 2]
  ![d 0, d 1, d 2, 0]

/-- the loss of one heliostat (`kinematics_rigid_body.py` 616-618) -/
noncomputable def loss (desired : Fin 4 → ℝ) (orientation : Mat) : ℝ :=
  let n := orientation *ᵥ south
  (|desired 0 - n 0| + |desired 1 - n 1| + |desired 2 - n 2| + |desired 3 - n 3|) / 4
end Heliostat

/-- A batch of active heliostats together with their incident ray directions and aim points.  Source: `kinematics_rigid_body.py` 540-575. -/
structure Task (k : Nat) where
  heliostat : Fin k → Heliostat
  incident : Fin k → Fin 4 → ℝ
  aim : Fin k → Fin 4 → ℝ

namespace Task
variable {k : Nat} (t : Task k)

/-- orientations of the batch for motor positions.  Source: `kinematics_rigid_body.py` 587-590. -/
noncomputable def orientations (m : Fin k → ℝ × ℝ) (i : Fin k) : Mat := (t.heliostat i).forward (m i)
/-- desired normals of the batch for motor positions.  Source: `kinematics_rigid_body.py` 593-615. -/
noncomputable def desired (m : Fin k → ℝ × ℝ) (i : Fin k) : Fin 4 → ℝ :=
  Heliostat.desiredNormal (t.incident i) (t.aim i) (t.orientations m i)
/-- losses of the batch for motor positions.  Source: `kinematics_rigid_body.py` 616-618. -/
noncomputable def losses (m : Fin k → ℝ × ℝ) (i : Fin k) : ℝ := Heliostat.loss (t.desired m i) (t.orientations m i)
/-- motor positions of the next iteration (`kinematics_rigid_body.py` 628-630; epsilon is the default 1e-8) -/
noncomputable def next (m : Fin k → ℝ × ℝ) (i : Fin k) : ℝ × ℝ := ((t.heliostat i).inverse (1 / 10 ^ 8) (t.desired m i)).1

open Classical in
/-- The loop of `incident_ray_directions_to_orientations` (`kinematics_rigid_body.py` 576-630) with `n + 1` iterations left. The
result is the last `orientations` and `motor_positions`. -/
noncomputable def loop (minEps : ℝ) : Nat → Option (Fin k → ℝ) → (Fin k → ℝ × ℝ) → (Fin k → Mat) × (Fin k → ℝ × ℝ)
  | n, last, m =>
    if (∃ l, last = some l ∧ ∀ i, |l i - t.losses m i| ≤ minEps) then (t.orientations m, m)
    else match n with
      | 0 => (t.orientations m, t.next m)
      | n + 1 => loop minEps n (some (t.losses m)) (t.next m)

/-- `incident_ray_directions_to_orientations` (`kinematics_rigid_body.py` 540-634): returned orientations and stored motor positions
(`active_motor_positions`). Without iterations `orientations` is unbound (`UnboundLocalError`). -/
noncomputable def align (maxIterations : Nat) (minEps : ℝ) : Except PyErr ((Fin k → Mat) × (Fin k → ℝ × ℝ)) :=
  match maxIterations with
  | 0 => .error .unboundLocal
  | n + 1 =>
    let r := t.loop minEps n none (fun _ => (0, 0))
    .ok (fun i => r.1 i * orientationOffset, r.2)
end Task

end Artist.Kinematics
