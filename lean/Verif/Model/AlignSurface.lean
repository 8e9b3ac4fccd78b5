import Verif.Model.Kinematics
import Verif.Model.Py
/-!
# Model of the alignment of surfaces (`artist/field/heliostat_group_rigid_body.py` 169-270)

A group of rigid body heliostats with their surface points and normals.  Only what the alignment reads and writes: the full surfaces, the active surfaces and the mask of the last
activation (`artist/field/heliostat_group.py` 249-272, modelled in full in `Verif.Model.Group`; here masks are natural numbers and of the right length or rejected).
-/
namespace Artist.AlignSurface
open Artist Artist.Kinematics Matrix Transforms

/-- One heliostat: kinematics, surface points and surface normals.  Source: `heliostat_group.py` 78-159. -/
structure Mirror where
  kinematics : Heliostat
  points : List (Fin 4 → ℝ)
  normals : List (Fin 4 → ℝ)

/-- A group: all heliostats, the active rows, the mask of the last activation.  Source: `heliostat_group.py` 78-159 and 225-272. -/
structure State where
  all : List Mirror
  active : List Mirror
  mask : List Nat

/-- `activate_heliostats` (`heliostat_group.py` 249-305). -/
def activate (s : State) (mask : List Nat) : Except PyErr State :=
  if mask.length = s.all.length then .ok { s with active := repeatInterleave s.all mask, mask := mask }
  else .error .runtimeError

/-- `surface @ orientations.transpose(1, 2)` for one active row (lines 217-222 and 265-270). -/
def rotate (orientation : Mat) (x : Mirror) : Mirror :=
  { x with points := x.points.map (fun p => p ᵥ* orientationᵀ), normals := x.normals.map (fun v => v ᵥ* orientationᵀ) }

/-- `align_surfaces_with_motor_positions` (lines 224-270).  The documented `ValueError` is an `assert`.  A number of motor positions other than that of the active rows is
rejected when shapes are combined (simplified: also a single one, which is broadcast in places). -/
noncomputable def alignMotors (s : State) (motors : List (ℝ × ℝ)) (mask : List Nat) : Except PyErr State :=
  if s.mask = mask then
    if motors.length = s.active.length then
      .ok { s with active := List.zipWith (fun x m => rotate (x.kinematics.motorToOrientation m) x) s.active motors }
    else .error .runtimeError
  else .error .assertionError

/-- The task given to the kinematics: the active heliostats, one incident direction and one aim point each.  Source: `heliostat_group_rigid_body.py` 169-222. -/
def task (active : List Mirror) (incident aim : Fin active.length → Fin 4 → ℝ) : Task active.length :=
  ⟨fun i => (active.get i).kinematics, incident, aim⟩

/-- `align_surfaces_with_incident_ray_directions` (lines 169-222), with the orientations of `Task.align`. -/
noncomputable def alignIncident (s : State) (incident aim : Fin s.active.length → Fin 4 → ℝ) (mask : List Nat) (iterations : Nat) (minEps : ℝ) : Except PyErr State :=
  if s.mask = mask then
    match (task s.active incident aim).align iterations minEps with
    | .error e => .error e
    | .ok (o, _) => .ok { s with active := List.ofFn fun i => rotate (o i) (s.active.get i) }
  else .error .assertionError

end Artist.AlignSurface
