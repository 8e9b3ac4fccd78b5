import Verif.Model.RoundedRay
import Verif.Model.Kinematics
/-!
# Model of the rounding of float32 arithmetic in the kinematics

`artist/field/kinematics_rigid_body.py` 181-190, 224-324, 510-538 and `artist/field/heliostat_group_rigid_body.py` 217-222, 265-270 with every operation followed by a rounding `rnd`
(see `Rounded`).  The joint angles are those that the actuators return; their own rounding is modelled in `RoundedActuator`.  Overflow is not modelled either.
-/
namespace Artist.RoundedKinematics
open Artist Transforms Kinematics RoundedRay Matrix
noncomputable section
variable (rnd : ℝ → ℝ)

/-- One way to compute each entry of a product of matrices.  As used in `kinematics_rigid_body.py` 230, 247-321 and 538 (`@`). -/
abbrev Plans := Fin 4 → Fin 4 → Plan

/-- `A @ B` (`kinematics_rigid_body.py` 230, 247-321, 538) -/
def product (P : Plans) (A B : Mat) : Mat := of fun i j => (P i j).eval rnd (A i) fun k => B k j

variable (fcos fsin : ℝ → ℝ)

/-- one matrix of `rotate_e` (`transforms.py` 113-128) with the cosine and sine of PyTorch -/
def turnE (a : ℝ) : Mat := !![1, 0, 0, 0; 0, fcos a, -fsin a, 0; 0, fsin a, fcos a, 0; 0, 0, 0, 1]

/-- one matrix of `rotate_n` (`transforms.py` 155-170) with the cosine and sine of PyTorch -/
def turnN (a : ℝ) : Mat := !![fcos a, 0, -fsin a, 0; 0, 1, 0, 0; fsin a, 0, fcos a, 0; 0, 0, 0, 1]

/-- one matrix of `rotate_u` (`transforms.py` 197-212) with the cosine and sine of PyTorch -/
def turnU (a : ℝ) : Mat := !![fcos a, -fsin a, 0, 0; fsin a, fcos a, 0, 0; 0, 0, 1, 0; 0, 0, 0, 1]

/-- One row of `joint_rotations` for the first joint (`kinematics_rigid_body.py` 247-275) -/
def firstJoint (P : Nat → Plans) (h : Heliostat) (θ₁ : ℝ) : Mat :=
  product rnd (P 3) (product rnd (P 2) (product rnd (P 1) (turnN fcos fsin (h.rotation 0)) (turnU fcos fsin (h.rotation 1)))
    (transl (h.translation 0) (h.translation 1) (h.translation 2))) (turnE fcos fsin θ₁)

/-- One row of `joint_rotations` for the second joint (`kinematics_rigid_body.py` 276-304) -/
def secondJoint (P : Nat → Plans) (h : Heliostat) (θ₂ : ℝ) : Mat :=
  product rnd (P 6) (product rnd (P 5) (product rnd (P 4) (turnE fcos fsin (h.rotation 2)) (turnN fcos fsin (h.rotation 3)))
    (transl (h.translation 3) (h.translation 4) (h.translation 5))) (turnU fcos fsin θ₂)

/-- The forward kinematics after the joint angles are known (`kinematics_rigid_body.py` 224-324) -/
def anglesToOrientation (P : Nat → Plans) (h : Heliostat) (θ₁ θ₂ : ℝ) : Mat :=
  product rnd (P 9) (product rnd (P 8) (product rnd (P 7) (product rnd (P 0) 1 (transl (h.position 0) (h.position 1) (h.position 2)))
    (firstJoint rnd fcos fsin P h θ₁)) (secondJoint rnd fcos fsin P h θ₂)) (transl (h.translation 6) (h.translation 7) (h.translation 8))

/-- `initial_orientation_offsets` (`kinematics_rigid_body.py` 186-190) for the three angles that `decompose_rotations` returned -/
def offset (P : Nat → Plans) (f : Fin 3 → ℝ) : Mat :=
  product rnd (P 11) (product rnd (P 10) (turnE fcos fsin (f 0)) (turnN fcos fsin (f 1))) (turnU fcos fsin (f 2))

/-- The orientation that `motor_positions_to_orientations` returns (`kinematics_rigid_body.py` 534-538) for given joint angles -/
def orientation (P : Nat → Plans) (f : Fin 3 → ℝ) (h : Heliostat) (θ₁ θ₂ : ℝ) : Mat :=
  product rnd (P 12) (anglesToOrientation rnd fcos fsin P h θ₁ θ₂) (offset rnd fcos fsin P f)

/-- One surface point or normal, `v @ orientation.T` (`heliostat_group_rigid_body.py` 217-222, 265-270) -/
def place (Q : Fin 4 → Plan) (M : Mat) (v : Fin 4 → ℝ) : Fin 4 → ℝ := fun i => (Q i).eval rnd v (M i)

end
end Artist.RoundedKinematics
