import Mathlib.Data.Matrix.Mul
import Mathlib.LinearAlgebra.CrossProduct
import Mathlib.Analysis.SpecialFunctions.Trigonometric.Basic
import Mathlib.Analysis.SpecialFunctions.Sqrt
import Verif.Model.Py
/-!
# Model of the homogeneous transforms (`artist/geometry/transforms.py`) and of ray scattering

Angles and coordinates are real numbers.  Index 0, 1, 2, 3 is east, north, up, homogeneous (`artist/util/indices.py` 165-171).
-/
namespace Artist.Transforms
open Matrix Real

/-- 4×4 homogeneous matrices. -/
abbrev Mat := Matrix (Fin 4) (Fin 4) ℝ

/-- one matrix of `rotate_e` (`transforms.py` 113-128) -/
noncomputable def rotE (a : ℝ) : Mat :=
  !![1, 0, 0, 0; 0, cos a, -sin a, 0; 0, sin a, cos a, 0; 0, 0, 0, 1]

/-- one matrix of `rotate_n` (`transforms.py` 155-170) -/
noncomputable def rotN (a : ℝ) : Mat :=
  !![cos a, 0, -sin a, 0; 0, 1, 0, 0; sin a, 0, cos a, 0; 0, 0, 0, 1]

/-- one matrix of `rotate_u` (`transforms.py` 197-212) -/
noncomputable def rotU (a : ℝ) : Mat :=
  !![cos a, -sin a, 0, 0; sin a, cos a, 0, 0; 0, 0, 1, 0; 0, 0, 0, 1]

/-- one matrix of `rotate_distortions` (`transforms.py` 51-83) -/
noncomputable def rotDist (e u : ℝ) : Mat :=
  !![cos u, -sin u, 0, 0;
     cos e * sin u, cos e * cos u, -sin e, 0;
     sin e * sin u, sin e * cos u, cos e, 0;
     0, 0, 0, 1]

/-- one matrix of `translate_enu` (`transforms.py` 260-273) -/
def transl (e n u : ℝ) : Mat :=
  !![1, 0, 0, e; 0, 1, 0, n; 0, 0, 1, u; 0, 0, 0, 1]

/-- `translate_enu` (`transforms.py` 215-273) on one-dimensional tensors. -/
def translateEnu (e n u : List ℝ) : Except PyErr (List Mat) :=
  if e.length = u.length ∧ u.length = n.length then
    .ok ((e.zip (n.zip u)).map fun x => transl x.1 x.2.1 x.2.2)
  else .error .valueError

/-- A three-dimensional tensor: its shape and its entries.  As used in `transforms.py` 7-84. -/
structure Tensor3 (α : Type) where
  shape : Nat × Nat × Nat
  get : Nat → Nat → Nat → α

/-- `rotate_distortions` (`transforms.py` 7-83) -/
noncomputable def rotateDistortions (e u : Tensor3 ℝ) : Except PyErr (Tensor3 Mat) :=
  if e.shape ≠ u.shape then .error .valueError
  else .ok ⟨e.shape, fun i j k => rotDist (e.get i j k) (u.get i j k)⟩

/-- Rays (`artist/scene/rays.py` 18-50): a direction and a magnitude for every heliostat, ray and surface point. -/
structure Rays where
  directions : Tensor3 (Fin 4 → ℝ)
  magnitudes : Tensor3 ℝ

/-- `HeliostatRayTracer.scatter_rays` (`heliostat_ray_tracer.py` 510-561).  `dir h p` is the preferred direction at
surface point `p` of heliostat `h`; it is broadcast over the rays (dimension 1). -/
noncomputable def scatterRays (distU distE : Tensor3 ℝ) (dir : Nat → Nat → Fin 4 → ℝ) (rayMagnitude : ℝ) :
    Except PyErr Rays :=
  match rotateDistortions distE distU with
  | .error e => .error e
  | .ok rot => .ok
      { directions := ⟨rot.shape, fun h r p => rot.get h r p *ᵥ dir h p⟩
        magnitudes := ⟨rot.shape, fun _ _ _ => rayMagnitude⟩ }

/-- Euclidean norm of a three-component vector.  As used in `transforms.py` 326-332. -/
noncomputable def norm3 (v : Fin 3 → ℝ) : ℝ := √(v ⬝ᵥ v)

/-- `torch.nn.functional.normalize` with the given `eps`.  As used in `transforms.py` 326-332. -/
noncomputable def normalizeEps (eps : ℝ) (v : Fin 3 → ℝ) : Fin 3 → ℝ := (max (norm3 v) eps)⁻¹ • v

/-- The rotation matrix of `perform_canting` for one facet (`transforms.py` 309-341), from the east and north canting vector. -/
noncomputable def cantingMatrix (ce cn : Fin 4 → ℝ) : Mat :=
  let e := normalizeEps (1 / 10 ^ 12) ![ce 0, ce 1, ce 2]
  let u := normalizeEps (1 / 10 ^ 8) (crossProduct e ![cn 0, cn 1, cn 2])
  let n := normalizeEps (1 / 10 ^ 8) (crossProduct u e)
  !![e 0, n 0, u 0, 0; e 1, n 1, u 1, 0; e 2, n 2, u 2, 0; 0, 0, 0, 1]

/-- `perform_canting` (`transforms.py` 276-347) applied to one data row. -/
noncomputable def performCanting (ce cn data : Fin 4 → ℝ) (inverse : Bool := false) : Fin 4 → ℝ :=
  if inverse then data ᵥ* cantingMatrix ce cn
  else data ᵥ* (cantingMatrix ce cn)ᵀ

end Artist.Transforms
