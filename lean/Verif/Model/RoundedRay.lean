import Verif.Model.RoundedLanding
import Mathlib.LinearAlgebra.Matrix.Notation
/-!
# Model of the rounding of float32 arithmetic where rays are reflected and scattered

`artist/raytracing/geometry.py` 11-41, `artist/geometry/transforms.py` 51-83 and `artist/raytracing/heliostat_ray_tracer.py` 541-553 with every operation followed by a rounding `rnd` (see `Rounded`).
Overflow is not modelled, and neither are reduced precision modes of matrix products (TF32), which PyTorch switches off by default.
-/
namespace Artist.RoundedRay
open Artist
noncomputable section
variable (rnd : ℝ → ℝ)

/-- A way to compute a sum of products: PyTorch specifies neither the order of the additions nor whether a product and an addition are fused, i.e. rounded once.  As used in `geometry.py` 35-39
(`torch.sum`) and `heliostat_ray_tracer.py` 547-553 (`@`). -/
inductive Plan
  | product (i : Fin 4)
  | add (l r : Plan)
  | fused (i : Fin 4) (r : Plan)

/-- The value that is computed for the sum of `a i * b i` (`geometry.py` 35-39, `heliostat_ray_tracer.py` 547-553). -/
def Plan.eval (a b : Fin 4 → ℝ) : Plan → ℝ
  | .product i => rnd (a i * b i)
  | .add l r => rnd (l.eval a b + r.eval a b)
  | .fused i r => rnd (a i * b i + r.eval a b)

/-- `reflect` (`geometry.py` 32-41): `d - 2 * sum * n`, from left to right. -/
def reflect (P : Plan) (d n : Fin 4 → ℝ) : Fin 4 → ℝ := fun i => rnd (d i - rnd (rnd (2 * P.eval rnd d n) * n i))

/-- One matrix of `rotate_distortions` (`transforms.py` 51-83) with the cosine and sine of PyTorch (`fcos`, `fsin`). -/
def matrix (fcos fsin : ℝ → ℝ) (e u : ℝ) : Fin 4 → Fin 4 → ℝ :=
  ![![fcos u, -fsin u, 0, 0],
    ![rnd (fcos e * fsin u), rnd (fcos e * fcos u), -fsin e, 0],
    ![rnd (fsin e * fsin u), rnd (fsin e * fcos u), fcos e, 0],
    ![0, 0, 0, 1]]

/-- Direction of one ray: reflected (`heliostat_ray_tracer.py` 285-290) and scattered (lines 541-553); the components may be added up in different orders. -/
def direction (P : Plan) (Q : Fin 3 → Plan) (fcos fsin : ℝ → ℝ) (incident normal : Fin 4 → ℝ) (e u : ℝ) : V3 ℝ :=
  let v := reflect rnd P incident normal
  let m := matrix rnd fcos fsin e u
  ⟨(Q 0).eval rnd (m 0) v, (Q 1).eval rnd (m 1) v, (Q 2).eval rnd (m 2) v⟩

end
end Artist.RoundedRay
