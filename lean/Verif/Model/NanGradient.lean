import Verif.Model.Vec3
import Mathlib.Analysis.Real.Sqrt
/-!
# Model of the gradients of the alignment-driven kinematics reconstruction

`artist/optim/loss.py` 457-459 (`AngleLoss`) and `artist/optim/kinematics_reconstructor.py` 506-533, 820-828, with infinities and NaN.

Finite numbers are real numbers (no rounding, no overflow); infinities and NaN arise as IEEE arithmetic prescribes.
-/
namespace Artist.NanGradient
open Artist

/-- A floating point number: finite, infinite (with its sign) or NaN.  The values of `grad` at `kinematics_reconstructor.py` 824. -/
inductive Num where
  | fin (x : ℝ)
  | inf (positive : Bool)
  | nan

namespace Num

/-- IEEE addition.  As used to accumulate gradients in `loss.backward()`, `kinematics_reconstructor.py` 820. -/
def add : Num → Num → Num
  | fin x, fin y => fin (x + y)
  | nan, _ => nan
  | _, nan => nan
  | inf a, fin _ => inf a
  | fin _, inf b => inf b
  | inf a, inf b => if a = b then inf a else nan

open Classical in
/-- IEEE multiplication with a finite factor.  As used in `loss.backward()`, `kinematics_reconstructor.py` 820. -/
noncomputable def scale : Num → ℝ → Num
  | fin x, c => fin (x * c)
  | nan, _ => nan
  | inf a, c => if c = 0 then nan else inf (if 0 < c then a else !a)

/-- `nan_to_num_(nan=0.0, posinf=0.0, neginf=0.0)` (`kinematics_reconstructor.py` 824-826). -/
def clean : Num → ℝ
  | fin x => x
  | inf _ => 0
  | nan => 0

end Num

/-- Euclidean norm.  `torch.norm` in `torch.nn.functional.normalize`, `loss.py` 457. -/
noncomputable def norm (x : V3 ℝ) : ℝ := √(x.dot x)

/-- The denominator in `torch.nn.functional.normalize` (`loss.py` 457-458): `norm.clamp_min(1e-12)`. -/
noncomputable def denominator (x : V3 ℝ) : ℝ := max (norm x) (1 / 10 ^ 12)

/-- `torch.nn.functional.normalize` (`loss.py` 457-458). -/
noncomputable def normalized (x : V3 ℝ) : V3 ℝ := (1 / denominator x) • x

/-- The cosine before `clamp` (`loss.py` 459). -/
noncomputable def cosine (prediction truth : V3 ℝ) : ℝ := (normalized prediction).dot (normalized truth)

open Classical in
/-- Backward of `acos` (`loss.py` 459): the gradient times `-1 / sqrt(1 - c ** 2)`, where `1 / sqrt(0)` is infinite. -/
noncomputable def acosBackward (c g : ℝ) : Num := if 1 - c * c = 0 then (Num.inf false).scale g else .fin (g * -(1 / √(1 - c * c)))

open Classical in
/-- Backward of `clamp(-1, 1)` (`loss.py` 459): the gradient inside and on the bounds, zero outside. -/
noncomputable def clampBackward (c : ℝ) (g : Num) : Num := if -1 ≤ c ∧ c ≤ 1 then g else .fin 0

open Classical in
/-- Backward of `normalize` (`loss.py` 457): of the quotient, of `clamp_min` (which passes the gradient on and above the bound) and of the norm (zero for the zero vector). -/
noncomputable def normalizeBackward (x : V3 ℝ) (g : V3 Num) : V3 Num :=
  let d := denominator x
  let gd := ((g.e.scale (-(x.e / d / d))).add (g.n.scale (-(x.n / d / d)))).add (g.u.scale (-(x.u / d / d)))
  let gn : Num := if 1 / 10 ^ 12 ≤ norm x then gd else .fin 0
  let through (a : ℝ) : Num := if norm x = 0 then .fin 0 else (gn.scale (1 / norm x)).scale a
  ⟨(g.e.scale (1 / d)).add (through x.e), (g.n.scale (1 / d)).add (through x.n), (g.u.scale (1 / d)).add (through x.u)⟩

/-- Backward of `AngleLoss` for one sample whose loss enters the total loss with the weight `weight` (`loss.py` 457-459): the gradient for the three components of the
predicted normal.  The measured normal belongs to no graph. -/
noncomputable def angleBackward (weight : ℝ) (prediction truth : V3 ℝ) : V3 Num :=
  let c := cosine prediction truth
  let t := normalized truth
  let g := clampBackward c (acosBackward (min (max c (-1)) 1) weight)
  normalizeBackward prediction ⟨g.scale t.e, g.scale t.n, g.scale t.u⟩

/-- One training sample: the number of its heliostat, the weight of its loss in the total loss, predicted and measured normal, and the derivatives of the predicted
normal with respect to each rotation deviation parameter of its heliostat.  Source: `kinematics_reconstructor.py` 506-533. -/
structure Sample where
  heliostat : Nat
  weight : ℝ
  prediction : V3 ℝ
  truth : V3 ℝ
  jacobian : Nat → V3 ℝ

/-- What one sample contributes to the gradient of parameter `k` of its heliostat (`kinematics_reconstructor.py` 511-523 backwards).  Simplified: the chain of matrix products
from the parameters to the normal is one matrix of derivatives, taken as finite. -/
noncomputable def Sample.gradient (s : Sample) (k : Nat) : Num :=
  let g := angleBackward s.weight s.prediction s.truth
  ((g.e.scale (s.jacobian k).e).add (g.n.scale (s.jacobian k).n)).add (g.u.scale (s.jacobian k).u)

/-- `rotation_deviation_parameters.grad[heliostat, k]` after `loss.backward()` (`kinematics_reconstructor.py` 820): the backward of `repeat_interleave`
(`heliostat_group.py` 291-295) adds up what the samples of the heliostat contribute. -/
noncomputable def rawGradient (samples : List Sample) (heliostat k : Nat) : Num :=
  (samples.filter (fun s => s.heliostat == heliostat)).foldl (fun acc s => acc.add (s.gradient k)) (.fin 0)

/-- The gradient with which `optimizer.step()` works (`kinematics_reconstructor.py` 824-828). -/
noncomputable def usedGradient (samples : List Sample) (heliostat k : Nat) : ℝ := (rawGradient samples heliostat k).clean

end Artist.NanGradient
