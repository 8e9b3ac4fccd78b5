import Mathlib.Analysis.SpecialFunctions.Log.Basic
import Mathlib.Analysis.SpecialFunctions.Trigonometric.Inverse
import Mathlib.Analysis.SpecialFunctions.Sqrt
import Mathlib.Algebra.BigOperators.Fin
/-!
# Model of the loss functions (`artist/optim/loss.py`)

One sample is modelled; the losses treat samples independently (reductions run over all other dimensions).  Images and
vectors are functions on a finite index type.  Arithmetic is exact.  The checks of keyword arguments are not modelled.
-/
namespace Artist.Losses
open Finset

section
variable {K : Type} [Field K] {ι : Type} [Fintype ι]

/-- `VectorLoss.__call__` (lines 119-121): `MSELoss(reduction="none")` summed over the reduction dimensions. -/
def vector (p g : ι → K) : K := ∑ i, (p i - g i) ^ 2

/-- `PixelLoss.__call__` (lines 317-319): squared errors divided by the total ground truth intensity.  A ground truth sum of 0 gives
infinity or `NaN` in the code; statements exclude it. -/
def pixel (p g : ι → K) : K := (∑ i, (p i - g i) ^ 2) / ∑ i, g i
end

section
variable {ι : Type} [Fintype ι]

/-- `torch.nn.functional.normalize(x, p=1, eps=eps)` (`loss.py` 392-403): division by the L1 norm, at least `eps`. -/
noncomputable def normalizeL1 (eps : ℝ) (x : ι → ℝ) : ι → ℝ := fun i => x i / max (∑ j, |x j|) eps

/-- `KLDivLoss(reduction="none", log_target=True)` (`loss.py` 405-408): `exp(target) * (target - input)`. -/
noncomputable def klPoint (input target : ℝ) : ℝ := Real.exp target * (target - input)

/-- `KLDivergenceLoss.__call__` (lines 391-410); `eps` is `1e-12` in the code. -/
noncomputable def kl (eps : ℝ) (p g : ι → ℝ) : ℝ :=
  ∑ i, klPoint (Real.log (normalizeL1 eps p i + eps)) (Real.log (normalizeL1 eps g i + eps))

/-- Euclidean norm, as used by `normalize` (`loss.py` 457-458) and `CosineSimilarity` (506). -/
noncomputable def norm2 (x : ι → ℝ) : ℝ := Real.sqrt (∑ i, x i ^ 2)

/-- `torch.nn.functional.normalize(x)` (`loss.py` 457-458) with the defaults `p=2` and `eps = 1e-12`. -/
noncomputable def normalizeL2 (eps : ℝ) (x : ι → ℝ) : ι → ℝ := fun i => x i / max (norm2 x) eps

/-- `AngleLoss.__call__` (lines 457-459); the index type stands for the first three components. -/
noncomputable def angle (eps : ℝ) (p g : ι → ℝ) : ℝ :=
  Real.arccos (min (max (∑ i, normalizeL2 eps p i * normalizeL2 eps g i) (-1)) 1)

/-- `CosineSimilarityLoss.__call__` (line 506): `CosineSimilarity(dim=-1)` divides by the norms, each at least `eps = 1e-8`. -/
noncomputable def cosine (eps : ℝ) (p g : ι → ℝ) : ℝ := 1 - (∑ i, p i * g i) / (max (norm2 p) eps * max (norm2 g) eps)
end

end Artist.Losses
