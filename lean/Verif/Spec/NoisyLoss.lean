import Verif.Spec.ManyRays
import Verif.Model.Losses
import Verif.Model.FocalSpotLoss
import Mathlib.Probability.Moments.Variance
/-! Specification vocabulary for C127: what is computed from images with noise. -/
namespace Artist.ManyRays
open Artist MeasureTheory ProbabilityTheory
noncomputable section

/-- The image traced with `N` rows of distortions. -/
def Scene.picture (s : Scene) (N : Nat) (d : Nat → Fin s.points → ℝ × ℝ) : Fin s.H × Fin s.W → ℝ := fun i => s.image i.1 i.2 N d

variable {Ω : Type} [MeasurableSpace Ω]

/-- The expected image: every pixel is the mean over the distortions. -/
def Scene.expected (s : Scene) (μ : Measure Ω) (D : Nat → Ω → Fin s.points → ℝ × ℝ) : Fin s.H × Fin s.W → ℝ :=
  fun i => ∫ ω, s.image i.1 i.2 1 (fun _ => D 0 ω) ∂μ

/-- The noise of an image with one ray per surface point: the variances of all pixels. -/
def Scene.noise (s : Scene) (μ : Measure Ω) (D : Nat → Ω → Fin s.points → ℝ × ℝ) : ℝ :=
  ∑ i : Fin s.H × Fin s.W, variance (fun ω => s.image i.1 i.2 1 fun _ => D 0 ω) μ

/-- An image given by its pixels, dark outside. -/
def asImage {W H : Nat} (f : Fin H × Fin W → ℝ) : FocalSpotLoss.Image :=
  ⟨W, H, fun r c => if h : r < H ∧ c < W then f (⟨r, h.1⟩, ⟨c, h.2⟩) else 0⟩

/-- Centre of brightness in pixels, as the program computes it. -/
def spot {W H : Nat} (f : Fin H × Fin W → ℝ) : ℝ × ℝ := Bitmap.centerOfMass (1 / 10 ^ 8) W H (asImage f).pixel

end
end Artist.ManyRays
