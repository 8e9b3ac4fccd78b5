import Verif.Model.FocalSpotLoss
import Mathlib.Analysis.Calculus.Deriv.Basic
/-! Specification vocabulary for C114: losses on the way from a prediction to a perfect one. -/
namespace Artist.Downhill
open Artist

/-- The straight way from `p` (at 0) to `q` (at 1). -/
def way {ι : Type} (p q : ι → ℝ) (t : ℝ) : ι → ℝ := fun i => (1 - t) * p i + t * q i

/-- The same for images: the brightness of every pixel changes evenly. -/
def blend (a b : FocalSpotLoss.Image) (t : ℝ) : FocalSpotLoss.Image := ⟨a.width, a.height, fun r c => (1 - t) * a.pixel r c + t * b.pixel r c⟩

/-- The loss falls all the way, ends at zero, and starts with a slope that is not zero. -/
structure Falls (loss : ℝ → ℝ) : Prop where
  decreasing : StrictAntiOn loss (Set.Icc 0 1)
  ends : loss 1 = 0
  slope : ∃ d < 0, HasDerivWithinAt loss d (Set.Ici 0) 0

end Artist.Downhill
