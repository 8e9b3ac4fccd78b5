import Verif.Model.Splat
/-! Specification vocabulary for C08. -/
namespace Artist.Splat
variable {K : Type} [Field K] [LinearOrder K]

/-- Pixel in row `r` (from the top) and column `c`. -/
def pixel (img : List (List K)) (r c : Nat) : K := (img.getD r []).getD c 0

/-- The tent function: 1 at 0, falling linearly to 0 at distance 1. -/
def tent (z : K) : K := max 0 (1 - |z|)

/-- Inside the grid of pixel centres `[0, W - 1) × [0, H - 1)`. -/
def Inside (W H : Nat) (h : Hit K) : Prop := (0 ≤ h.e ∧ h.e < (W : K) - 1) ∧ (0 ≤ h.u ∧ h.u < (H : K) - 1)

instance (W H : Nat) (h : Hit K) : Decidable (Inside W H h) := by unfold Inside; infer_instance

end Artist.Splat
