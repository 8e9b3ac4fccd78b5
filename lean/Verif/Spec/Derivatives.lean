import Mathlib.Analysis.Calculus.Deriv.Basic
/-! Specification vocabulary for C113: repeated derivatives from the right. -/
namespace Artist.BSpline

/-- `g` is the `k`-th derivative of `f`, where every derivative is taken from the right, at every point. -/
def RightDerivative : Nat → (ℝ → ℝ) → (ℝ → ℝ) → Prop
  | 0, f, g => g = f
  | k + 1, f, g => ∃ h, RightDerivative k f h ∧ ∀ y, HasDerivWithinAt h (g y) (Set.Ici y) y

end Artist.BSpline
