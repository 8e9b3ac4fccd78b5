import Mathlib.Analysis.SpecialFunctions.Trigonometric.Basic
/-! Specification vocabulary for C116: angles that mean the same direction. -/
namespace Artist.Identify

/-- Two angles that differ by full turns. -/
def SameAngle (x y : ℝ) : Prop := ∃ k : ℤ, x - y = 2 * Real.pi * k

end Artist.Identify
