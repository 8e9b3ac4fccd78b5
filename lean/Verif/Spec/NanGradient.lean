import Verif.Model.NanGradient
import Mathlib.Analysis.SpecialFunctions.Trigonometric.Inverse
/-! Specification vocabulary for C106. -/
namespace Artist.NanGradient
open Artist

/-- The angle between two vectors. -/
noncomputable def angle (a b : V3 ℝ) : ℝ := Real.arccos (a.dot b / (√(a.dot a) * √(b.dot b)))

/-- Not (nearly) the zero vector; normals have length 1. -/
def Proper (a : V3 ℝ) : Prop := 1 / 10 ^ 12 ≤ √(a.dot a)

/-- Both vectors point in the same or in opposite directions. -/
def Parallel (a b : V3 ℝ) : Prop := a.cross b = 0

/-- The samples of one heliostat. -/
def own (samples : List Sample) (heliostat : Nat) : List Sample := samples.filter (fun s => s.heliostat == heliostat)

/-- Both normals of the sample are proper vectors, and the sample counts. -/
def Sample.Valid (s : Sample) : Prop := Proper s.prediction ∧ Proper s.truth ∧ s.weight ≠ 0

end Artist.NanGradient
