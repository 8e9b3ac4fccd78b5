import Mathlib.Data.Matrix.Mul
import Mathlib.LinearAlgebra.Matrix.Determinant.Basic
import Mathlib.LinearAlgebra.CrossProduct
import Mathlib.Analysis.SpecialFunctions.Trigonometric.Basic
import Mathlib.Analysis.SpecialFunctions.Sqrt
/-!
# What a rigid motion in homogeneous coordinates is
-/
namespace Artist
open Matrix

/-- The upper left 3×3 block. -/
def linearPart (M : Matrix (Fin 4) (Fin 4) ℝ) : Matrix (Fin 3) (Fin 3) ℝ := M.submatrix Fin.castSucc Fin.castSucc

/-- A proper rigid motion in homogeneous coordinates: orthogonal linear part of determinant one, and a last row that leaves the
homogeneous component alone. -/
structure Rigid (M : Matrix (Fin 4) (Fin 4) ℝ) : Prop where
  orthogonal : (linearPart M)ᵀ * linearPart M = 1
  det : (linearPart M).det = 1
  last : M 3 = ![0, 0, 0, 1]

/-- Euclidean length of the east, north and up components. -/
noncomputable def length3 (v : Fin 4 → ℝ) : ℝ := √(v 0 ^ 2 + v 1 ^ 2 + v 2 ^ 2)

/-- Inner product of the east, north and up components. -/
def inner3 (v w : Fin 4 → ℝ) : ℝ := v 0 * w 0 + v 1 * w 1 + v 2 * w 2

/-- Rotation of `v` by the angle `a` about the unit vector `k`, counter-clockwise when `k` points at the viewer
(Rodrigues' formula). -/
noncomputable def rotateAbout (k : Fin 3 → ℝ) (a : ℝ) (v : Fin 3 → ℝ) : Fin 3 → ℝ :=
  Real.cos a • v + Real.sin a • crossProduct k v + ((1 - Real.cos a) * (k ⬝ᵥ v)) • k

end Artist
