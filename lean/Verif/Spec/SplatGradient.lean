import Verif.Spec.Splat
import Verif.Model.SplatGradient
import Mathlib.Algebra.BigOperators.Group.Finset.Basic
/-! Specification vocabulary for C105. -/
namespace Artist.Splat
open Finset
variable {K : Type} [Field K] [LinearOrder K] [IsStrictOrderedRing K] [FloorRing K]

/-- The bitmap of the rays, weighted with `g row column` and summed up: a loss whose gradient for the pixel in row `r` and column `c` is `g r c`. -/
def score (W H : Nat) (g : Nat → Nat → K) (rays : List (Hit K)) : K :=
  match splat W H rays with
  | .ok img => ∑ r ∈ range H, ∑ c ∈ range W, g r c * pixel img r c
  | .error _ => 0

/-- The coordinate lies on no pixel line. -/
def OffLine (x : K) : Prop := ∀ n : Int, x ≠ n

/-- Both hits of a ray, before and after it moves, are inside the grid, with the same intensity. -/
def MovesInside (W H : Nat) (m : Hit K × Hit K) : Prop := Inside W H m.1 ∧ Inside W H m.2 ∧ m.1.w = m.2.w

end Artist.Splat
