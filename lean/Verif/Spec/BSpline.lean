import Mathlib.Algebra.Order.Field.Basic
import Mathlib.Algebra.BigOperators.Group.Finset.Basic
/-!
# Specification: B-spline basis functions (Cox-de Boor recursion) and tensor product surfaces

Independent of the code: the textbook definition (The NURBS Book, eq. 2.5 and 3.11), a quotient with zero denominator
counting as zero.
-/
namespace Artist.BSpline
variable {K : Type} [Field K] [LinearOrder K]

/-- the `i`-th basis function of degree `p` over the knots `U` -/
def N (U : Nat → K) : Nat → Nat → K → K
  | 0, i, x => if U i ≤ x ∧ x < U (i + 1) then 1 else 0
  | p + 1, i, x =>
      (x - U i) / (U (i + p + 1) - U i) * N U p i x +
      (U (i + p + 2) - x) / (U (i + p + 2) - U (i + 1)) * N U p (i + 1) x

/-- clamped uniform knots on `[0, 1]` for `n` control points and degree `p`: `p + 1` zeros, equal steps, `p + 1` ones -/
def clampedUniform (n p i : Nat) : K := max 0 (min 1 (((i : K) - p) / ((n : K) - p)))

/-- the B-spline surface of degrees `p`, `q` with `n × m` control values `P` over the knots `U`, `V` -/
def surface (U V : Nat → K) (p q n m : Nat) (P : Nat → Nat → K) (x y : K) : K :=
  ∑ i ∈ Finset.range n, ∑ j ∈ Finset.range m, N U p i x * N V q j y * P i j

end Artist.BSpline
