import Verif.Proofs.Derivatives
import Verif.Props.Nurbs
/-!
# C113: derivatives of the basis functions of every order

`basisDerivatives` models the code; `BSpline.N` is the textbook definition of the basis functions and `RightDerivative` the usual notion of repeated derivatives, taken from the right
because the spans are half-open.
-/
namespace Artist.Nurbs
open Artist.BSpline

/-- Whatever number `nth` of derivatives is asked for, also more than the degree: all values computed are the derivatives of the basis functions. -/
theorem C113_derivatives (knots : List ℝ) (sorted : knots.Pairwise (· ≤ ·)) (span degree nth : Nat) (x : ℝ)
    (hd : degree ≤ span) (hl : span + degree + 1 < knots.length) (lo : knot knots span ≤ x) (hi : x < knot knots (span + 1))
    (k j : Nat) (hk : k ≤ nth) (hj : j ≤ degree) :
    ∃ g, RightDerivative k (N (knot knots) degree (span - degree + j)) g ∧ basisDerivatives knots span degree nth x k j = g x :=
  ⟨_, derivN_right (L := knots.length - 1) (fun a b hab hb => sorted_knot sorted hab (by omega)) degree _ (by omega) k,
    basis_all (inSpan_of sorted hd hl lo hi) nth k j hk hj⟩

/-- There is at most one such function, so the theorem above fixes the values. -/
theorem C113_unique (k : Nat) (f g g' : ℝ → ℝ) (h : RightDerivative k f g) (h' : RightDerivative k f g') : g = g' := h.unique h'

/-- Between two knots these are the ordinary derivatives, and all of them exist there. -/
theorem C113_interior (knots : List ℝ) (sorted : knots.Pairwise (· ≤ ·)) (span degree nth : Nat) (x : ℝ)
    (hd : degree ≤ span) (hl : span + degree + 1 < knots.length) (lo : knot knots span < x) (hi : x < knot knots (span + 1))
    (k j : Nat) (hk : k ≤ nth) (hj : j ≤ degree) :
    DifferentiableAt ℝ (iteratedDeriv k (N (knot knots) degree (span - degree + j))) x ∧
    basisDerivatives knots span degree nth x k j = iteratedDeriv k (N (knot knots) degree (span - degree + j)) x := by
  obtain ⟨h1, h2⟩ := derivN_inside (L := knots.length - 1) (fun a b hab hb => sorted_knot sorted hab (by omega)) degree (span - degree + j) (by omega) (i := span) (by omega) k x lo hi
  exact ⟨h2, (basis_all (inSpan_of sorted hd hl lo.le hi) nth k j hk hj).trans h1.symm⟩

/-- Derivatives of an order above the degree are zero; how many derivatives are asked for does not change those that are computed anyway. -/
theorem C113_orders {K : Type} [Field K] [LinearOrder K] [IsStrictOrderedRing K] (knots : List K) (sorted : knots.Pairwise (· ≤ ·)) (span degree nth : Nat) (x : K)
    (hd : degree ≤ span) (hl : span + degree + 1 < knots.length) (lo : knot knots span ≤ x) (hi : x < knot knots (span + 1))
    (k j : Nat) (hk : k ≤ nth) (hj : j ≤ degree) :
    (degree < k → basisDerivatives knots span degree nth x k j = 0) ∧
    (∀ nth', k ≤ nth' → basisDerivatives knots span degree nth' x k j = basisDerivatives knots span degree nth x k j) := by
  have hin := inSpan_of sorted hd hl lo hi
  refine ⟨fun h => ?_, fun nth' h => ?_⟩
  · rw [basis_all hin nth k j hk hj, derivN_big _ _ _ _ h]
  · rw [basis_all hin nth k j hk hj, basis_all hin nth' k j h hj]

/-- The derivatives of every order of at least one sum to zero. -/
theorem C113_sum (knots : List ℝ) (sorted : knots.Pairwise (· ≤ ·)) (span degree nth : Nat) (x : ℝ)
    (hd : degree ≤ span) (hl : span + degree + 1 < knots.length) (lo : knot knots span ≤ x) (hi : x < knot knots (span + 1))
    (k : Nat) (hk : k ≤ nth) (h1 : 1 ≤ k) :
    ∑ j ∈ Finset.range (degree + 1), basisDerivatives knots span degree nth x k j = 0 := by
  have hin := inSpan_of sorted hd hl lo hi
  have h := derivN_sum (L := knots.length - 1) hd (fun a b hab hb => sorted_knot sorted hab (by omega)) (by omega) k x lo hi
  rw [if_neg (by omega)] at h
  rw [← h]
  exact Finset.sum_congr rfl fun j hj => basis_all hin nth k j hk (by rw [Finset.mem_range] at hj; omega)

/-- Cubic basis functions over knots with a double knot, with more derivatives than the degree asked for. -/
example : let knots : List ℚ := [0, 0, 0, 0, 1/4, 1/2, 1/2, 1, 1, 1, 1]
    knots.Pairwise (· ≤ ·) ∧ 3 ≤ 4 ∧ 4 + 3 + 1 < knots.length ∧ knot knots 4 ≤ 1/3 ∧ (1/3 : ℚ) < knot knots (4 + 1) ∧
    (List.range 5).map (fun k => (List.range 4).map (basisDerivatives knots 4 3 4 (1/3) k)) =
      [[2/27, 10/27, 44/81, 1/81], [-4/3, -8/3, 32/9, 4/9], [16, -16, -32/3, 32/3], [-96, 384, -416, 128], [0, 0, 0, 0]] := by
  refine ⟨by decide +kernel, by decide, by decide, by decide +kernel, by decide +kernel, by decide +kernel⟩

/-- The same knots as real numbers, as in the theorems about derivatives. -/
example : let knots : List ℝ := [0, 0, 0, 0, 1/4, 1/2, 1/2, 1, 1, 1, 1]
    knots.Pairwise (· ≤ ·) ∧ 3 ≤ 4 ∧ 4 + 3 + 1 < knots.length ∧ knot knots 4 < 1/3 ∧ (1/3 : ℝ) < knot knots (4 + 1) := by
  refine ⟨?_, by decide, by simp, ?_, ?_⟩
  · norm_num
  · norm_num [knot]
  · norm_num [knot]

end Artist.Nurbs
