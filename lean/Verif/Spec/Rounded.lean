import Verif.Model.Rounded
import Verif.Spec.Splat
/-! Specification vocabulary for C103. -/
namespace Artist.Rounded
open Artist Splat

/-- What the theorems use of a floating point format: rounding is monotone, odd and does nothing to numbers of the format; whole numbers up to `M` are
numbers of the format; the relative error is at most `u`, with a further absolute error `η` for tiny results; sums and differences have no such further
error. -/
structure Arithmetic (rnd : ℝ → ℝ) (u η : ℝ) (M : Nat) : Prop where
  u_nonneg : 0 ≤ u
  u_lt_one : u < 1
  η_nonneg : 0 ≤ η
  mono : Monotone rnd
  odd : ∀ x, rnd (-x) = -rnd x
  idem : ∀ x, rnd (rnd x) = rnd x
  nat : ∀ n : Nat, n ≤ M → rnd n = n
  close : ∀ x, |rnd x - x| ≤ u * |x| + η
  add : ∀ x y, rnd x = x → rnd y = y → |rnd (x + y) - (x + y)| ≤ u * |x + y|

/-- The part of a ray's intensity that belongs to the pixel in row `r` (from below) and column `c`. -/
noncomputable def part (W H r c : Nat) (h : Hit ℝ) : ℝ :=
  open scoped Classical in if Inside W H h then h.w * (tent (h.e - c) * tent (h.u - r)) else 0

/-- Rays that reach the pixel in row `r` (from below) and column `c`. -/
noncomputable def reaching (W H r c : Nat) (rays : List (Hit ℝ)) : List (Hit ℝ) :=
  open scoped Classical in rays.filter fun h => part W H r c h ≠ 0

/-- A ray given by numbers of the format, with coordinates and intensity that are not negative. -/
def IsFloat (rnd : ℝ → ℝ) (h : Hit ℝ) : Prop := (rnd h.e = h.e ∧ rnd h.u = h.u ∧ rnd h.w = h.w) ∧ 0 ≤ h.e ∧ 0 ≤ h.u ∧ 0 ≤ h.w

end Artist.Rounded
