import Verif.Model.Regularizers
import Mathlib.Data.Real.Basic
import Mathlib.Data.Fintype.BigOperators
/-!
# Model of the loss of the surface reconstruction and its balanced regularisers (`artist/optim/surface_reconstructor.py` 656-747 and 1025-1054)

`n` heliostats of one group on one rank; flux losses and flux integral constraints per heliostat are inputs (the constraints are modelled in `Verif.Model.Aim`), the
regularisers are those of `Verif.Model.Regularizers`.  Real numbers for floats.  Automatic differentiation differentiates the whole expression: neither factor is detached,
so the slope of the loss is the derivative of `total`.
-/
namespace Artist.Balance
open Artist

/-- `weight_smoothness`, `weight_ideal_surface` (lines 946-949) and `self.epsilon` (line 99). -/
structure Weights where
  smoothness : ℝ
  ideal : ℝ
  epsilon : ℝ

/-- `tensor.mean()` over the heliostats.  As used in `surface_reconstructor.py` 1025-1054. -/
noncomputable def mean {n : Nat} (x : Fin n → ℝ) : ℝ := (∑ k, x k) / n

/-- `alpha` and `beta` (lines 732-741). -/
noncomputable def factor {n : Nat} (weight epsilon : ℝ) (flux regularizer : Fin n → ℝ) : ℝ :=
  weight * mean flux / (mean regularizer + epsilon)

/-- The regulariser losses per heliostat: zeros unless the weight is positive (lines 708-730). -/
noncomputable def guarded {n : Nat} (weight : ℝ) (regularizer : Fin n → ℝ) : Fin n → ℝ := fun k => if 0 < weight then regularizer k else 0

/-- `total_loss` (lines 1045-1052) from the losses per heliostat. -/
noncomputable def total {n : Nat} (W : Weights) (flux constraint smooth ideal : Fin n → ℝ) : ℝ :=
  mean fun k => flux k + constraint k + factor W.smoothness W.epsilon flux (guarded W.smoothness smooth) * guarded W.smoothness smooth k
    + factor W.ideal W.epsilon flux (guarded W.ideal ideal) * guarded W.ideal ideal k

/-- Control points of all facets of all heliostats.  Source: `surface_reconstructor.py` 452-458 (`nurbs_control_points` of the group). -/
abbrev Surfaces (n : Nat) := Fin n → Nat → Nat → Nat → V3 ℝ

/-- The loss of a group with given surfaces (lines 1026-1052): both regularisers compare the current with the original control points. -/
noncomputable def loss {n : Nat} (W : Weights) (facets h w : Nat) (original : Surfaces n) (flux constraint : Fin n → ℝ) (current : Surfaces n) : ℝ :=
  total W flux constraint (fun k => Regularizers.smoothness facets h w (current k) (original k)) (fun k => Regularizers.ideal facets h w (current k) (original k))

end Artist.Balance
