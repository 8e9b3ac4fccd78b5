import Verif.Model.RoundedKinematics
import Verif.Spec.RoundedRay
import Verif.Spec.Rigid
/-! Specification vocabulary for C130. -/
namespace Artist.RoundedKinematics
open Artist Transforms Kinematics RoundedRay Matrix

/-- All products of matrices add up what they should, in whatever order. -/
def AllComplete (P : Nat → Plans) : Prop := ∀ k i j, (P k i j).Complete

/-- The heliostat stands within `R` of the origin, and its three lever arms are `ρ` long at most; `ε` is small against both. -/
structure Sized (ε R ρ : ℝ) (h : Heliostat) : Prop where
  position : length3 ![h.position 0, h.position 1, h.position 2, 0] ≤ R
  first : length3 ![h.translation 0, h.translation 1, h.translation 2, 0] ≤ ρ
  second : length3 ![h.translation 3, h.translation 4, h.translation 5, 0] ≤ ρ
  concentrator : length3 ![h.translation 6, h.translation 7, h.translation 8, 0] ≤ ρ
  small : 40000 * ε * (R + 10 * ρ + 4) ≤ 1

/-- Cosine and sine are right for all angles of a heliostat, and the three angles `f` of the turn from lying flat to facing south are right up to two units of rounding. -/
structure Angles (ε : ℝ) (fcos fsin : ℝ → ℝ) (f : Fin 3 → ℝ) (h : Heliostat) (θ₁ θ₂ : ℝ) : Prop where
  deviations : ∀ i, Faithful ε fcos fsin (h.rotation i)
  joints : Faithful ε fcos fsin θ₁ ∧ Faithful ε fcos fsin θ₂
  turn : ∀ i, Faithful ε fcos fsin (f i)
  turn_near : ∀ i, |f i - decomposeRotations ![0, 0, 1] ![0, -1, 0] i| ≤ 2 * ε

end Artist.RoundedKinematics
