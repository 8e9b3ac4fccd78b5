import Verif.Model.RoundedRay
import Verif.Spec.RoundedLanding
import Verif.Model.Flux
/-! Specification vocabulary for C129. -/
namespace Artist.RoundedRay
open Artist Intersect RoundedLanding
noncomputable section

/-- The products that occur in a plan. -/
def Plan.terms : Plan → List (Fin 4)
  | .product i => [i]
  | .add l r => l.terms ++ r.terms
  | .fused i r => i :: r.terms

/-- Every product occurs once. -/
def Plan.Complete (P : Plan) : Prop := P.terms.Perm [0, 1, 2, 3]

/-- A direction in homogeneous coordinates whose length exceeds one by at most half a percent. -/
def AtMostUnit (v : Fin 4 → ℝ) : Prop := v 3 = 0 ∧ v 0 ^ 2 + v 1 ^ 2 + v 2 ^ 2 ≤ 101 / 100

/-- Cosine and sine of the library are right up to two units of rounding at `x`. -/
def Faithful (ε : ℝ) (fcos fsin : ℝ → ℝ) (x : ℝ) : Prop := |fcos x - Real.cos x| ≤ 2 * ε ∧ |fsin x - Real.sin x| ≤ 2 * ε

/-- A ray that arrives at the plane of a target: a scene of size `R`, met at the distance `t` from the front at an angle with a cosine of at least `κ`; `ε` is small against `κ`. -/
structure Arriving (ε R κ : ℝ) (origin dir : V3 ℝ) (p : Plane ℝ) (t : ℝ) : Prop where
  size : 1 ≤ R
  origin_within : Within R origin
  center_within : Within R p.center
  normal_unit : V3.normSq p.normal ≤ 101 / 100
  width : 0 < p.width ∧ p.width ≤ R
  height : 0 < p.height ∧ p.height ≤ R
  cosine : 0 < κ ∧ κ ≤ 1 ∧ V3.dot dir p.normal ≤ -κ
  small : 10000 * ε ≤ κ
  meets : V3.dot (origin + t • dir - p.center) p.normal = 0
  near : |t| ≤ 9 / 10 * R

/-- A point further inside the bitmap than rounding can move a ray, here four times what intersecting alone can. -/
def WellInside (ε R κ : ℝ) (W H : Nat) (origin dir : V3 ℝ) (p : Plane ℝ) (t : ℝ) : Prop :=
  (4 * shift ε R κ p.width W < column W origin dir p t ∧ column W origin dir p t < (W : ℝ) - 1 - 4 * shift ε R κ p.width W) ∧
  (4 * shift ε R κ p.height H < row H origin dir p t ∧ row H origin dir p t < (H : ℝ) - 1 - 4 * shift ε R κ p.height H)

/-- A point further outside than rounding can move a ray. -/
def WellOutside (ε R κ : ℝ) (W H : Nat) (origin dir : V3 ℝ) (p : Plane ℝ) (t : ℝ) : Prop :=
  column W origin dir p t < -(4 * shift ε R κ p.width W) ∨ (W : ℝ) - 1 + 4 * shift ε R κ p.width W < column W origin dir p t ∨
  row H origin dir p t < -(4 * shift ε R κ p.height H) ∨ (H : ℝ) - 1 + 4 * shift ε R κ p.height H < row H origin dir p t

/-- A ray from behind the target, by more than rounding can change. -/
def FromBehind (ε : ℝ) (dir : V3 ℝ) (p : Plane ℝ) : Prop := 10000 * ε ≤ 1 ∧ V3.normSq p.normal ≤ 101 / 100 ∧ 160 * ε ≤ V3.dot dir p.normal

/-- What determines a ray: the surface point, the direction of the light, the normal, the two angles of scattering and the magnitude. -/
structure Sent where
  point : V3 ℝ
  incident : Fin 4 → ℝ
  normal : Fin 4 → ℝ
  e : ℝ
  u : ℝ
  magnitude : ℝ

/-- Its direction in exact arithmetic. -/
def Sent.dir (x : Sent) : V3 ℝ := Flux.direction x.incident x.normal x.e x.u

/-- Light and normal are directions, the magnitude is one at most, and cosine and sine are right for its angles. -/
def Sent.Regular (ε : ℝ) (fcos fsin : ℝ → ℝ) (x : Sent) : Prop :=
  (AtMostUnit x.incident ∧ AtMostUnit x.normal) ∧ (Faithful ε fcos fsin x.e ∧ Faithful ε fcos fsin x.u) ∧ 0 ≤ x.magnitude ∧ x.magnitude ≤ 1

/-- A ray for which rounding cannot decide whether it counts. -/
def Sent.Clear (ε R κ : ℝ) (W H : Nat) (p : Plane ℝ) (x : Sent) : Prop :=
  FromBehind ε x.dir p ∨ ∃ t, Arriving ε R κ x.point x.dir p t ∧ (WellInside ε R κ W H x.point x.dir p t ∨ WellOutside ε R κ W H x.point x.dir p t)

end
end Artist.RoundedRay
