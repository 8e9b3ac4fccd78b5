import Verif.Model.RoundedLanding
import Verif.Spec.Rounded
/-! Specification vocabulary for C126. -/
namespace Artist.RoundedLanding
open Artist Intersect Rounded
noncomputable section

/-- All coordinates of a vector are at most `b`. -/
def Within (b : ℝ) (v : V3 ℝ) : Prop := |v.e| ≤ b ∧ |v.n| ≤ b ∧ |v.u| ≤ b

/-- A ray and a target in a scene of size `R` (at least one metre): directions and normals are unit vectors up to ten percent, the ray meets the plane from the front at `t`, at an angle whose cosine is
at least `κ`, and `ε` is small against `κ`. -/
structure Meeting (ε R κ : ℝ) (origin dir : V3 ℝ) (p : Plane ℝ) (t : ℝ) : Prop where
  size : 1 ≤ R
  origin_within : Within R origin
  center_within : Within R p.center
  dir_within : Within (11 / 10) dir
  normal_within : Within (11 / 10) p.normal
  width : 0 < p.width ∧ p.width ≤ R
  height : 0 < p.height ∧ p.height ≤ R
  cosine : 0 < κ ∧ κ ≤ 1 ∧ V3.dot dir p.normal ≤ -κ
  small : 1000 * ε ≤ κ
  meets : V3.dot (origin + t • dir - p.center) p.normal = 0
  near : |t| ≤ R

/-- Bitmap coordinates of the point at distance `t`, in pixels from the lower left corner as seen from behind. -/
def column (W : Nat) (origin dir : V3 ℝ) (p : Plane ℝ) (t : ℝ) : ℝ := ((origin + t • dir).e + p.width / 2 - p.center.e) / p.width * ((W : ℝ) - 1)
def row (H : Nat) (origin dir : V3 ℝ) (p : Plane ℝ) (t : ℝ) : ℝ := ((origin + t • dir).u + p.height / 2 - p.center.u) / p.height * ((H : ℝ) - 1)

/-- How far rounding can move a ray, in pixels. -/
def shift (ε R κ size : ℝ) (n : Nat) : ℝ := 100 * ε * (R / κ) * (((n : ℝ) - 1) / size)

/-- A ray that lands on the target, further from the edges than rounding can move it. -/
def Lands (ε R κ : ℝ) (W H : Nat) (origin dir : V3 ℝ) (p : Plane ℝ) (t : ℝ) : Prop :=
  (shift ε R κ p.width W < column W origin dir p t ∧ column W origin dir p t < (W : ℝ) - 1 - shift ε R κ p.width W) ∧
  (shift ε R κ p.height H < row H origin dir p t ∧ row H origin dir p t < (H : ℝ) - 1 - shift ε R κ p.height H)

/-- A ray that passes beside the target, further from the edges than rounding can move it. -/
def Misses (ε R κ : ℝ) (W H : Nat) (origin dir : V3 ℝ) (p : Plane ℝ) (t : ℝ) : Prop :=
  column W origin dir p t < -shift ε R κ p.width W ∨ (W : ℝ) - 1 + shift ε R κ p.width W < column W origin dir p t ∨
  row H origin dir p t < -shift ε R κ p.height H ∨ (H : ℝ) - 1 + shift ε R κ p.height H < row H origin dir p t

/-- A ray that comes from behind. -/
def Behind (ε : ℝ) (dir : V3 ℝ) (p : Plane ℝ) : Prop :=
  1000 * ε ≤ 1 ∧ Within (11 / 10) dir ∧ Within (11 / 10) p.normal ∧ 17 * ε ≤ V3.dot dir p.normal

/-- A ray for which rounding cannot decide whether it counts. -/
def Clear (ε R κ : ℝ) (W H : Nat) (origin dir : V3 ℝ) (p : Plane ℝ) : Prop :=
  Behind ε dir p ∨ ∃ t, Meeting ε R κ origin dir p t ∧ (Lands ε R κ W H origin dir p t ∨ Misses ε R κ W H origin dir p t)

/-- What is splatted of a ray. -/
def hit (l : Landing ℝ) : Splat.Hit ℝ := ⟨l.e, l.u, l.intensity⟩

end
end Artist.RoundedLanding
