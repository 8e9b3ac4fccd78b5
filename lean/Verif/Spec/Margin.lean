import Verif.Spec.Pointing
import Verif.Model.Intersect
/-! Specification vocabulary for C128: light that stays away from the edges of a target, and rays that are not quite where they should be. -/
namespace Artist.Margin
open Artist Intersect Pointing Kinematics

noncomputable section

/-- A ray that meets the plane of the target from the front, within the distance `T` and at an angle whose cosine is at least `κ`. -/
def Arrives (p : Plane ℝ) (T κ : ℝ) (ray : V3 ℝ × V3 ℝ) (q : V3 ℝ) : Prop :=
  κ ≤ -(V3.dot ray.2 p.normal) ∧ V3.dot (q - p.center) p.normal = 0 ∧ ∃ t : ℝ, |t| ≤ T ∧ q = ray.1 + t • ray.2

/-- A ray that lands on the target, at least `M` away from all edges. -/
def Inside (p : Plane ℝ) (T κ M : ℝ) (ray : V3 ℝ × V3 ℝ) : Prop :=
  ∃ q, Arrives p T κ ray q ∧ |q.e - p.center.e| ≤ p.width / 2 - M ∧ |q.u - p.center.u| ≤ p.height / 2 - M

/-- A ray that passes the target at a distance of at least `M`, measured in the direction of its width or of its height. -/
def Outside (p : Plane ℝ) (T κ M : ℝ) (ray : V3 ℝ × V3 ℝ) : Prop :=
  ∃ q, Arrives p T κ ray q ∧ (p.width / 2 + M ≤ |q.e - p.center.e| ∨ p.height / 2 + M ≤ |q.u - p.center.u|)

/-- A ray and what has become of it: it starts at most `a` beside, and its unit direction is off by at most `δ`. -/
def Off (a δ : ℝ) (ray ray' : V3 ℝ × V3 ℝ) : Prop := apart ray.1 ray'.1 ≤ a ∧ apart ray.2 ray'.2 ≤ δ ∧ V3.normSq ray'.2 = 1

/-- How far such a ray arrives at most from where it should. -/
def reach (a δ T κ : ℝ) : ℝ := (a + T * δ) * (1 + 1 / (κ - δ))

/-- A mirror and what has become of it: points at most `a` away, unit normals off by at most `ε`. -/
def Deformed (a ε : ℝ) (surface surface' : List (V3 ℝ × (Fin 4 → ℝ))) : Prop :=
  List.Forall₂ (fun s s' => apart s.1 s'.1 ≤ a ∧ UnitDirection s.2 ∧ UnitDirection s'.2 ∧ length3 (s.2 - s'.2) ≤ ε) surface surface'

end
end Artist.Margin
