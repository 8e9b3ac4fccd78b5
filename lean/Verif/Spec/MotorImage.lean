import Verif.Spec.Translation
import Verif.Spec.SplatGradient
/-! Specification vocabulary for C108: scenes that change with a parameter `x`, for example a motor position or time. -/
namespace Artist.MotorImage
open Artist Intersect Flux Splat Kinematics Moved

noncomputable section
variable {X : Type}

/-- A heliostat that is moved: kinematics, motor positions, direction of the sunlight, and points and normals of the mirror, all depending on `x`. -/
structure Moving (X : Type) where
  heliostat : X → Heliostat
  motors : X → ℝ × ℝ
  incident : X → Fin 4 → ℝ
  mirror : List ((X → Fin 4 → ℝ) × (X → Fin 4 → ℝ))

/-- All numbers depend on `x` in the way `P` says, for example continuously. -/
structure Moving.Varies (P : (X → ℝ) → Prop) (s : Moving X) : Prop where
  position : ∀ i, P fun x => (s.heliostat x).position i
  translation : ∀ i, P fun x => (s.heliostat x).translation i
  rotation : ∀ i, P fun x => (s.heliostat x).rotation i
  angle1 : P fun x => (s.heliostat x).actuator1.toAngle (s.motors x).1
  angle2 : P fun x => (s.heliostat x).actuator2.toAngle (s.motors x).2
  incident : ∀ i, P fun x => s.incident x i
  mirror : ∀ q ∈ s.mirror, ∀ i, (P fun x => q.1 x i) ∧ P fun x => q.2 x i

/-- The rays at `x`: the mirror is aligned with the motor positions and reflects the scattered light. -/
def Moving.rays (s : Moving X) (distortions : List (List (ℝ × ℝ))) (x : X) : List (V3 ℝ × V3 ℝ) :=
  raysOf (s.incident x) (placed ((s.heliostat x).motorToOrientation (s.motors x)) (s.mirror.map fun q => (q.1 x, q.2 x))) distortions

/-- The brightness of a pixel of the bitmap at `x`; the fraction `blocked` of each ray that is blocked may change with `x`, too. -/
def Moving.brightness (s : Moving X) (distortions : List (List (ℝ × ℝ))) (W H : Nat) (magnitude extinction reflectivity : ℝ) (t : Target) (blocked : X → V3 ℝ × V3 ℝ → ℝ)
    (r c : Nat) (x : X) : ℝ :=
  match traceSample W H magnitude extinction reflectivity t (blocked x) (s.rays distortions x) with
  | .ok result => pixel result.1 r c
  | .error _ => 0

/-- The `i`-th ray at `x`. -/
def Moving.ray (s : Moving X) (distortions : List (List (ℝ × ℝ))) (i : Nat) (x : X) : V3 ℝ × V3 ℝ := (s.rays distortions x).getD i (⟨0, 0, 0⟩, ⟨0, 0, 0⟩)

/-- A line that comes from the front and meets the plane in a point of the edge of the rectangle. -/
def HitsEdge (p : Plane ℝ) (ray : V3 ℝ × V3 ℝ) : Prop :=
  V3.dot ray.2 p.normal < 0 ∧ ∃ t : ℝ, V3.dot (ray.1 + t • ray.2 - p.center) p.normal = 0 ∧
    |(ray.1 + t • ray.2).e - p.center.e| ≤ p.width / 2 ∧ |(ray.1 + t • ray.2).u - p.center.u| ≤ p.height / 2 ∧
    (|(ray.1 + t • ray.2).e - p.center.e| = p.width / 2 ∨ |(ray.1 + t • ray.2).u - p.center.u| = p.height / 2)

end
end Artist.MotorImage
