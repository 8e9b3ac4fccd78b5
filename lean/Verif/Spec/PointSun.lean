import Verif.Spec.ManyRays
import Verif.Spec.MotorImage
import Verif.Spec.CylinderImage
import Mathlib.MeasureTheory.Constructions.BorelSpace.Basic
/-!
Specification vocabulary for C125: suns that become narrower.
-/
namespace Artist.PointSun
open Artist Intersect Flux ManyRays MeasureTheory Filter Topology
noncomputable section

/-- The image of a point sun: every ray goes exactly where the mirror reflects it. -/
def sharp (s : Scene) (r c : Nat) : ℝ := s.image r c 1 fun _ _ => (0, 0)

/-- A ray from a surface point with given distortions. -/
def rayWith (s : Scene) (p : V3 ℝ × (Fin 4 → ℝ)) (d : ℝ × ℝ) : V3 ℝ × V3 ℝ := (p.1, direction s.incident p.2 d.1 d.2)

/-- No undistorted ray meets the target at an edge, and blocking does not jump there. -/
def NoEdge (s : Scene) : Prop :=
  ∀ p ∈ s.surface, ContinuousAt (fun d : ℝ × ℝ => s.blocked (rayWith s p d)) (0, 0) ∧
    match s.target with
    | .planar t => ¬ MotorImage.HitsEdge t (rayWith s p (0, 0))
    | .cylinder cyl => 0 < cyl.radius ∧ CylinderImage.Clear cyl (rayWith s p (0, 0))

/-- The distortions of run `k` (ray number, event, surface point) become smaller and smaller: large ones become improbable, for all rays alike. -/
def Narrowing {Ω : Type} [MeasurableSpace Ω] (μ : Measure Ω) (points : Nat) (D : Nat → Nat → Ω → Fin points → ℝ × ℝ) : Prop :=
  ∀ δ : ℝ, 0 < δ → ∀ η : ℝ, 0 < η → ∀ᶠ k in atTop, ∀ i j, μ {ω | δ ≤ |(D k i ω j).1| ∨ δ ≤ |(D k i ω j).2|} ≤ ENNReal.ofReal η

end
end Artist.PointSun
