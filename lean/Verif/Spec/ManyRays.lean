import Verif.Model.Flux
import Verif.Props.Flux
import Verif.Proofs.Splat
import Mathlib.MeasureTheory.Constructions.BorelSpace.Real
/-!
Specification vocabulary for C123: images of one heliostat as functions of randomly drawn distortions.
-/
namespace Artist.ManyRays
open Artist Intersect Flux Splat
noncomputable section

/-- Everything that stays fixed while the number of rays per surface point grows: bitmap, irradiance, mirror size, losses, target, blocking, light and mirror. -/
structure Scene where
  W : Nat
  H : Nat
  dni : ℝ
  cantE : Fin 4 → ℝ
  cantN : Fin 4 → ℝ
  extinction : ℝ
  reflectivity : ℝ
  target : Target
  blocked : V3 ℝ × V3 ℝ → ℝ
  incident : Fin 4 → ℝ
  surface : List (V3 ℝ × (Fin 4 → ℝ))

/-- number of surface points -/
abbrev Scene.points (s : Scene) : Nat := s.surface.length

/-- What the program returns for a list of rows of distortions; the power of a ray is that of the number of rows. -/
def Scene.trace (s : Scene) (rows : List (List (ℝ × ℝ))) : Except PyErr (List (List ℝ) × ℝ × ℝ × ℝ) :=
  traceSample s.W s.H (rayMagnitude (some s.dni) s.cantE s.cantN s.points rows.length) s.extinction s.reflectivity s.target s.blocked
    (raysOf s.incident s.surface rows)

/-- A pixel of the image traced with `N` rows of distortions `d 0`, …, `d (N - 1)`; zero if the program raises. -/
def Scene.image (s : Scene) (r c N : Nat) (d : Nat → Fin s.points → ℝ × ℝ) : ℝ :=
  match s.trace ((List.range N).map fun k => List.ofFn (d k)) with
  | .ok result => pixel result.1 r c
  | .error _ => 0

/-- Irradiance times outline of the mirror, reduced by extinction and reflectivity. -/
def Scene.power (s : Scene) : ℝ :=
  s.dni * ((Real.sqrt (s.cantE 0 ^ 2 + s.cantN 0 ^ 2) * 4 + 2 / 100) * (Real.sqrt (s.cantE 1 ^ 2 + s.cantN 1 ^ 2) * 4 + 2 / 100)) *
    (1 - s.extinction) * s.reflectivity

/-- The blocking mask depends on a ray in a measurable way. -/
def MeasurableMask (blocked : V3 ℝ × V3 ℝ → ℝ) : Prop :=
  Measurable fun x : Fin 6 → ℝ => blocked (⟨x 0, x 1, x 2⟩, ⟨x 3, x 4, x 5⟩)

/-- A scene as the rest of the package produces it. -/
structure Scene.Regular (s : Scene) : Prop where
  width : 2 ≤ s.W
  height : 2 ≤ s.H
  dni : 0 ≤ s.dni
  extinction : s.extinction ≤ 1
  reflectivity : 0 ≤ s.reflectivity
  target : Target.Valid s.target
  blocked : ∀ ray, 0 ≤ s.blocked ray ∧ s.blocked ray ≤ 1
  mask : MeasurableMask s.blocked
  incident : s.incident 3 = 0 ∧ s.incident ⬝ᵥ s.incident = 1
  normals : ∀ p ∈ s.surface, p.2 3 = 0 ∧ p.2 ⬝ᵥ p.2 = 1
  surface : s.surface ≠ []

end
end Artist.ManyRays
