import Verif.Spec.ManyRays
import Verif.Spec.FineMirror
/-!
Specification vocabulary for C124: mirrors that are smooth surfaces, seen by a sun without sharp edges.
-/
namespace Artist.Blur
open Artist Intersect Flux Splat Surfaces Transforms FineMirror ManyRays MeasureTheory
noncomputable section

/-- What the program is given besides the mirror. -/
structure Setting where
  W : Nat
  H : Nat
  dni : ℝ
  cantE : Fin 4 → ℝ
  cantN : Fin 4 → ℝ
  extinction : ℝ
  reflectivity : ℝ
  target : Plane ℝ
  incident : Fin 4 → ℝ

/-- The scene with a given list of surface points; nothing blocks. -/
def Setting.scene (b : Setting) (surface : List (V3 ℝ × (Fin 4 → ℝ))) : Scene :=
  ⟨b.W, b.H, b.dni, b.cantE, b.cantN, b.extinction, b.reflectivity, .planar b.target, fun _ => 0, b.incident, surface⟩

/-- Irradiance times outline of the mirror. -/
def Setting.light (b : Setting) : ℝ :=
  b.dni * ((Real.sqrt (b.cantE 0 ^ 2 + b.cantN 0 ^ 2) * 4 + 2 / 100) * (Real.sqrt (b.cantE 1 ^ 2 + b.cantN 1 ^ 2) * 4 + 2 / 100))

/-- as the rest of the package produces it -/
structure Setting.Regular (b : Setting) : Prop where
  width : 2 ≤ b.W
  height : 2 ≤ b.H
  dni : 0 ≤ b.dni
  extinction : b.extinction ≤ 1
  reflectivity : 0 ≤ b.reflectivity
  target : Target.Valid (.planar b.target)
  incident : b.incident 3 = 0 ∧ b.incident ⬝ᵥ b.incident = 1

/-- A smooth mirror with unit normals that is nowhere in the plane of the target and nowhere reflects the light straight up or down. -/
structure SmoothMirror (p q : Nat) (facets : List Facet) (incident : Fin 4 → ℝ) (orientation : Mat) (t : Plane ℝ) : Prop where
  degrees : 2 ≤ p ∧ 2 ≤ q
  nonempty : facets ≠ []
  controls : ∀ f ∈ facets, p < f.net.nu ∧ q < f.net.nv
  normals : ∀ f ∈ facets, ∀ x ∈ Set.Icc gridEps (1 - gridEps), ∀ y ∈ Set.Icc gridEps (1 - gridEps),
    orientation.mulVec (mirrorAt p q f x y).2 3 = 0 ∧ orientation.mulVec (mirrorAt p q f x y).2 ⬝ᵥ orientation.mulVec (mirrorAt p q f x y).2 = 1
  away : ∀ f ∈ facets, ∀ x ∈ Set.Icc gridEps (1 - gridEps), ∀ y ∈ Set.Icc gridEps (1 - gridEps),
    V3.dot (t.center - ⟨orientation.mulVec (mirrorAt p q f x y).1 0, orientation.mulVec (mirrorAt p q f x y).1 1, orientation.mulVec (mirrorAt p q f x y).1 2⟩) t.normal ≠ 0
  slanted : ∀ f ∈ facets, ∀ x ∈ Set.Icc gridEps (1 - gridEps), ∀ y ∈ Set.Icc gridEps (1 - gridEps),
    reflect incident (orientation.mulVec (mirrorAt p q f x y).2) 0 ≠ 0 ∨ reflect incident (orientation.mulVec (mirrorAt p q f x y).2) 1 ≠ 0

/-- What the image of a mirror tends to: the mean over the facets and over the surface of what a ray brings on average over the sun. -/
def ideal (b : Setting) (p q : Nat) (facets : List Facet) (orientation : Mat) (P : Measure (ℝ × ℝ)) (r c : Nat) : ℝ :=
  (facets.map fun f => mean fun x y =>
    ∫ d, brings b.W b.H b.light b.extinction b.reflectivity b.target r c (rayFrom b.incident orientation d (mirrorAt p q f x y)) ∂P).sum / facets.length

end
end Artist.Blur
