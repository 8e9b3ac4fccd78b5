import Verif.Model.GroupFlux
import Verif.Props.Intersect
import Mathlib.Algebra.BigOperators.Group.Finset.Basic
/-!
# Sunlight on the mirrors and power on the target areas (C100)
-/
namespace Artist.GroupFlux
open Artist Intersect Flux Finset

noncomputable section

/-- sum of all pixels of a bitmap -/
def total (W H : Nat) (bitmap : Nat → Nat → ℝ) : ℝ := ∑ r ∈ range H, ∑ c ∈ range W, bitmap r c

/-- a sample as the rest of the package produces it: directions without fourth component, of length one -/
structure Sample.Regular (s : Sample) : Prop where
  incident_direction : s.incident 3 = 0
  incident_length : s.incident ⬝ᵥ s.incident = 1
  normals : ∀ p ∈ s.surface, p.2 3 = 0 ∧ p.2 ⬝ᵥ p.2 = 1
  blocked : ∀ ray, 0 ≤ s.blocked ray ∧ s.blocked ray ≤ 1

/-- target areas with positive dimensions and unit vectors -/
structure Tracer.Regular (tr : Tracer) : Prop where
  width : 2 ≤ tr.W
  height : 2 ≤ tr.H
  extinction : tr.extinction ≤ 1
  reflectivity : 0 ≤ tr.reflectivity
  planes : ∀ p ∈ tr.planes, 0 < p.width ∧ 0 < p.height ∧ V3.normSq p.normal = 1
  cylinders : ∀ c ∈ tr.cylinders, c.Framed ∧ 0 < c.height ∧ 0 < c.opening

/-- Sunlight caught by a mirror of the given area: every surface point stands for an equal part of the area, and catches light in proportion
to the cosine between its normal and the direction to the sun. -/
def caught (irradiance area : ℝ) (s : Sample) : ℝ :=
  irradiance * area * ((s.surface.map fun p => max 0 (-(s.incident ⬝ᵥ p.2))).sum / s.surface.length)

end
end Artist.GroupFlux
