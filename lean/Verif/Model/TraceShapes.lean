import Mathlib.Algebra.BigOperators.Fin
import Mathlib.Algebra.BigOperators.Ring.Finset
import Mathlib.Data.Real.Basic
import Verif.Model.Py
/-!
# Model of the numbers of rays and surface points in a ray tracer

`artist/raytracing/heliostat_ray_tracer.py` 118-198, 316-420, 520-585, `artist/raytracing/sampling.py` 20-85, `artist/scenario/scenario.py` 421-430,
`artist/optim/surface_reconstructor.py` 382-427, 492-560.  One heliostat; a tensor of shape `[rays, points]` is a function on natural numbers together with
its shape; what is computed per ray is arbitrary.
-/
namespace Artist.TraceShapes
open Artist

/-- One dimension of broadcasting two tensors.  As used in `heliostat_ray_tracer.py` 316-420. -/
def broadcast (a b : Nat) : Except PyErr Nat :=
  if a = b then .ok a else if a = 1 then .ok b else if b = 1 then .ok a else .error .runtimeError

/-- The index into a dimension of size `n` that is read at index `i` of the broadcast dimension.  As used in `heliostat_ray_tracer.py` 316-420. -/
def at' (n i : Nat) : Nat := if n = 1 then 0 else i

/-- `target[mask] = source` for one heliostat: a source of shape `[r, p]` stored into a tensor of shape `[R, P]`.  As used in `heliostat_ray_tracer.py` 390-433. -/
def store {A : Type} (r p R P : Nat) (source : Nat → Nat → A) : Except PyErr (Nat → Nat → A) :=
  if (r = R ∨ r = 1) ∧ (p = P ∨ p = 1) then .ok fun i j => source (at' r i) (at' p j) else .error .runtimeError

/-- What a ray tracer fixes when it is created (`heliostat_ray_tracer.py` 124-139, 185-203): numbers of rays and points of the distortions, and the power of
a ray, from the numbers of rays of the light source, of points of the active heliostats and of points of the group as stored.  Without surface points or rays
the division gives infinity in the code, 0 here. -/
structure Tracer where
  rays : Nat
  points : Nat
  magnitude : ℝ

/-- `HeliostatRayTracer.__init__`.  Lines 118-206. -/
noncomputable def create (lightRays activePoints storedPoints : Nat) (dni area : ℝ) : Tracer :=
  ⟨lightRays, activePoints, dni * area / (storedPoints * lightRays : ℕ)⟩

/-- `trace_rays` for one heliostat up to the intersections (`heliostat_ray_tracer.py` 328-433): the distortions are broadcast with the surface normals, the
result `compute` of every ray is stored into tensors whose shape uses the present number of rays of the light source and the number of stored points. -/
def trace {A : Type} (t : Tracer) (lightRays activePoints storedPoints : Nat) (compute : (distortion : Nat × Nat) → (point : Nat) → A) :
    Except PyErr (Nat → Nat → A) :=
  match broadcast t.points activePoints with
  | .error e => .error e
  | .ok p => store t.rays p lightRays storedPoints fun i j => compute (i, at' t.points j) (at' activePoints j)

/-- The sum over all rays and points of the traced tensor, as in the bitmap (`heliostat_ray_tracer.py` 484-497). -/
def total (R P : Nat) (f : Nat → Nat → ℝ) : ℝ := ∑ i : Fin R, ∑ j : Fin P, f i j

/-- Number of points that the surface reconstruction gives to a heliostat (`surface_reconstructor.py` 406-419, 521-541). -/
def reconstructedPoints (ne nn facets : Nat) : Nat := facets * (ne * nn)

end Artist.TraceShapes
