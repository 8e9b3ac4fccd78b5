import Verif.Model.LBVH
import Verif.Model.Flux
import Verif.Model.AlignSurface
/-!
# Moving a scene by a vector (C94)

Positions (heliostats, aim points, surface points, targets, ray origins) get the vector added; directions, normals and sizes stay.
-/
namespace Artist.Moved
open Artist LBVH SoftMask Intersect Flux Kinematics

section
variable {K : Type} [Field K]

def corners (v : V3 K) (c : V3 K × V3 K × V3 K × V3 K) : V3 K × V3 K × V3 K × V3 K := (c.1 + v, c.2.1 + v, c.2.2.1 + v, c.2.2.2 + v)

def ray (v : V3 K) (r : Ray K) : Ray K := { r with origin := r.origin + v }
end

noncomputable section
def rect (v : V3 ℝ) (r : Rect) : Rect := { r with corner := r.corner + v }

def plane (v : V3 ℝ) (p : Plane ℝ) : Plane ℝ := { p with center := p.center + v }

def target (v : V3 ℝ) : Target → Target
  | .planar p => .planar (plane v p)
  | .cylinder c => .cylinder { c with center := c.center + v }

/-- a ray given by origin and direction -/
def line (v : V3 ℝ) (r : V3 ℝ × V3 ℝ) : V3 ℝ × V3 ℝ := (r.1 + v, r.2)

/-- a position in homogeneous coordinates -/
def point (v : V3 ℝ) (p : Fin 4 → ℝ) : Fin 4 → ℝ := ![p 0 + v.e, p 1 + v.n, p 2 + v.u, p 3]

def heliostat (v : V3 ℝ) (h : Heliostat) : Heliostat := { h with position := point v h.position }

def task {k : Nat} (v : V3 ℝ) (t : Task k) : Task k := ⟨fun i => heliostat v (t.heliostat i), t.incident, fun i => point v (t.aim i)⟩

/-- points and normals of a mirror placed by an orientation -/
def placed (orientation : Matrix (Fin 4) (Fin 4) ℝ) (surface : List ((Fin 4 → ℝ) × (Fin 4 → ℝ))) : List (V3 ℝ × (Fin 4 → ℝ)) :=
  surface.map fun s => (⟨orientation.mulVec s.1 0, orientation.mulVec s.1 1, orientation.mulVec s.1 2⟩, orientation.mulVec s.2)
end
end Artist.Moved
