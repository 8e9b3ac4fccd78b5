import Verif.Model.Flux
/-!
# Mirroring a scene at the north-up plane (C96)

Everything in the east becomes west; sizes stay.
-/
namespace Artist.Mirrored
open Artist Intersect

/-- a position or a direction -/
def vec (v : V3 ℝ) : V3 ℝ := ⟨-v.e, v.n, v.u⟩

/-- a position or a direction in homogeneous coordinates -/
def vec4 (v : Fin 4 → ℝ) : Fin 4 → ℝ := ![-(v 0), v 1, v 2, v 3]

/-- a ray given by origin and direction -/
def ray (r : V3 ℝ × V3 ℝ) : V3 ℝ × V3 ℝ := (vec r.1, vec r.2)

def plane (p : Plane ℝ) : Plane ℝ := { p with center := vec p.center, normal := vec p.normal }

/-- a surface point with its normal -/
def point (s : V3 ℝ × (Fin 4 → ℝ)) : V3 ℝ × (Fin 4 → ℝ) := (vec s.1, vec4 s.2)

/-- distortion angles of a ray (about the east and about the up axis): the sense of turning about the up axis is reversed -/
def distortion (d : ℝ × ℝ) : ℝ × ℝ := (d.1, -d.2)

/-- the line of the ray does not meet the left or the right edge of the target -/
def OffEdges (p : Plane ℝ) (r : V3 ℝ × V3 ℝ) : Prop :=
  ∀ t : ℝ, V3.dot (r.1 + t • r.2 - p.center) p.normal = 0 → |(r.1 + t • r.2).e - p.center.e| ≠ p.width / 2

noncomputable section
def cylinder (c : Cylinder) : Cylinder := { c with center := vec c.center, normal := vec c.normal, axis := vec c.axis }

/-- the corners 0, 1, 2, 3 of a mirror used for blocking -/
abbrev Quad := V3 ℝ × V3 ℝ × V3 ℝ × V3 ℝ

/-- the mirror image, corner by corner -/
def quad (q : Quad) : Quad := (vec q.1, vec q.2.1, vec q.2.2.1, vec q.2.2.2)

/-- the mirror image with corners numbered as those of any other heliostat (east and west change places) -/
def turned (q : Quad) : Quad := (vec q.2.2.2, vec q.2.2.1, vec q.2.1, vec q.1)

/-- the plane of the corners is not parallel to the ray -/
def NotParallel (q : Quad) (r : V3 ℝ × V3 ℝ) : Prop := V3.dot r.2 (V3.cross (q.2.1 - q.1) (q.2.2.2 - q.1)) ≠ 0

/-- opposite sides are parallel and equally long, and the area is at least 1e-6 (for lengths in metres one square millimetre) -/
def Parallelogram (q : Quad) : Prop :=
  q.2.2.1 - q.2.2.2 = q.2.1 - q.1 ∧
    (1 : ℝ) / 10 ^ 12 ≤ V3.dot (V3.cross (q.2.1 - q.1) (q.2.2.2 - q.1)) (V3.cross (q.2.1 - q.1) (q.2.2.2 - q.1))
end

end Artist.Mirrored
