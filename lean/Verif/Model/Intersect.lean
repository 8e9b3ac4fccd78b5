import Verif.Model.Vec3
import Mathlib.Data.Matrix.Mul
import Mathlib.Analysis.SpecialFunctions.Complex.Arg
import Mathlib.Analysis.SpecialFunctions.Sqrt
/-!
# Model of reflection and of the intersections with target areas (`artist/raytracing/geometry.py`)

One heliostat, one ray; the tensors only repeat this for every heliostat, ray and surface point.
-/
namespace Artist.Intersect
open Artist

section
variable {K : Type} [Field K]

/-- `reflect` (`geometry.py` 11-41); vectors have four components. -/
def reflect (d n : Fin 4 → K) : Fin 4 → K := d - (2 * (d ⬝ᵥ n)) • n
end

/-- A planar target area (`artist/field/tower_target_areas_planar.py`): centre, normal, width and height.  Lines 45-74. -/
structure Plane (K : Type) where
  center : V3 K
  normal : V3 K
  width : K
  height : K
  deriving DecidableEq, Repr

/-- What the intersection functions return for one ray: bitmap coordinates, distance, intensity.  Source: `raytracing/geometry.py` 44-204 and 207-445. -/
structure Landing (K : Type) where
  e : K
  u : K
  distance : K
  intensity : K
  deriving DecidableEq, Repr

section
variable {K : Type} [Field K] [LinearOrder K]

/-- `angle_based_intensities` (`geometry.py` 116-118) -/
def planeAngle (dir : V3 K) (p : Plane K) : K := V3.dot dir p.normal

/-- `intersection_distances` before masking (`geometry.py` 126-131) -/
def planeDistance (origin dir : V3 K) (p : Plane K) : K :=
  let front := decide (planeAngle dir p < 0)
  let numerator := V3.dot (p.center - origin) p.normal
  let safe := if front then planeAngle dir p else 1
  if front then numerator / safe else 0

/-- `intersections` (`geometry.py` 133-136) -/
def planePoint (origin dir : V3 K) (p : Plane K) : V3 K := origin + planeDistance origin dir p • dir

/-- `line_plane_intersections` (`geometry.py` 44-204) for one ray.  `W`, `H` is the bitmap resolution in east and up direction. Multiplication with
the 0/1 mask is written as `if`. -/
def linePlane (W H : Nat) (origin dir : V3 K) (magnitude : K) (p : Plane K) : Landing K :=
  let point := planePoint origin dir p
  let te := point.e + p.width / 2 - p.center.e
  let tu := point.u + p.height / 2 - p.center.u
  let be := te / p.width * ((W : K) - 1)
  let bu := tu / p.height * ((H : K) - 1)
  let valid := decide (0 ≤ be) && decide (be ≤ (W : K) - 1) && decide (0 ≤ bu) && decide (bu ≤ (H : K) - 1) &&
    decide (planeAngle dir p < 0)
  { e := ((W : K) - 1) - (if valid then be else 0)
    u := if valid then bu else 0
    distance := if valid then planeDistance origin dir p else 0
    intensity := if valid then magnitude * -(planeAngle dir p) else 0 }

end

noncomputable section

/-- `torch.atan2(y, x)`: the angle of the point `(x, y)` in `(-π, π]`, and 0 for the origin. -/
def atan2 (y x : ℝ) : ℝ := Complex.arg ⟨x, y⟩

/-- A cylindrical target area (`artist/field/tower_target_areas_cylindrical.py`).  Lines 56-102. -/
structure Cylinder where
  center : V3 ℝ
  normal : V3 ℝ
  axis : V3 ℝ
  radius : ℝ
  height : ℝ
  opening : ℝ

/-- Local coordinates: multiplication with the matrix whose rows are `normal × axis`, `normal`, `axis` (`geometry.py` 298-306). -/
def Cylinder.toLocal (cyl : Cylinder) (v : V3 ℝ) : V3 ℝ :=
  ⟨V3.dot v (V3.cross cyl.normal cyl.axis), V3.dot v cyl.normal, V3.dot v cyl.axis⟩

/-- The coefficients of the quadratic equation (`geometry.py` 308-322). -/
def Cylinder.quadratic (cyl : Cylinder) (origin dir : V3 ℝ) : ℝ × ℝ × ℝ :=
  let o := cyl.toLocal (origin - cyl.center)
  let d := cyl.toLocal dir
  (d.e ^ 2 + d.n ^ 2, 2 * (o.e * d.e + o.n * d.n), o.e ^ 2 + o.n ^ 2 - cyl.radius ^ 2)

/-- The smallest strictly positive of the two candidates, `none` if there is none or the ray misses the infinite cylinder
(`geometry.py` 322-364).  The early returns for "no ray at all hits" (328-334, 366-371) give zeros, which is also what the masks give
for such rays, so they are not modelled separately. -/
def Cylinder.distance (cyl : Cylinder) (origin dir : V3 ℝ) : Option ℝ :=
  let q := cyl.quadratic origin dir
  let disc := q.2.1 ^ 2 - 4 * q.1 * q.2.2
  if 0 ≤ disc ∧ 1 / 10 ^ 8 < |q.1| then
    let s := Real.sqrt (disc + 1 / 10 ^ 12)
    let near := (-q.2.1 - s) / (2 * q.1)
    let far := (-q.2.1 + s) / (2 * q.1)
    if 0 < near then (if 0 < far then some (min near far) else some near)
    else if 0 < far then some far else none
  else none

/-- `angles` of a hit point given in local coordinates (`geometry.py` 398-405). -/
def Cylinder.angle (cyl : Cylinder) (x : V3 ℝ) : ℝ :=
  atan2 x.n x.e - (atan2 cyl.normal.n cyl.normal.e - cyl.opening / 2)

/-- `line_cylinder_intersections` (`geometry.py` 207-445) for one ray.  Multiplication with the masks is written as `if`; a division by zero
in a masked ray (NaN) is not modelled. -/
def lineCylinder (W H : Nat) (origin dir : V3 ℝ) (magnitude : ℝ) (cyl : Cylinder) : Landing ℝ :=
  match cyl.distance origin dir with
  | none => ⟨0, 0, 0, 0⟩
  | some t =>
    let x := cyl.toLocal (origin - cyl.center) + t • cyl.toLocal dir
    let d := cyl.toLocal dir
    let norm := Real.sqrt (x.e ^ 2 + x.n ^ 2)
    let cosine := max (-(d.e * (x.e / norm) + d.n * (x.n / norm))) 0
    let z := x.u + cyl.height / 2
    let angle := cyl.angle x
    if 0 ≤ z ∧ z ≤ cyl.height ∧ 0 ≤ angle ∧ angle ≤ cyl.opening then
      ⟨angle / cyl.opening * ((W : ℝ) - 1), z / cyl.height * ((H : ℝ) - 1), t, magnitude * cosine⟩
    else ⟨0, 0, 0, 0⟩

end
end Artist.Intersect
