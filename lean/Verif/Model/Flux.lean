import Verif.Model.Intersect
import Verif.Model.Splat
import Verif.Model.SoftMask
import Verif.Model.Transforms
/-!
# Model of ray tracing for one sample, from the mirror to the bitmap

`artist/raytracing/heliostat_ray_tracer.py` 184-206 (power of a ray) and 276-508 (`trace_rays`).  The assignment of samples to batches and
rows is modelled in `Trace.lean`, the choice of blocking rectangles in `LBVH.lean` and `SoftMask.lean`.  Numbers are real (no rounding).
-/
namespace Artist.Flux
open Artist Intersect Splat SoftMask Transforms

noncomputable section

/-- A target area: `solar_tower.target_areas` holds the planar and the cylindrical ones.  Source: `heliostat_ray_tracer.py` 390-433. -/
inductive Target
  | planar (p : Plane ℝ)
  | cylinder (c : Cylinder)

/-- Target area of a sample (lines 338-345, 391-409, 411-432): indices below the number of planar areas are planar areas, the others, reduced by
this number, cylindrical ones.  Torch also accepts negative indices; target indices come from the scenario and are not negative. -/
def target (planes : List (Plane ℝ)) (cylinders : List Cylinder) (index : Nat) : Except PyErr Target :=
  if index < planes.length then
    match planes[index]? with
    | some p => .ok (.planar p)
    | none => .error .indexError
  else
    match cylinders[index - planes.length]? with
    | some c => .ok (.cylinder c)
    | none => .error .indexError

/-- Intersection of one ray with the target (lines 391-432). -/
def land (W H : Nat) (magnitude : ℝ) (t : Target) (ray : V3 ℝ × V3 ℝ) : Landing ℝ :=
  match t with
  | .planar p => linePlane W H ray.1 ray.2 magnitude p
  | .cylinder c => lineCylinder W H ray.1 ray.2 magnitude c

/-- Direction of one ray (lines 287-292, 327-335 and 541-553): the incident direction is reflected at the normal of the surface point and then
scattered by the distortions `e` and `u`. -/
def direction (incident normal : Fin 4 → ℝ) (e u : ℝ) : V3 ℝ :=
  let v := Matrix.mulVec (rotDist e u) (reflect incident normal)
  ⟨v 0, v 1, v 2⟩

/-- The rays of one sample, origin and direction: `surface` has the points and normals, `distortions` one row per ray with an (east, up) pair for
every point.  Source: `heliostat_ray_tracer.py` 324-352. -/
def raysOf (incident : Fin 4 → ℝ) (surface : List (V3 ℝ × (Fin 4 → ℝ))) (distortions : List (List (ℝ × ℝ))) : List (V3 ℝ × V3 ℝ) :=
  distortions.flatMap fun row => List.zipWith (fun s d => (s.1, direction incident s.2 d.1 d.2)) surface row

/-- A ray when it is splatted (lines 482-494): `blocked` is its value of the blocking mask. -/
def hitOf (W H : Nat) (magnitude extinction reflectivity : ℝ) (t : Target) (blocked : V3 ℝ × V3 ℝ → ℝ) (ray : V3 ℝ × V3 ℝ) : Hit ℝ :=
  let l := land W H magnitude t ray
  ⟨l.e, l.u, intensity l.intensity (blocked ray) extinction reflectivity⟩

/-- What `trace_rays` returns for one sample, in the order of line 508: bitmap, intercept factor, on-target factor, blocking factor
(lines 482-506).  `blocked` gives the blocking mask of a ray, zero without blocking; NaN (a degenerate rectangle, see C15) is not
modelled here. For a sample without rays Python gets NaN for the factors. -/
def traceSample (W H : Nat) (magnitude extinction reflectivity : ℝ) (t : Target) (blocked : V3 ℝ × V3 ℝ → ℝ) (rays : List (V3 ℝ × V3 ℝ)) :
    Except PyErr (List (List ℝ) × ℝ × ℝ × ℝ) :=
  let hit := hitOf W H magnitude extinction reflectivity t blocked
  match splat W H (rays.map hit) with
  | .error e => .error e
  | .ok bitmap =>
    let n : ℝ := rays.length
    .ok (bitmap,
      (rays.countP fun ray => decide (0 < (hit ray).w) : Nat) / n,
      (rays.countP fun ray => decide (0 < (land W H magnitude t ray).intensity) : Nat) / n,
      (rays.countP fun ray => decide (blocked ray < 1 / 10 ^ 3) : Nat) / n)

/-- The blocking mask with the parameters used by the tracer (lines 464-480; `alpha` and `ray_origin_offset` are the defaults of
`soft_ray_blocking_mask`): `rects` are the rectangles kept by the filter. -/
def Blocks (rects : List Rect) (blocked : V3 ℝ × V3 ℝ → ℝ) (ray : V3 ℝ × V3 ℝ) : Prop :=
  softMask (1 / 10 ^ 12) 1000 100 (5 / 100) ray.1 ray.2 rects = some (blocked ray)

/-- The power carried by one ray (lines 184-206).  `cantE`, `cantN` are the canting vectors of the first facet of the first heliostat of the group:
`torch.norm(canting[0], dim=1)[0]` takes, component by component, the norm over the two vectors. -/
def rayMagnitude (dni : Option ℝ) (cantE cantN : Fin 4 → ℝ) (points rays : Nat) : ℝ :=
  match dni with
  | none => 1
  | some dni =>
    let width := Real.sqrt (cantE 0 ^ 2 + cantN 0 ^ 2) * 4 + 2 / 100
    let height := Real.sqrt (cantE 1 ^ 2 + cantN 1 ^ 2) * 4 + 2 / 100
    dni * (width * height) / ((points * rays : Nat) : ℝ)

end
end Artist.Flux
