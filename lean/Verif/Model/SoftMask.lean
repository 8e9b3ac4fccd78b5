import Verif.Model.Vec3
import Verif.Model.Py
import Verif.Model.LBVH
import Mathlib.Analysis.SpecialFunctions.Exp
import Mathlib.Analysis.SpecialFunctions.Sqrt
/-!
# Model of the blocking rectangles and of the soft blocking mask
(`artist/raytracing/blocking.py` 13-354)
-/
namespace Artist.SoftMask
open Artist

noncomputable section

/-- `torch.sigmoid`.  As used in `blocking.py` 308-343. -/
def sigmoid (x : ℝ) : ℝ := 1 / (1 + Real.exp (-x))

/-- One blocking rectangle: corner 0, the two spans and the normal. -/
structure Rect where
  corner : V3 ℝ
  spanU : V3 ℝ
  spanV : V3 ℝ
  normal : V3 ℝ

/-- `denominator_safe` (`blocking.py` 298-303). -/
def safeDenominator (eps : ℝ) (x : ℝ) : ℝ := if |x| < eps then (if 0 ≤ x then eps else -eps) else x

/-- `distances_to_blocking_planes` (`blocking.py` 298-307). -/
def planeDistance (eps : ℝ) (origin dir : V3 ℝ) (r : Rect) : ℝ :=
  V3.dot (r.corner - origin) r.normal / safeDenominator eps (V3.dot dir r.normal)

/-- `det` (`blocking.py` 318-323). -/
def gram (r : Rect) : ℝ := V3.dot r.spanU r.spanU * V3.dot r.spanV r.spanV - V3.dot r.spanU r.spanV * V3.dot r.spanU r.spanV

/-- `det_safe` (`blocking.py` 324): `sign(det) * eps` for a tiny determinant, so it is zero if `det` is zero. -/
def safeDet (eps : ℝ) (det : ℝ) : ℝ := if |det| < eps then (SignType.sign det : ℝ) * eps else det

/-- The intersection's coordinates along the two spans (`blocking.py` 312-330). -/
def planeCoordinates (eps : ℝ) (origin dir : V3 ℝ) (r : Rect) : ℝ × ℝ :=
  let d := planeDistance eps origin dir r
  let offset := (origin + d • dir) - r.corner
  let pu := V3.dot offset r.spanU
  let pv := V3.dot offset r.spanV
  let uu := V3.dot r.spanU r.spanU
  let vv := V3.dot r.spanV r.spanV
  let uv := V3.dot r.spanU r.spanV
  ((pu * vv - pv * uv) / safeDet eps (gram r), (pv * uu - pu * uv) / safeDet eps (gram r))

/-- `sigma` of one ray and one rectangle (`blocking.py` 308-310, 338-348).  `none` stands for NaN: if the spans are
linearly dependent, `det_safe` is zero and (in exact arithmetic) both numerators are zero too, so `0 / 0` arises. -/
def sigma (eps softness offset : ℝ) (origin dir : V3 ℝ) (r : Rect) : Option ℝ :=
  if safeDet eps (gram r) = 0 then none
  else
    let d := planeDistance eps origin dir r
    let uv := planeCoordinates eps origin dir r
    let front := sigmoid (softness * (d - offset))
    let insideU := sigmoid (softness * uv.1) * sigmoid (softness * (1 - uv.1))
    let insideV := sigmoid (softness * uv.2) * sigmoid (softness * (1 - uv.2))
    some (min (max (insideU * insideV * front) 0) 1)

/-- `soft_ray_blocking_mask` for one ray and a list of rectangles (`blocking.py` 212-354). NaN (`none`) of one
rectangle makes the sum NaN. -/
def softMask (eps softness alpha offset : ℝ) (origin dir : V3 ℝ) (rects : List Rect) : Option ℝ :=
  match rects.mapM (sigma eps softness offset origin dir) with
  | none => none
  | some sigmas => some (1 - Real.exp (-(alpha * sigmas.sum)))

/-- Intensity of a ray after blocking (`artist/raytracing/heliostat_ray_tracer.py` 482-487). -/
def intensity (angleReduced blocked extinction reflectivity : ℝ) : ℝ :=
  angleReduced * (1 - blocked) * (1 - extinction) * reflectivity

/-! ## Rectangles from surface points -/

/-- `torch.nn.functional.normalize(v, dim=-1)`: division by `max(norm, 1e-12)`. -/
def normalize (v : V3 ℝ) : V3 ℝ :=
  let l := max (Real.sqrt (V3.dot v v)) (1 / 10 ^ 12)
  ⟨v.e / l, v.n / l, v.u / l⟩

/-- Spans and normal from the four corners (`blocking.py` 105-118 and 195-207). -/
def rectOfCorners (c0 c1 c2 c3 : V3 ℝ) : Rect :=
  let _ := c2
  { corner := c0, spanU := c1 - c0, spanV := c3 - c0, normal := normalize (V3.cross (c1 - c0) (c3 - c0)) }

/-- The four indices (corner 0, 1, 2, 3) used by `create_blocking_primitives_rectangles_by_index`
(`blocking.py` 176-193) for `n` surface points; `int` truncates (all values are non-negative for `n ≥ 4`). -/
def cornerIndices (n : Nat) : Nat × Nat × Nat × Nat :=
  (⌊(n : ℝ) / 2⌋₊, ⌊Real.sqrt ((n : ℝ) / 4) - 1⌋₊, ⌊(n : ℝ) / 2 - 1⌋₊, ⌊(n : ℝ) - Real.sqrt ((n : ℝ) / 4)⌋₊)

/-- `create_blocking_primitives_rectangles_by_index` for one surface (`blocking.py` 123-209); an index outside the
surface raises `IndexError`. -/
def rectByIndex (points : List (V3 ℝ)) : Except PyErr Rect :=
  let idx := cornerIndices points.length
  match points[idx.1]?, points[idx.2.1]?, points[idx.2.2.1]?, points[idx.2.2.2]? with
  | some c0, some c1, some c2, some c3 => .ok (rectOfCorners c0 c1 c2 c3)
  | _, _, _, _ => .error .indexError

/-! ## Rectangles from the bounding rectangle of the unaligned surface -/

/-- `argmin` of a non-empty list: the first position of the smallest value.  As used in `blocking.py` 98. -/
def argminAux (f : V3 ℝ → ℝ) : List (V3 ℝ) → Nat → Nat × ℝ → Nat
  | [], _, best => best.1
  | p :: ps, i, best => argminAux f ps (i + 1) (if f p < best.2 then (i, f p) else best)

/-- The surface point closest to the east-north position `(e, n)` (`blocking.py` 92-98).  The distance is squared here; the
square root is monotone, so the `argmin` is the same.  `torch.argmin` does not fix the result for ties; the model takes the
first. -/
def closestIndex (points : List (V3 ℝ)) (e n : ℝ) : Nat :=
  match points with
  | [] => 0
  | p :: ps =>
    let f := fun q : V3 ℝ => (q.e - e) ^ 2 + (q.n - n) ^ 2
    argminAux f ps 1 (0, f p)

/-- smallest / largest coordinate of a surface (`blocking.py` 70-75) -/
def minOf (f : V3 ℝ → ℝ) : List (V3 ℝ) → ℝ
  | [] => 0
  | p :: ps => ps.foldl (fun a q => min a (f q)) (f p)

/-- see `minOf`.  As used in `blocking.py` 72-75. -/
def maxOf (f : V3 ℝ → ℝ) : List (V3 ℝ) → ℝ
  | [] => 0
  | p :: ps => ps.foldl (fun a q => max a (f q)) (f p)

/-- indices of the four corners (`blocking.py` 70-98) -/
def boundingCorners (points : List (V3 ℝ)) : Nat × Nat × Nat × Nat :=
  let minE := minOf V3.e points
  let maxE := maxOf V3.e points
  let minN := minOf V3.n points
  let maxN := maxOf V3.n points
  (closestIndex points minE minN, closestIndex points minE maxN, closestIndex points maxE maxN, closestIndex points maxE minN)

/-- `create_blocking_primitives_rectangle` for one surface (`blocking.py` 13-120): the indices come from the unaligned points,
the corners from the aligned ones.  An empty surface makes `min` raise `RuntimeError`. -/
def rectByBounds (points active : List (V3 ℝ)) : Except PyErr Rect :=
  if points.isEmpty then .error .runtimeError
  else
    let idx := boundingCorners points
    match active[idx.1]?, active[idx.2.1]?, active[idx.2.2.1]?, active[idx.2.2.2]? with
    | some c0, some c1, some c2, some c3 => .ok (rectOfCorners c0 c1 c2 c3)
    | _, _, _, _ => .error .indexError

/-! ## One batch of rays with blocking -/

/-- A ray of the batch together with its rectangle-independent data.  Source: `blocking.py` 289-315. -/
abbrev BRay := LBVH.Ray ℝ

/-- `blocked` of every ray of a batch (`heliostat_ray_tracer.py` 435-480): the filter is run once for all rays of the
batch; the rectangles it returns are applied to every ray.  `filter` is the result of
`lbvh_filter_blocking_planes` on the batch. -/
def blockedOfBatch (filter : List BRay → List Nat) (rects : List Rect) (batch : List BRay) : List (Option ℝ) :=
  let selected := (filter batch).filterMap (fun i => rects[i]?)
  if selected.isEmpty then batch.map (fun _ => some 0)
  else batch.map (fun ray => softMask (1 / 10 ^ 12) 1000 100 (5 / 100) ray.origin ray.dir selected)

end
end Artist.SoftMask
