import Verif.Model.Rounded
import Verif.Model.LBVH
/-!
# Model of the rounding of float32 arithmetic in the filter for blocking planes

`artist/raytracing/blocking.py` 392-443, 568-573, 752-791 and 898-932.  As in `Verif.Model.Rounded` every operation is followed by rounding.  Minima and
maxima (boxes of primitives and of inner nodes) are not rounded, and everything after the Morton codes and before the ray/box test works on integers,
so the tree and its traversal are those of `Verif.Model.LBVH`.  Overflow to infinity is not modelled; neither is a direction component that
becomes zero when `1e-12` is added (the code would go on with infinity).
-/
namespace Artist.RoundedFilter
open Artist LBVH Morton

noncomputable section
variable (rnd : ℝ → ℝ)

/-- Largest extent over the three axes plus `epsilon`, with rounding (lines 427-431). -/
def extent (eps : ℝ) (p : V3 ℝ) (ps : List (V3 ℝ)) : V3 ℝ × ℝ :=
  let mins : V3 ℝ := ⟨minOf p.e (ps.map V3.e), minOf p.n (ps.map V3.n), minOf p.u (ps.map V3.u)⟩
  let maxs : V3 ℝ := ⟨maxOf p.e (ps.map V3.e), maxOf p.n (ps.map V3.n), maxOf p.u (ps.map V3.u)⟩
  (mins, rnd (max (max (rnd (maxs.e - mins.e)) (rnd (maxs.n - mins.n))) (rnd (maxs.u - mins.u)) + rnd eps))

/-- `(shifted * (scale / (range + epsilon))).to(int32)` for one coordinate, with rounding (lines 429-433). -/
def quantise (range mn x : ℝ) : Int := truncToInt (rnd (rnd (x - mn) * rnd (1023 / range)))

/-- Quantised coordinates of all points, with rounding (lines 425-433). -/
def quantised (eps : ℝ) (p : V3 ℝ) (ps : List (V3 ℝ)) : List (V3 Int) :=
  let mr := extent rnd eps p ps
  (p :: ps).map (fun c =>
    ⟨quantise rnd mr.2 mr.1.e c.e, quantise rnd mr.2 mr.1.n c.n, quantise rnd mr.2 mr.1.u c.u⟩)

/-- `morton_codes` (lines 392-443) of a non-empty list of points, with rounding. -/
def mortonCodes (eps : ℝ) (p : V3 ℝ) (ps : List (V3 ℝ)) : Except PyErr (List (BitVec 32)) :=
  (quantised rnd eps p ps).mapM (fun q =>
    interleave (BitVec.ofInt 32 q.e) (BitVec.ofInt 32 q.n) (BitVec.ofInt 32 q.u))

/-- `1.0 / (ray_directions + 1e-12)` with rounding (line 912). -/
def inverse (d : V3 ℝ) : V3 ℝ :=
  ⟨rnd (1 / rnd (d.e + rnd (1 / 10 ^ 12))), rnd (1 / rnd (d.n + rnd (1 / 10 ^ 12))), rnd (1 / rnd (d.u + rnd (1 / 10 ^ 12)))⟩

/-- `ray_aabb_intersect` (lines 752-791) for one ray and box, with rounding. -/
def rayAabb (origin inv : V3 ℝ) (b : Box ℝ) : ℝ × ℝ :=
  let mn : V3 ℝ := ⟨rnd (rnd (b.mn.e - origin.e) * inv.e), rnd (rnd (b.mn.n - origin.n) * inv.n), rnd (rnd (b.mn.u - origin.u) * inv.u)⟩
  let mx : V3 ℝ := ⟨rnd (rnd (b.mx.e - origin.e) * inv.e), rnd (rnd (b.mx.n - origin.n) * inv.n), rnd (rnd (b.mx.u - origin.u) * inv.u)⟩
  let lo := V3.map₂ min mn mx
  let hi := V3.map₂ max mn mx
  (max (max lo.e lo.n) lo.u, min (min hi.e hi.n) hi.u)

/-- `mask_hit` (lines 912, 922-932), with rounding. -/
def hits (ray : Ray ℝ) (b : Box ℝ) : Bool :=
  let t := rayAabb rnd ray.origin (inverse rnd ray.dir) b
  decide (t.2 ≥ t.1) && decide (t.2 > rnd (1 / 10 ^ 6)) && decide (t.1 ≤ ray.targetDistance)

/-- `lbvh_filter_blocking_planes` (lines 831-995) with rounding.  The centres (line 570, `mean` over the four corners) are an argument, because torch leaves
the order of that sum open: the theorems hold whatever their rounding. -/
def lbvhFilter (centres : List (V3 ℝ)) (corners : List (V3 ℝ × V3 ℝ × V3 ℝ × V3 ℝ)) (rays : List (Ray ℝ)) (fuel : Nat) :
    Option (Except PyErr (List Nat)) :=
  match centres with
  | [] => if fuel = 0 then none else some (.error .indexError)
  | c :: cs =>
    match mortonCodes rnd (1 / 10 ^ 6) c cs with
    | .error e => some (.error e)
    | .ok codes => filterWith (hits rnd) codes (corners.map cornerBox) rays fuel
end

end Artist.RoundedFilter
