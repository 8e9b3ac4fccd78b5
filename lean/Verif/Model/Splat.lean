import Verif.Model.Py
import Mathlib.Algebra.Order.Field.Basic
import Mathlib.Algebra.Order.Floor.Ring
/-!
# Model of bilinear splatting (`artist/raytracing/heliostat_ray_tracer.py` 610-778)

One heliostat; the batch dimension only repeats it.  Numbers are elements of an ordered field (no rounding).
-/
namespace Artist.Splat
open Artist

/-- One ray: east and up bitmap coordinate and intensity (the flattened inputs, lines 652-654). -/
structure Hit (K : Type) where
  e : K
  u : K
  w : K
  deriving DecidableEq, Repr

section
variable {K : Type} [Field K] [LinearOrder K] [IsStrictOrderedRing K] [FloorRing K]

/-- `.long()` truncates toward zero (lines 674-675). -/
def long (x : K) : Int := if 0 ≤ x then ⌊x⌋ else ⌈x⌉

/-- `intersection_indices_on_target` (lines 723-728). -/
def onTarget (W H : Nat) (h : Hit K) : Bool :=
  decide (0 ≤ long h.e) && decide (long h.e + 1 < W) && decide (0 ≤ long h.u) && decide (long h.u + 1 < H)

/-- `contributions_low_e` / `contributions_low_u` (lines 694, 696). -/
def low (x : K) : K := ((long x : Int) : K) + 1 - x
/-- `contributions_high_e` / `contributions_high_u` (lines 698, 700). -/
def high (x : K) : K := x - ((long x : Int) : K)

/-- Index and value for pixel 1 (lines 706-708, 748, 757, 762); off-target rays get index 0 and value 0. -/
def entry1 (W H : Nat) (h : Hit K) : Int × K :=
  if onTarget W H h then ((long h.u + 1) * W + long h.e, low h.e * high h.u * h.w) else (0, 0)
/-- Index and value for pixel 2 (lines 709-711, 749, 758, 763). -/
def entry2 (W H : Nat) (h : Hit K) : Int × K :=
  if onTarget W H h then ((long h.u + 1) * W + long h.e + 1, high h.e * high h.u * h.w) else (0, 0)
/-- Index and value for pixel 3 (lines 712-714, 750, 759, 764). -/
def entry3 (W H : Nat) (h : Hit K) : Int × K :=
  if onTarget W H h then (long h.u * W + long h.e + 1, high h.e * low h.u * h.w) else (0, 0)
/-- Index and value for pixel 4 (lines 715-717, 751, 760, 765). -/
def entry4 (W H : Nat) (h : Hit K) : Int × K :=
  if onTarget W H h then (long h.u * W + long h.e, low h.e * low h.u * h.w) else (0, 0)

/-- `scatter_add_` on one flat bitmap (lines 767-770): an index outside the bitmap raises `RuntimeError`. -/
def scatterAdd : List K → List (Int × K) → Except PyErr (List K)
  | bm, [] => .ok bm
  | bm, (i, v) :: rest =>
    if 0 ≤ i ∧ i < bm.length then scatterAdd (bm.set i.toNat (bm.getD i.toNat 0 + v)) rest
    else .error .runtimeError

/-- `view(height, width)` of a flat bitmap (lines 772-774). -/
def rows (W H : Nat) (flat : List K) : List (List K) := (List.range H).map (fun r => (flat.drop (r * W)).take W)

/-- `bilinear_splatting` for one heliostat (lines 610-778): four `scatter_add_` passes, then the rows are flipped. -/
def splat (W H : Nat) (rays : List (Hit K)) : Except PyErr (List (List K)) := do
  let b1 ← scatterAdd (List.replicate (H * W) 0) (rays.map (entry1 W H))
  let b2 ← scatterAdd b1 (rays.map (entry2 W H))
  let b3 ← scatterAdd b2 (rays.map (entry3 W H))
  let b4 ← scatterAdd b3 (rays.map (entry4 W H))
  return (rows W H b4).reverse

end
end Artist.Splat
