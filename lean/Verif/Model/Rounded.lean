import Verif.Model.Splat
import Mathlib.Analysis.SpecialFunctions.Exp
import Mathlib.Data.Int.Log
/-!
# Model of the rounding of float32 arithmetic in splatting and blocking

All tensors of the ray tracer are float32 (torch's default; `artist/raytracing/heliostat_ray_tracer.py` and `artist/raytracing/blocking.py` name no
other type).  The other models compute with exact numbers; here every single operation is followed by rounding to nearest, ties to even.  Numbers
beyond the largest float32 (overflow to infinity) and NaN are not modelled.
-/
namespace Artist.Rounded
open Artist Splat

noncomputable section

/-- The integer nearest to a non-negative number, the even one of two: IEEE 754 `roundTiesToEven`, as used by every float32 operation
in `heliostat_ray_tracer.py` 686-770. -/
def nearestEven (y : ℝ) : Int :=
  if y - ⌊y⌋ < 1 / 2 then ⌊y⌋ else if 1 / 2 < y - ⌊y⌋ then ⌊y⌋ + 1 else if Even ⌊y⌋ then ⌊y⌋ else ⌊y⌋ + 1

/-- Exponent of the last digit of a positive number with `p` binary digits; not below `emin` (subnormal numbers).  As used by every float32 operation
in `heliostat_ray_tracer.py` 686-770. -/
def lastDigit (p : Nat) (emin : Int) (x : ℝ) : Int := max (Int.log 2 x + 1 - p) emin

/-- A non-negative number rounded to `p` binary digits.  As used by every float32 operation in `heliostat_ray_tracer.py` 686-770. -/
def roundPos (p : Nat) (emin : Int) (x : ℝ) : ℝ := nearestEven (x / 2 ^ lastDigit p emin x) * 2 ^ lastDigit p emin x

/-- Rounding of one operation to `p` binary digits; float32 has `p = 24` and `emin = -149`.  As used by every float32 operation in
`heliostat_ray_tracer.py` 686-770. -/
def binary (p : Nat) (emin : Int) (x : ℝ) : ℝ := if 0 ≤ x then roundPos p emin x else -roundPos p emin (-x)

/-- float32.  As used by every operation in `heliostat_ray_tracer.py` 686-770. -/
def float32 : ℝ → ℝ := binary 24 (-149)

section
variable (rnd : ℝ → ℝ)

/-- `contributions_low_e`, `contributions_low_u` (lines 694, 696): the sum is one of integers, which are converted when `x` is subtracted. -/
def low (x : ℝ) : ℝ := rnd (rnd ((long x + 1 : Int) : ℝ) - x)
/-- `contributions_high_e`, `contributions_high_u` (lines 698, 700). -/
def high (x : ℝ) : ℝ := rnd (x - rnd ((long x : Int) : ℝ))

/-- Intensity for one neighbouring pixel (lines 706-717): `a * b * w`, from left to right. -/
def share (a b w : ℝ) : ℝ := rnd (rnd (a * b) * w)

/-- Index and value for pixel 1 (lines 706-708, 748, 757, 762); off-target rays get index 0 and value 0. -/
def entry1 (W H : Nat) (h : Hit ℝ) : Int × ℝ :=
  if onTarget W H h then ((long h.u + 1) * W + long h.e, share rnd (low rnd h.e) (high rnd h.u) h.w) else (0, 0)
/-- Index and value for pixel 2 (lines 709-711, 749, 758, 763). -/
def entry2 (W H : Nat) (h : Hit ℝ) : Int × ℝ :=
  if onTarget W H h then ((long h.u + 1) * W + long h.e + 1, share rnd (high rnd h.e) (high rnd h.u) h.w) else (0, 0)
/-- Index and value for pixel 3 (lines 712-714, 750, 759, 764). -/
def entry3 (W H : Nat) (h : Hit ℝ) : Int × ℝ :=
  if onTarget W H h then (long h.u * W + long h.e + 1, share rnd (high rnd h.e) (low rnd h.u) h.w) else (0, 0)
/-- Index and value for pixel 4 (lines 715-717, 751, 760, 765). -/
def entry4 (W H : Nat) (h : Hit ℝ) : Int × ℝ :=
  if onTarget W H h then (long h.u * W + long h.e, share rnd (low rnd h.e) (low rnd h.u) h.w) else (0, 0)

/-- `scatter_add_` on one flat bitmap (lines 767-770): every addition is rounded; an index outside the bitmap raises `RuntimeError`. -/
def scatterAdd : List ℝ → List (Int × ℝ) → Except PyErr (List ℝ)
  | bm, [] => .ok bm
  | bm, (i, v) :: rest =>
    if 0 ≤ i ∧ i < bm.length then scatterAdd (bm.set i.toNat (rnd (bm.getD i.toNat 0 + v))) rest
    else .error .runtimeError

/-- `bilinear_splatting` for one heliostat (lines 610-778).  `order i` is the order in which the `i`-th `scatter_add_` goes through the rays: the
given one on a CPU, any one on a GPU. -/
def splat (order : Fin 4 → List (Hit ℝ) → List (Hit ℝ)) (W H : Nat) (rays : List (Hit ℝ)) : Except PyErr (List (List ℝ)) := do
  let b1 ← scatterAdd rnd (List.replicate (H * W) 0) ((order 0 rays).map (entry1 rnd W H))
  let b2 ← scatterAdd rnd b1 ((order 1 rays).map (entry2 rnd W H))
  let b3 ← scatterAdd rnd b2 ((order 2 rays).map (entry3 rnd W H))
  let b4 ← scatterAdd rnd b3 ((order 3 rays).map (entry4 rnd W H))
  return (rows W H b4).reverse

/-- The order in which numbers are added up: `torch.sum` is free to choose it.  As used in `artist/raytracing/blocking.py` 350. -/
inductive SumTree
  | zero
  | leaf (x : ℝ)
  | add (a b : SumTree)

/-- Sum in a given order, every addition rounded (`blocking.py` 350). -/
def SumTree.eval : SumTree → ℝ
  | .zero => 0
  | .leaf x => x
  | .add a b => rnd (a.eval + b.eval)

/-- The numbers that are added up.  Source: `blocking.py` 350. -/
def SumTree.leaves : SumTree → List ℝ
  | .zero => []
  | .leaf x => [x]
  | .add a b => a.leaves ++ b.leaves

/-- `blocked` from the values `sigma` of the rectangles (`blocking.py` 350-352): `1 - exp(-(alpha * sum))`.  `exp` is the exponential function of the
library. -/
def blocked (exp : ℝ → ℝ) (alpha : ℝ) (sigmas : SumTree) : ℝ := rnd (1 - exp (-rnd (alpha * sigmas.eval rnd)))

/-- `intensities` (lines 482-487), from left to right.  `extinction` and `reflectivity` are Python floats: `1 - extinction` is computed in double
precision, which is left exact here, and is rounded when it is multiplied with a float32 tensor. -/
def intensity (angleReduced blocked extinction reflectivity : ℝ) : ℝ :=
  rnd (rnd (rnd (angleReduced * rnd (1 - blocked)) * rnd (1 - extinction)) * rnd reflectivity)

end
end
end Artist.Rounded
