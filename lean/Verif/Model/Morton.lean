import Verif.Model.Py
import Verif.Model.Vec3
import Mathlib.Algebra.Order.Floor.Ring
/-!
# Model of `expand_bits`, `morton_codes` and `longest_common_prefix`
(`artist/raytracing/blocking.py` 357-510)

int32 tensors are `BitVec 32` (two's complement).
-/
namespace Artist.Morton
open Artist

/-- `expand_bits` on one element (`artist/raytracing/blocking.py` 357-389).  The dtype check is not
modelled (the argument always is int32). -/
def expandBits (x : BitVec 32) : Except PyErr (BitVec 32) :=
  if x.toInt < 0 ∨ x.toInt > 1023 then .error .valueError
  else
    let v := x &&& 0x000003FF#32
    let v := (v ||| (v <<< 16)) &&& 0x030000FF#32
    let v := (v ||| (v <<< 8)) &&& 0x0300F00F#32
    let v := (v ||| (v <<< 4)) &&& 0x030C30C3#32
    let v := (v ||| (v <<< 2)) &&& 0x09249249#32
    .ok v

/-- `n | e | u` with the shifts of `artist/raytracing/blocking.py` 435-443, for the three quantised
coordinates of one point. -/
def interleave (qe qn qu : BitVec 32) : Except PyErr (BitVec 32) :=
  match expandBits qu, expandBits qe, expandBits qn with
  | .ok u, .ok e, .ok n => .ok (((n <<< 2) ||| (e <<< 1)) ||| u)
  | .error x, _, _ => .error x
  | _, .error x, _ => .error x
  | _, _, .error x => .error x

section
variable {K : Type} [Field K] [LinearOrder K] [IsStrictOrderedRing K] [FloorRing K]

/-- minimum of a non-empty list (`Tensor.min(dim=0)`); the head is the first argument -/
def minOf (x : K) (xs : List K) : K := xs.foldl min x

/-- maximum of a non-empty list (`Tensor.max(dim=0)`) -/
def maxOf (x : K) (xs : List K) : K := xs.foldl max x

/-- `.to(torch.int32)`: truncation toward zero (values are far below `2^31`). -/
def truncToInt (x : K) : Int := if 0 ≤ x then ⌊x⌋ else ⌈x⌉

/-- Per-axis minimum, and the largest extent over the three axes plus `epsilon`
(`artist/raytracing/blocking.py` 427-431). -/
def extent (eps : K) (p : V3 K) (ps : List (V3 K)) : V3 K × K :=
  let mins : V3 K := ⟨minOf p.e (ps.map V3.e), minOf p.n (ps.map V3.n), minOf p.u (ps.map V3.u)⟩
  let maxs : V3 K := ⟨maxOf p.e (ps.map V3.e), maxOf p.n (ps.map V3.n), maxOf p.u (ps.map V3.u)⟩
  (mins, max (max (maxs.e - mins.e) (maxs.n - mins.n)) (maxs.u - mins.u) + eps)

/-- `(shifted * (scale / (range + epsilon))).to(int32)` with `scale = 1023` for one coordinate
(`artist/raytracing/blocking.py` 429-433). -/
def quantise (range : K) (mn x : K) : Int := truncToInt ((x - mn) * (1023 / range))

/-- Quantised coordinates of all points (non-empty list `p :: ps`).  Source: `blocking.py` 425-433. -/
def quantised (eps : K) (p : V3 K) (ps : List (V3 K)) : List (V3 Int) :=
  let mr := extent eps p ps
  (p :: ps).map (fun c =>
    ⟨quantise mr.2 mr.1.e c.e, quantise mr.2 mr.1.n c.n, quantise mr.2 mr.1.u c.u⟩)

/-- `morton_codes` (`artist/raytracing/blocking.py` 392-443) of a non-empty list of points. -/
def mortonCodes (eps : K) (p : V3 K) (ps : List (V3 K)) : Except PyErr (List (BitVec 32)) :=
  (quantised eps p ps).mapM (fun q =>
    interleave (BitVec.ofInt 32 q.e) (BitVec.ofInt 32 q.n) (BitVec.ofInt 32 q.u))

end

/-- One pass of the loop `for shift in [16, 8, 4, 2, 1]` (`artist/raytracing/blocking.py` 497-504) on
one element: `(leading_zeros, differing_bits)`.  `>>` on int32 is an arithmetic shift. -/
def clzStep (st : Nat × BitVec 32) (shift : Nat) : Nat × BitVec 32 :=
  let mask := (st.2.sshiftRight (32 - shift)) == 0#32
  (st.1 + (if mask then shift else 0), if mask then st.2 <<< shift else st.2)

/-- `longest_common_prefix` for one pair (`artist/raytracing/blocking.py` 446-510).  `i` is always a valid
index (it enumerates the codes); an out-of-range `j` gives `-1`. -/
def lcp (codes : List (BitVec 32)) (i : Nat) (j : Int) : Int :=
  if 0 ≤ j ∧ j < codes.length then
    let differing := codes.getD i 0#32 ^^^ codes.getD j.toNat 0#32
    let st := if differing = 0#32 then (0, differing) else [16, 8, 4, 2, 1].foldl clzStep (0, differing)
    let msb : Int := if differing = 0#32 then -1 else 31 - st.1
    if st.2 = 0#32 then 30 else (30 - 1) - msb
  else -1

end Artist.Morton
