import Mathlib.Algebra.Order.Floor.Semiring
import Mathlib.Algebra.Order.Field.Basic
import Mathlib.Algebra.Order.Ring.Abs
import Mathlib.Algebra.Module.Pi
import Mathlib.Data.Fin.VecNotation
import Verif.Model.Py
import Verif.Model.Transforms
/-!
# Model of `artist/nurbs/surfaces.py` and `artist/nurbs/utils.py`

Everything in `surfaces.py` is computed element-wise over the surface, facet and evaluation point dimensions (the
single exception, the non-uniform branch of `find_spans`, is modelled with these dimensions below).  The model therefore
treats one evaluation point of one facet.  Parameters and coordinates are elements of a linearly ordered field `K`.
A zero-initialised two-dimensional tensor or list of lists is a function `Nat → Nat → K`, written with `set2`.
-/
namespace Artist.Nurbs
variable {K : Type} [Field K] [LinearOrder K]

/-- `torch.linspace(start, end, steps)[k]`: `steps = 1` gives `start`. -/
def linspace (start stop : K) (steps k : Nat) : K :=
  start + (stop - start) * (k : K) / ((steps - 1 : Nat) : K)

/-- `calculate_uniform_knot_vectors` (`surfaces.py` 98-155) for one facet, entry by entry, the three slice assignments
142-147 applied in order (the last one wins).  For degree zero the slice `[-0:]` is the whole vector. -/
def uniformKnots (n degree : Nat) : List K :=
  (List.range (n + degree + 1)).map fun i =>
    if degree = 0 then 1
    else if n + degree + 1 ≤ i + degree then 1
    else if degree ≤ i then linspace 0 1 (n + degree + 1 - degree - degree) (i - degree)
    else 0

/-- entry of a knot vector; every use below is preceded by a range check or stays in range.  As used in `nurbs/surfaces.py` 216-217, 236 and 326-327. -/
def knot (knots : List K) (i : Nat) : K := knots.getD i 0

section spans
variable [FloorSemiring K]

/-- the uniform branch of `find_spans` (`surfaces.py` 198-207); `torch.unique` keeps one column per distinct knot.
Simplified to non-negative parameters (`Nat.floor`). -/
def findSpanUniform (knots : List K) (degree : Nat) (x : K) : Nat :=
  ⌊x * ((knots.dedup.length - 1 : Nat) : K)⌋₊ + degree

end spans

/-- `torch.isclose(a, b, atol=1e-5, rtol=1e-5)` -/
def isClose (a b : K) : Prop := |a - b| ≤ 1 / 100000 + 1 / 100000 * |b|

instance (a b : K) : Decidable (isClose a b) := inferInstanceAs (Decidable (_ ≤ _))

/-- `in_span.int().argmax(dim=-1)` (`surfaces.py` 214-240): the index of the first knot interval of
`range(degree, number_of_knots)` that contains `x`, zero when there is none -/
def firstInSpan (knots : List K) (degree number : Nat) (x : K) : Nat :=
  let flags := (List.range' degree (number - degree)).map
    fun k => decide (knot knots k ≤ x ∧ x < knot knots (k + 1))
  if flags.findIdx id < flags.length then flags.findIdx id else 0

/-- the non-uniform branch of `find_spans` for one evaluation point, given the knot value `lastKnot` the point is
compared with (`surfaces.py` 210-243) -/
def spanNonUniform (knots : List K) (degree : Nat) (lastKnot x : K) : Nat :=
  let number := knots.length - degree - 1
  if isClose x lastKnot then number - 1 else firstInSpan knots degree number x + degree

/-- two dimensions are compatible under broadcasting.  As used in `nurbs/surfaces.py` 229-239. -/
def compatible (a b : Nat) : Prop := a = b ∨ a = 1 ∨ b = 1

instance (a b : Nat) : Decidable (compatible a b) := inferInstanceAs (Decidable (_ ∨ _))

/-- index into a dimension of size `size` after broadcasting.  As used in `nurbs/surfaces.py` 229-243. -/
def bidx (size i : Nat) : Nat := if size = 1 then 0 else i

/-- The non-uniform branch of `find_spans` (`surfaces.py` 209-243) for all surfaces `S`, facets `F` and points `P`.
`torch.isclose` compares the points of shape `[S, F, P]` with the last knots of shape `[S, F]`: broadcasting aligns the
trailing dimensions, so `F` meets `P` and `S` meets `F`.  `torch.where` broadcasts the result with the spans `[S, F, P]`.
All knot vectors have the same length `len`. -/
def findSpansNonUniform (S F P len degree : Nat) (knots : Nat → Nat → List K) (x : Nat → Nat → Nat → K) :
    Except PyErr (Transforms.Tensor3 Nat) :=
  if len - degree - 1 ≤ degree then .error .runtimeError
  else if compatible F P ∧ compatible S F then
    let P' := max F P
    let F' := max S F
    .ok ⟨(S, F', P'), fun s f p =>
      let sf := bidx F f
      let sp := bidx P p
      let last := knot (knots (bidx S f) (bidx F p)) (len - degree - 1)
      spanNonUniform (knots s sf) degree last (x s sf sp)⟩
  else .error .runtimeError

/-- assignment to one entry of a two-dimensional array.  As used in `nurbs/surfaces.py` 337-342, 358, 390-406. -/
def set2 (f : Nat → Nat → K) (i j : Nat) (v : K) : Nat → Nat → K :=
  fun a b => if a = i ∧ b = j then v else f a b

/-- `left[j]` (`surfaces.py` 326); `left` and `right` are only read at indices already written -/
def left (knots : List K) (span : Nat) (x : K) (j : Nat) : K := x - knot knots (span + 1 - j)

/-- `right[j]` (`surfaces.py` 327) -/
def right (knots : List K) (span : Nat) (x : K) (j : Nat) : K := knot knots (span + j) - x

/-- body of the loop over `r` (`surfaces.py` 336-341); state: `ndu` and `saved` -/
def nduInner (l rt : Nat → K) (j : Nat) (st : (Nat → Nat → K) × K) (r : Nat) : (Nat → Nat → K) × K :=
  let ndu := set2 st.1 j r (rt (r + 1) + l (j - r))
  let tmp := ndu r (j - 1) / ndu j r
  (set2 ndu r j (st.2 + rt (r + 1) * tmp), l (j - r) * tmp)

/-- body of the loop over `j` (`surfaces.py` 325-342) -/
def nduColumn (l rt : Nat → K) (ndu : Nat → Nat → K) (j : Nat) : Nat → Nat → K :=
  let st := (List.range j).foldl (nduInner l rt j) (ndu, 0)
  set2 st.1 j j st.2

/-- `ndu` after the first phase of `basis_functions_and_derivatives` (`surfaces.py` 291-342) -/
def nduTable (l rt : Nat → K) (degree : Nat) : Nat → Nat → K :=
  (List.range' 1 degree).foldl (nduColumn l rt) (set2 (fun _ _ => 0) 0 0 1)

/-- state of the loop over `k`: the rows `a`, the row numbers `s1` and `s2`, and the results `derivatives[k][r]` -/
structure DState (K : Type) where
  a : Nat → Nat → K
  s1 : Nat
  s2 : Nat
  out : Nat → K

/-- body of the loop over `k` (`surfaces.py` 378-410).  `rk` and `pk` are integers; they are used as indices only where they are not
negative, so `pk` is cut off at zero here and the comparisons with it are written as `r + k ≤ degree`. -/
def derivStep (ndu : Nat → Nat → K) (degree r : Nat) (st : DState K) (k : Nat) : DState K :=
  let rk : Int := (r : Int) - k
  let pk := degree - k
  let (a, d) :=
    if k ≤ r then
      let v := st.a st.s1 0 / ndu (pk + 1) rk.toNat
      (set2 st.a st.s2 0 v, v * ndu rk.toNat pk)
    else (st.a, 0)
  let j1 : Nat := if -1 ≤ rk then 1 else (-rk).toNat
  let j2 : Nat := if r + k ≤ degree + 1 then k - 1 else degree - r
  let (a, d) := (List.range' j1 (j2 + 1 - j1)).foldl (fun (ad : (Nat → Nat → K) × K) j =>
      let v := (ad.1 st.s1 j - ad.1 st.s1 (j - 1)) / ndu (pk + 1) (rk + j).toNat
      (set2 ad.1 st.s2 j v, ad.2 + v * ndu (rk + j).toNat pk)) (a, d)
  let (a, d) :=
    if r + k ≤ degree then
      let v := -a st.s1 (k - 1) / ndu (pk + 1) r
      (set2 a st.s2 k v, d + v * ndu r pk)
    else (a, d)
  ⟨a, st.s2, st.s1, fun k' => if k' = k then d else st.out k'⟩

/-- body of the loop over `r` (`surfaces.py` 374-410): the rows `a` persist from one `r` to the next -/
def derivRow (ndu : Nat → Nat → K) (degree nth : Nat) (st : (Nat → Nat → K) × (Nat → Nat → K)) (r : Nat) :
    (Nat → Nat → K) × (Nat → Nat → K) :=
  let fin := (List.range' 1 nth).foldl (derivStep ndu degree r)
    ⟨set2 st.1 0 0 1, 0, 1, fun k => if k = 0 then ndu r degree else 0⟩
  (fin.a, fun k r' => if r' = r then fin.out k else st.2 k r')

/-- the factor the `k`-th derivatives are multiplied with (`surfaces.py` 411-415) -/
def derivFactor (degree k : Nat) : Nat :=
  ((List.range' 1 (k - 1)).foldl (fun f i => f * (degree - i)) degree)

/-- `basis_functions_and_derivatives` (`surfaces.py` 247-417) for one evaluation point:
`derivatives[k][j]` for `k ≤ nth` and `j ≤ degree` -/
def basisDerivatives (knots : List K) (span degree nth : Nat) (x : K) : Nat → Nat → K :=
  let ndu := nduTable (left knots span x) (right knots span x) degree
  let raw := ((List.range (degree + 1)).foldl (derivRow ndu degree nth) (fun _ _ => 0, fun _ _ => 0)).2
  fun k j => if k = 0 then raw 0 j else raw k j * (derivFactor degree k : K)

/-- homogeneous coordinates.  Source: `nurbs/surfaces.py` 605-646. -/
abbrev H (K : Type) := Fin 4 → K

/-- a control point with the weight one appended (`surfaces.py` 524-537) -/
def weighted (p : Fin 3 → K) : H K := ![p 0, p 1, p 2, 1]

/-- `temp[s]` (`surfaces.py` 580-605): the sum over the `u` direction -/
def tempSum (cp : Nat → Nat → H K) (bu : Nat → K) (iu iv degU : Nat) : H K :=
  (List.range (degU + 1)).foldl (fun acc r => acc + bu r • cp (iu + r) iv) 0

/-- `derivatives[:, :, :, k, t]` (`surfaces.py` 539-613): orders above the degree and mixed orders stay zero -/
def surfaceDerivative (cp : Nat → Nat → H K) (bu bv : Nat → Nat → K) (iu iv degU degV k t : Nat) : H K :=
  if k ≤ min 1 degU ∧ t ≤ min (1 - k) (min 1 degV) then
    (List.range (degV + 1)).foldl
      (fun acc s => acc + bv t s • tempSum cp (bu k) iu (iv + s) degU) 0
  else 0

/-- Control points of one facet: numbers in the two directions and the points.  Source: `nurbs/surfaces.py` 50-96. -/
structure Net (K : Type) where
  nu : Nat
  nv : Nat
  at' : Nat → Nat → Fin 3 → K

/-- `derivatives` of one evaluation point with given spans (`surfaces.py` 524-613).  A knot outside the knot vector is a `RuntimeError` of
`torch.gather` (326-327), a control point outside the net an `IndexError` (472). -/
def derivativesAt (net : Net K) (knotsU knotsV : List K) (degU degV spanU spanV : Nat) (x y : K) :
    Except PyErr (Nat → Nat → H K) :=
  if ¬ (spanU + degU < knotsU.length ∧ spanV + degV < knotsV.length) then .error .runtimeError
  else if degU ≤ spanU ∧ degV ≤ spanV ∧ spanU < net.nu ∧ spanV < net.nv then
    let bu := basisDerivatives knotsU spanU degU (min 1 degU) x
    let bv := basisDerivatives knotsV spanV degV (min 1 degV) y
    .ok (surfaceDerivative (fun i j => weighted (net.at' i j)) bu bv (spanU - degU) (spanV - degV) degU degV)
  else .error .indexError

/-- the surface point: dehomogenised, one appended (`surfaces.py` 634-657) -/
def pointOf (d : Nat → Nat → H K) : H K :=
  ![d 0 0 0 / d 0 0 3, d 0 0 1 / d 0 0 3, d 0 0 2 / d 0 0 3, 1]

/-- the normal before normalisation (`surfaces.py` 615-632) -/
def crossOf (d : Nat → Nat → H K) : Fin 3 → K :=
  ![d 1 0 1 * d 0 1 2 - d 1 0 2 * d 0 1 1, d 1 0 2 * d 0 1 0 - d 1 0 0 * d 0 1 2,
    d 1 0 0 * d 0 1 1 - d 1 0 1 * d 0 1 0]

/-- The surface point and the unnormalised normal of a facet with uniform knots, without canting
(`calculate_surface_points_and_normals`, `surfaces.py` 475-689). -/
def evaluate [FloorSemiring K] (net : Net K) (degU degV : Nat) (x y : K) : Except PyErr (H K × (Fin 3 → K)) := do
  let ku := uniformKnots net.nu degU
  let kv := uniformKnots net.nv degV
  let d ← derivativesAt net ku kv degU degV (findSpanUniform ku degU x) (findSpanUniform kv degV y) x y
  pure (pointOf d, crossOf d)

/-- `torch.nn.functional.normalize` (default `eps = 1e-12`) of a normal, zero appended (`surfaces.py` 659-672) -/
noncomputable def unitNormal (c : Fin 3 → ℝ) : H ℝ :=
  let l := max (Real.sqrt (c 0 ^ 2 + c 1 ^ 2 + c 2 ^ 2)) (1 / 10 ^ 12)
  ![c 0 / l, c 1 / l, c 2 / l, 0]

/-- `create_nurbs_evaluation_grid` (`utils.py` 7-49) -/
def evaluationGrid (ne nn : Nat) (eps : K) : List (K × K) :=
  ((List.range ne).map (linspace eps (1 - eps) ne)).flatMap fun a =>
    ((List.range nn).map (linspace eps (1 - eps) nn)).map fun b => (a, b)

/-- `create_planar_nurbs_control_points` (`utils.py` 52-121) for one facet with the lengths `de`, `dn` of its canting
vectors -/
def planarNet (nu nv : Nat) (de dn : K) : Net K :=
  ⟨nu, nv, fun i j => ![-de + 2 * de * linspace 0 1 nu i, -dn + 2 * dn * linspace 0 1 nv j, 0]⟩

end Artist.Nurbs
