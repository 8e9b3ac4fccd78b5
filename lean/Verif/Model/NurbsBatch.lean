import Verif.Model.Surfaces
/-!
# Model of the evaluation of many facets at once (`artist/nurbs/surfaces.py`)

`Nurbs.lean` treats one evaluation point of one facet.  Here the surface, facet and point dimensions are present, with the places at which
the code could mix them: the distinct knots are counted over all knot vectors together, evaluation points and canting are broadcast,
control points are gathered by index tensors, translations are reshaped.
-/
namespace Artist.NurbsBatch
open Artist Nurbs Transforms
variable {K : Type} [Field K] [LinearOrder K]

/-- `control_points` of shape `[S, F, nu, nv, 3]` (`surfaces.py` 50-96): surface, facet, position in the net, coordinate -/
structure Controls (K : Type) where
  S : Nat
  F : Nat
  nu : Nat
  nv : Nat
  at' : Nat → Nat → Nat → Nat → Fin 3 → K

/-- `evaluation_points` of shape `[S, F, P, 2]` (`surfaces.py` 475-504) -/
abbrev Points (K : Type) := Tensor3 (K × K)

/-- `knot_vectors` (`surfaces.py` 149-153): the same knot vector for every facet of every surface -/
def knotVectors (n degree : Nat) : Nat → Nat → List K := fun _ _ => uniformKnots n degree

/-- `torch.unique(knot_vectors, dim=2)` (`surfaces.py` 199): the number of distinct columns; a column holds one knot of every facet -/
def uniqueColumns (S F len : Nat) (knots : Nat → Nat → List K) : Nat :=
  ((List.range len).map fun k => (List.range S).flatMap fun s => (List.range F).map fun f => knot (knots s f) k).dedup.length

/-- the uniform branch of `find_spans` (`surfaces.py` 194-207) for one direction; the shape is that of the evaluation points -/
def spans [FloorSemiring K] (S F len degree : Nat) (knots : Nat → Nat → List K) (x : Nat → Nat → Nat → K) : Nat → Nat → Nat → Nat :=
  fun s f p => ⌊x s f p * ((uniqueColumns S F len knots - 1 : Nat) : K)⌋₊ + degree

/-- `_batched_gather_control_points` (`surfaces.py` 419-473): `batch_index` holds the number of the surface, `facet_index` that of the facet;
the indices `iu`, `iv` have the shape `[Se, Fe, P]` and are broadcast against them -/
def gatherControlPoints (c : Controls K) (Se Fe : Nat) (iu iv : Nat → Nat → Nat → Nat) (s f p : Nat) : Fin 3 → K :=
  let batchIndex := s
  let facetIndex := f
  c.at' batchIndex facetIndex (iu (bidx Se s) (bidx Fe f) p) (iv (bidx Se s) (bidx Fe f) p)

/-- `derivatives` at surface `s`, facet `f`, point `p` (`surfaces.py` 524-613): knots are gathered from the knot vectors of the surface and
the facet of the evaluation point, then broadcast (`left[j] = …`, 326-327). -/
def derivativesOf [FloorSemiring K] (c : Controls K) (degU degV : Nat) (e : Points K) (s f p : Nat) : Nat → Nat → H K :=
  let Se := e.shape.1
  let Fe := e.shape.2.1
  let ku := knotVectors c.nu degU
  let kv := knotVectors c.nv degV
  let su := spans c.S c.F (c.nu + degU + 1) degU ku (fun s f p => (e.get s f p).1)
  let sv := spans c.S c.F (c.nv + degV + 1) degV kv (fun s f p => (e.get s f p).2)
  let a := bidx Se s
  let b := bidx Fe f
  let bu := basisDerivatives (ku a b) (su a b p) degU (min 1 degU) (e.get a b p).1
  let bv := basisDerivatives (kv a b) (sv a b p) degV (min 1 degV) (e.get a b p).2
  surfaceDerivative
    (fun i j => weighted (gatherControlPoints c Se Fe (fun a b p => su a b p - degU + i) (fun a b p => sv a b p - degV + j) s f p))
    bu bv 0 0 degU degV

/-- Points and unnormalised normals of all facets (`surfaces.py` 504-646), or the error raised.  Simplified to non-negative parameters.
An empty batch is refused by `torch.unique` (199); evaluation points of another number of surfaces or facets, unless that number is one,
cannot be assigned to `left[j]` (326), or for degrees of zero cannot be used as index (472). -/
def evaluateBatch [FloorSemiring K] (c : Controls K) (degU degV : Nat) (e : Points K) : Except PyErr (Tensor3 (H K × (Fin 3 → K))) :=
  let Se := e.shape.1
  let Fe := e.shape.2.1
  let P := e.shape.2.2
  let su := spans c.S c.F (c.nu + degU + 1) degU (knotVectors c.nu degU) (fun s f p => (e.get s f p).1)
  let sv := spans c.S c.F (c.nv + degV + 1) degV (knotVectors c.nv degV) (fun s f p => (e.get s f p).2)
  if c.S = 0 ∨ c.F = 0 then .error .runtimeError
  else if ¬ ((Se = 1 ∨ Se = c.S) ∧ (Fe = 1 ∨ Fe = c.F)) then .error (if degU = 0 ∧ degV = 0 then .indexError else .runtimeError)
  else if ¬ ∀ s < Se, ∀ f < Fe, ∀ p < P, su s f p + degU < c.nu + degU + 1 ∧ sv s f p + degV < c.nv + degV + 1 then .error .runtimeError
  else if ¬ ∀ s < Se, ∀ f < Fe, ∀ p < P, su s f p < c.nu ∧ sv s f p < c.nv then .error .indexError
  else .ok ⟨(c.S, c.F, P), fun s f p => (pointOf (derivativesOf c degU degV e s f p), crossOf (derivativesOf c degU degV e s f p))⟩

/-- `canting` of shape `[Sc, Fc, 2, 4]` and `facet_translations`, the latter as the list of its rows of four numbers (`surfaces.py` 475-504) -/
structure Placing where
  Sc : Nat
  Fc : Nat
  cantE : Nat → Nat → H ℝ
  cantN : Nat → Nat → H ℝ
  translations : List (H ℝ)

/-- `calculate_surface_points_and_normals` and `forward` (`surfaces.py` 475-727).  `none` stands for `canting=None`.  The canting vectors are
broadcast into the rotation matrices of all facets (`transforms.py` 334-341), the translations are reshaped to `[S, F, 1, 4]` (680-682). -/
noncomputable def forward (c : Controls ℝ) (degU degV : Nat) (e : Points ℝ) (placing : Option Placing) : Except PyErr (Tensor3 Surfaces.Sample) :=
  match evaluateBatch c degU degV e with
  | .error err => .error err
  | .ok t =>
    match placing with
    | none => .ok ⟨t.shape, fun s f p => ((t.get s f p).1, unitNormal (t.get s f p).2)⟩
    | some q =>
      if ¬ ((q.Sc = 1 ∨ q.Sc = c.S) ∧ (q.Fc = 1 ∨ q.Fc = c.F)) then .error .runtimeError
      else if q.translations.length ≠ c.S * c.F then .error .runtimeError
      else .ok ⟨t.shape, fun s f p =>
        let ce := q.cantE (bidx q.Sc s) (bidx q.Fc f)
        let cn := q.cantN (bidx q.Sc s) (bidx q.Fc f)
        (performCanting ce cn (t.get s f p).1 + q.translations.getD (s * c.F + f) 0, performCanting ce cn (unitNormal (t.get s f p).2))⟩

end Artist.NurbsBatch
