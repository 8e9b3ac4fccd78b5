import Verif.Model.Py
/-!
# Model of the selection of deflectometry data for fitted surfaces

`artist/io/paint_scenario_parser.py` 504-542 (`extract_paint_deflectometry_data`) and 643-665 (`_fitted_surface_generator`),
`artist/scenario/surface_generator.py` 291-353 (`generate_fitted_surface_config` up to the call of `fit_nurbs`).
Vectors with three components are values of a type `V`.  `torch.empty` leaves rows undefined until they are assigned: `none`.
-/
namespace Artist.Deflectometry
open Artist
variable {V : Type}

/-- The two data sets of one facet in the file.  Source: `paint_scenario_parser.py` 520-531. -/
structure Measured (V : Type) where
  points : List V
  normals : List V
  deriving DecidableEq, Repr

/-- `for i, row in enumerate(data): tensor[i, :] = row` (`paint_scenario_parser.py` 533-536), starting at row `i`. -/
def assignRows (tensor : List (Option V)) : Nat → List V → Except PyErr (List (Option V))
  | _, [] => .ok tensor
  | i, row :: rows => if i < tensor.length then assignRows (tensor.set i (some row)) (i + 1) rows else .error .indexError

/-- One iteration of the loop over facets (lines 510-538). -/
def extractFacet (m : Measured V) : Except PyErr (List (Option V) × List (Option V)) :=
  let empty := List.replicate m.points.length none
  match assignRows empty 0 m.points with
  | .error e => .error e
  | .ok points =>
    match assignRows empty 0 m.normals with
    | .error e => .error e
    | .ok normals => .ok (points, normals)

/-- The loop over facets (lines 507-538): facet `f` is the group with the number `f + 1`; `prefix` is `paint_mappings.FACET_KEY`. -/
def extractFrom (pre : String) (file : List (String × Measured V)) : Nat → Nat → Except PyErr (List (List (Option V) × List (Option V)))
  | _, 0 => .ok []
  | f, n + 1 =>
    match dictGet file (pre ++ toString (f + 1)) with
    | none => .error .keyError
    | some m =>
      match extractFacet m with
      | .error e => .error e
      | .ok x =>
        match extractFrom pre file (f + 1) n with
        | .error e => .error e
        | .ok xs => .ok (x :: xs)

/-- `extract_paint_deflectometry_data` (lines 504-542). -/
def extract (pre : String) (file : List (String × Measured V)) (numberOfFacets : Nat) :
    Except PyErr (List (List (Option V) × List (Option V))) := extractFrom pre file 0 numberOfFacets

/-- `min(...)` of a generator; no values raise `ValueError`.  As used in `surface_generator.py` 291-308. -/
def minimum : List Nat → Except PyErr Nat
  | [] => .error .valueError
  | n :: ns => .ok (ns.foldl min n)

/-- `tensor[::step]`.  As used in `surface_generator.py` 316-321. -/
def everyNth {α : Type} (step : Nat) (l : List α) : List α :=
  (List.range ((l.length + step - 1) / step)).filterMap (fun k => l[k * step]?)

/-- Cutting all facets to the smallest number and taking every `step`-th (`surface_generator.py` 293-327), for points or for normals.
`torch` rejects a step of zero with `ValueError`. -/
def reduce {α : Type} (step : Nat) (facets : List (List α)) : Except PyErr (List (List α)) :=
  match minimum (facets.map List.length) with
  | .error e => .error e
  | .ok n => if step = 0 then .error .valueError else .ok (facets.map (fun f => everyNth step (f.take n)))

/-- The data handed to `fit_nurbs`, facet by facet (`surface_generator.py` 291-353).  The normals are indexed with the numbers of the points'
facets. -/
def fitData (step : Nat) (data : List (List (Option V) × List (Option V))) : Except PyErr (List (List (Option V) × List (Option V))) :=
  match reduce step (data.map Prod.fst) with
  | .error e => .error e
  | .ok points =>
    match reduce step (data.map Prod.snd) with
    | .error e => .error e
    | .ok normals => .ok (List.zip points normals)

/-- `_fitted_surface_generator` up to the fits (`paint_scenario_parser.py` 643-665). -/
def fittedData (pre : String) (file : List (String × Measured V)) (numberOfFacets step : Nat) :
    Except PyErr (List (List (Option V) × List (Option V))) :=
  match extract pre file numberOfFacets with
  | .error e => .error e
  | .ok data => fitData step data

end Artist.Deflectometry
