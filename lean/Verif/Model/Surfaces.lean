import Verif.Model.Nurbs
/-!
# Model of loading, fitting and updating heliostat surfaces

`artist/field/surface.py` 61-121, `artist/field/heliostat_field.py` 266-348 and 437-503, `artist/scenario/surface_generator.py`
320-430, `artist/nurbs/surfaces.py` 674-689.  One heliostat; the code repeats the computation for every heliostat of a group, with the
degrees of the group (which degrees these are is modelled in `Field.lean`).
-/
namespace Artist.Surfaces
open Artist Nurbs Transforms

/-- A facet of a surface configuration (`FacetConfig`): control points, translation, east and north canting vector.  Source: `config.py` 424-492. -/
structure Facet where
  net : Net ℝ
  translation : H ℝ
  cantE : H ℝ
  cantN : H ℝ

/-- Surface point and surface normal.  Source: `surface.py` 100-121. -/
abbrev Sample := H ℝ × H ℝ

/-- Canting and translation of one point and its normal (`surfaces.py` 674-687). -/
noncomputable def place (f : Facet) (s : Sample) : Sample :=
  (performCanting f.cantE f.cantN s.1 + f.translation, performCanting f.cantE f.cantN s.2)

/-- `calculate_surface_points_and_normals` (`surfaces.py` 475-689) for one facet at one evaluation point; `placed` tells whether
`canting` is not `None`. -/
noncomputable def sampleAt (p q : Nat) (placed : Bool) (f : Facet) (xy : ℝ × ℝ) : Except PyErr Sample :=
  match evaluate f.net p q xy.1 xy.2 with
  | .error e => .error e
  | .ok (pt, cr) => .ok (if placed then place f (pt, unitNormal cr) else (pt, unitNormal cr))

/-- All evaluation points of all facets, facet by facet (the reshape of `heliostat_field.py` 390-401 and 494-503). -/
noncomputable def sampleAll (p q : Nat) (placed : Bool) (grid : List (ℝ × ℝ)) (facets : List Facet) : Except PyErr (List Sample) :=
  (facets.flatMap fun f => grid.map fun xy => (f, xy)).mapM fun a => sampleAt p q placed a.1 a.2

/-- `torch.all(control_points[..., 2] == 0)` (`surface.py` 99) over the facets of one heliostat. -/
def Flat (facets : List Facet) : Prop :=
  ∀ f ∈ facets, ∀ i j, i < f.net.nu → j < f.net.nv → f.net.at' i j 2 = 0

/-- What a heliostat group keeps of a heliostat's surface.  Source: `heliostat_field.py` 266-348. -/
structure Loaded where
  facets : List Facet
  samples : List Sample

/-- the offset of the evaluation points from the border (`utils.py` 9) -/
noncomputable def gridEps : ℝ := 1 / 10 ^ 7

open Classical in
/-- `Surface.get_surface_points_and_normals` (`surface.py` 61-121). -/
noncomputable def surfaceSamples (p q ne nn : Nat) (facets : List Facet) : Except PyErr (List Sample) :=
  sampleAll p q (decide (Flat facets)) (evaluationGrid ne nn gridEps) facets

/-- Euclidean norm of a canting vector (`utils.py` 108), four components. -/
noncomputable def norm4 (v : H ℝ) : ℝ := Real.sqrt (v 0 ^ 2 + v 1 ^ 2 + v 2 ^ 2 + v 3 ^ 2)

/-- `create_planar_nurbs_control_points` (`utils.py` 52-121) for a facet. -/
noncomputable def flatten (nu nv : Nat) (f : Facet) : Facet :=
  { f with net := planarNet nu nv (norm4 f.cantE) (norm4 f.cantN) }

/-- The control points kept (`heliostat_field.py` 293-308). -/
noncomputable def kept (change : Option (Nat × Nat)) (facets : List Facet) : List Facet :=
  match change with
  | none => facets
  | some c => facets.map (flatten c.1 c.2)

/-- The surface part of `HeliostatField.from_hdf5` (`heliostat_field.py` 266-348) for one heliostat: the samples come from the
configuration, the control points may be replaced (`change`).  Stacking no facets raises. -/
noncomputable def load (p q ne nn : Nat) (change : Option (Nat × Nat)) (facets : List Facet) : Except PyErr Loaded :=
  if facets = [] then .error .runtimeError
  else match surfaceSamples p q ne nn facets with
    | .error e => .error e
    | .ok samples => .ok ⟨kept change facets, samples⟩

/-- `HeliostatField.update_surfaces` (`heliostat_field.py` 437-503) for one heliostat.  `int(math.sqrt(a / b))` is the natural square
root of the natural quotient. -/
noncomputable def update (p q : Nat) (h : Loaded) : Except PyErr Loaded :=
  if h.facets.length = 0 then .error .zeroDivision
  else
    let m := Nat.sqrt (h.samples.length / h.facets.length)
    match sampleAll p q true (evaluationGrid m m gridEps) h.facets with
    | .error e => .error e
    | .ok samples => .ok { h with samples := samples }

/-- The facet written by `generate_fitted_surface_config` (`surface_generator.py` 323-372) from a fitted net; `fromPoints` is the fit
method. -/
def fittedFacet (fromPoints : Bool) (f : Facet) : Facet :=
  let t : H ℝ := if fromPoints then 0 else f.translation
  { f with net := ⟨f.net.nu, f.net.nv, fun i j c => f.net.at' i j c + t c.castSucc⟩, translation := t }

/-- The facet written by `generate_ideal_surface_config` (`surface_generator.py` 410-430). -/
noncomputable def idealFacet (nu nv : Nat) (translation cantE cantN : H ℝ) : Facet :=
  ⟨planarNet nu nv (norm4 cantE) (norm4 cantN), translation, cantE, cantN⟩

end Artist.Surfaces
