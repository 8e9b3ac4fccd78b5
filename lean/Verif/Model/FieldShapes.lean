import Verif.Model.Field
/-!
# Model of the shapes of tensors when a heliostat field is loaded

`artist/field/heliostat_field.py` 142-435, `artist/field/surface.py` 43-60.

`Verif.Model.Field` assumes that `torch.stack` finds equal shapes.  Here the two places where it might not are modelled on top of it.  The number of
control points of a facet in both directions is given by `size`.  Simplifications: the other stacked tensors (positions, orientations, deviations,
actuator parameters) have one shape per group key; sampled points have shape `[1, facets, samples, 4]` with `samples` the same for all heliostats.
-/
namespace Artist.Field
open Artist

section
variable {G F D P : Type}

/-- `torch.stack` of tensors of the given shapes: `RuntimeError` if there is none or if they differ.  Used in `surface.py` 54, `heliostat_field.py` 375. -/
def stack {S : Type} [DecidableEq S] : List S → Except PyErr (Nat × S)
  | [] => .error .runtimeError
  | s :: rest => if rest.all (· = s) then .ok (rest.length + 1, s) else .error .runtimeError

/-- `Surface.__init__` (`surface.py` 47-54): the shape of the stacked control points.  No facets: `IndexError` in line 47. -/
def surfaceShape (size : F → Nat × Nat) (facets : List (Facet G F)) : Except PyErr (Nat × Nat × Nat) :=
  match facets with
  | [] => .error .indexError
  | _ :: _ => stack (facets.map fun f => size f.data)

/-- The shape of `control_points` after an iteration (`heliostat_field.py` 269-308): that of the stacked facets, unless another number of control points is
asked for.  The length of canting and translations, and of sampled points, is the first entry. -/
def controlShape (change : Option (Nat × Nat)) (shape : Nat × Nat × Nat) : Nat × Nat × Nat :=
  match change with
  | none => shape
  | some n => (shape.1, n)

/-- The loop over heliostats with the construction of surfaces (`heliostat_field.py` 142-366, `surface.py` 43-60): what is loaded and the shapes of its control points. -/
def loadLoopShapes (size : F → Nat × Nat) (change : Option (Nat × Nat)) (protos : Prototypes G F D P) :
    Locals G → List (Name × Entry G F D P) → Except PyErr (Locals G × List (Loaded G F D P × (Nat × Nat × Nat)))
  | s, [] => .ok (s, [])
  | s, h :: rest => match loadOne protos s h with
    | .error err => .error err
    | .ok (s', x) => match surfaceShape size x.facets with
      | .error err => .error err
      | .ok shape => match loadLoopShapes size change protos s' rest with
        | .error err => .error err
        | .ok (s'', xs) => .ok (s'', (x, controlShape change shape) :: xs)

/-- The data of all groups with shapes (`heliostat_field.py` 310-366), a dictionary as in `grouped`. -/
def groupedShapes (xs : List (Loaded G F D P × (Nat × Nat × Nat))) : List (Name × List (Loaded G F D P × (Nat × Nat × Nat))) :=
  xs.foldl (fun d x => dictAppend d (groupKey x.1) x) []

/-- Stacking the data of each group (`heliostat_field.py` 368-377).  First come sampled points, canting and translations, which need one number of facets,
then control points. -/
def stackGroups : List (Name × List (Loaded G F D P × (Nat × Nat × Nat))) → Except PyErr Unit
  | [] => .ok ()
  | (_, xs) :: rest => match stack (xs.map fun x => x.2.1) with
    | .error err => .error err
    | .ok _ => match stack (xs.map fun x => x.2) with
      | .error err => .error err
      | .ok _ => stackGroups rest

/-- `HeliostatField.from_hdf5` (`heliostat_field.py` 80-435) with the shapes of tensors. -/
def fromHdf5Shapes (size : F → Nat × Nat) (change : Option (Nat × Nat)) (protos : Prototypes G F D P) (file : List (Name × Entry G F D P)) :
    Except PyErr (List (Group G F D P)) :=
  match file with
  | [] => .error .keyError
  | h :: rest => match loadLoopShapes size change protos ⟨none, none, none⟩ (h :: rest) with
    | .error err => .error err
    | .ok (s, xs) => match stackGroups (groupedShapes xs) with
      | .error err => .error err
      | .ok _ => construct s.degrees ((groupedShapes xs).map fun e => (e.1, e.2.map (·.1)))

/-- `Scenario.load_scenario_from_hdf5` (`scenario.py` 102-259) with the shapes of tensors, `change` its argument `change_number_of_control_points_per_facet`. -/
def loadScenarioShapes (size : F → Nat × Nat) (change : Option (Nat × Nat)) (le : Name → Name → Bool) (proto : Prototype G F D P)
    (heliostats : List (Name × Entry G F D P)) : Except PyErr (List (Group G F D P)) :=
  match loadPrototypes le proto with
  | .error err => .error err
  | .ok protos => fromHdf5Shapes size change protos (stored le heliostats)

end
end Artist.Field
