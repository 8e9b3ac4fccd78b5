import Verif.Model.Field
/-!
# Model of the facet check of the scenario generator

`artist/scenario/h5_scenario_generator.py` 57-106, 143-163.  Facet lists are written as dictionaries by facet key (`artist/util/config.py` 520-532) and read in
the order of the file (`artist/io/h5_scenario_parser.py` 36-76): `Field.storedList`.
-/
namespace Artist.Field
open Artist

/-- `_check_equal_facet_numbers` (`h5_scenario_generator.py` 143-163). -/
def checkFacets {G F D P : Type} (proto : Prototype G F D P) : List (Name × Entry G F D P) → Except PyErr Unit
  | [] => .ok ()
  | (_, e) :: rest => match e.surface with
    | none => checkFacets proto rest
    | some l => if l.length ≠ proto.surface.length then .error .valueError else checkFacets proto rest

/-- The check (`h5_scenario_generator.py` 57-106), generation and loading of a scenario. -/
def generateAndLoad {G F D P : Type} (le : Name → Name → Bool) (proto : Prototype G F D P) (hs : List (Name × Entry G F D P)) :
    Except PyErr (List (Group G F D P)) :=
  match checkFacets proto hs with
  | .error e => .error e
  | .ok _ => loadScenario le proto hs

/-- The keys of generated facets (`surface_generator.py` 366, 424): `f"facet_{index + 1}"`. -/
def generatedKey (i : Nat) : Name := "facet_".toList ++ Nat.toDigits 10 (i + 1)

/-- The facet list of `SurfaceGenerator` (`surface_generator.py` 333-376, 422-430). -/
def generatedFrom {A : Type} : Nat → List A → List (Name × A)
  | _, [] => []
  | i, a :: rest => (generatedKey i, a) :: generatedFrom (i + 1) rest

end Artist.Field
