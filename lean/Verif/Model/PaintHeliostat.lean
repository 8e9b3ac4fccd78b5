import Verif.Model.KinConfig
import Verif.Model.FacetOrder
import Verif.Model.Surfaces
import Verif.Model.Geo
/-!
# Model of the extraction of heliostats from PAINT properties files

`artist/io/paint_scenario_parser.py` 251-471, 545-593, 668-844, `artist/scenario/surface_generator.py` 378-430,
`artist/geometry/coordinates.py` 12-93, 335-390.  Ideal surfaces only (deflectometry is the subject of `Model/Deflectometry.lean`).  Numbers are reals.
The keys under which the file has position, facets, deviations and orientation are defined in another package; these entries are fields here, `none` if
absent.  The keys of the actuators are defined in `artist/util/constants.py` 188-204.
-/
namespace Artist.PaintHeliostat
open Artist Flatten Nurbs

/-- A value in the JSON file.  Read in `paint_scenario_parser.py` 299-300. -/
inductive J where
  | num (x : ℝ)
  | flag (b : Bool)
  | text (t : Key)

/-- One entry of the list of facets.  Source: `paint_scenario_parser.py` 324-342. -/
structure PaintFacet where
  translation : Option (List ℝ)
  cantE : Option (List ℝ)
  cantN : Option (List ℝ)

/-- The translations under the kinematics properties.  Source: `paint_scenario_parser.py` 350-409. -/
structure PaintKinematics where
  firstE : Option ℝ
  firstN : Option ℝ
  firstU : Option ℝ
  secondE : Option ℝ
  secondN : Option ℝ
  secondU : Option ℝ
  concentratorE : Option ℝ
  concentratorN : Option ℝ
  concentratorU : Option ℝ

/-- A heliostat properties file.  Source: `paint_scenario_parser.py` 299-471. -/
structure File where
  position : Option (List ℝ)
  numberOfFacets : Option Int
  facets : Option (List PaintFacet)
  kinematics : PaintKinematics
  orientation : Option (List ℝ)
  actuators : Option (List (List (Key × J)))

/-- `dict[key]`.  As used throughout `paint_scenario_parser.py` 304-453. -/
def need {A : Type} : Option A → Except PyErr A
  | none => .error .keyError
  | some a => .ok a

/-- `convert_wgs84_coordinates_to_local_enu(torch.tensor([position]), plant)` and `convert_3d_points_to_4d_format` (306-317): a missing coordinate
raises `IndexError`, an additional one is rejected by the conversion to four components (`coordinates.py` 37-52). -/
noncomputable def position4 (plant : Geo.Wgs) : List ℝ → Except PyErr (H ℝ)
  | [lat, lon, alt] => let p := Geo.toEnu ⟨lat, lon, alt⟩ plant; .ok ![p.e, p.n, p.u, 1]
  | _ :: _ :: _ :: _ :: _ => .error .valueError
  | _ => .error .indexError

/-- `empty[facet, :] = torch.tensor(list)` (326-346) with the conversion to four components (349-352): a list with one element is broadcast. -/
def row : List ℝ → Except PyErr (H ℝ)
  | [a, b, c] => .ok ![a, b, c, 0]
  | [a] => .ok ![a, a, a, 0]
  | _ => .error .runtimeError

/-- `convert_3d_directions_to_4d_format(torch.tensor(list))` (411-417, `coordinates.py` 78-93). -/
def direction4 : List ℝ → Except PyErr (H ℝ)
  | [a, b, c] => .ok ![a, b, c, 0]
  | _ => .error .valueError

/-- The loop over facets (325-346): translation, canting in east direction, canting in north direction of the first `n` facets. -/
def readFacets : Nat → List PaintFacet → Except PyErr (List (H ℝ × H ℝ × H ℝ))
  | 0, _ => .ok []
  | _ + 1, [] => .error .indexError
  | n + 1, f :: fs => do
    let t ← need f.translation
    let t ← row t
    let e ← need f.cantE
    let e ← row e
    let c ← need f.cantN
    let c ← row c
    let rest ← readFacets n fs
    pure ((t, e, c) :: rest)

/-- `KinematicsDeviations(...)` (354-408); the tilts are not in the file and set to zero. -/
def readDeviations (k : PaintKinematics) : Except PyErr KinConfig.Deviations := do
  let t0 ← need k.firstE
  let t1 ← need k.firstN
  let t2 ← need k.firstU
  let t3 ← need k.secondE
  let t4 ← need k.secondN
  let t5 ← need k.secondU
  let t6 ← need k.concentratorE
  let t7 ← need k.concentratorN
  let t8 ← need k.concentratorU
  pure { firstTranslationE := some t0, firstTranslationN := some t1, firstTranslationU := some t2, firstTiltN := some 0, firstTiltU := some 0,
         secondTranslationE := some t3, secondTranslationN := some t4, secondTranslationU := some t5, secondTiltE := some 0, secondTiltN := some 0,
         concentratorTranslationE := some t6, concentratorTranslationN := some t7, concentratorTranslationU := some t8 }

/-- `torch.tensor(actuator[key])`; a boolean becomes a number (simplification: in the code a boolean tensor, written and read as such).  Source: `paint_scenario_parser.py` 429-444. -/
def number (a : List (Key × J)) (key : String) : Except PyErr ℝ := do
  match ← need (dictGet a key.toList) with
  | .num x => pure x
  | .flag b => pure (if b then 1 else 0)
  | .text _ => .error .typeError

open Classical in
/-- `bool(x)`.  As used in `paint_scenario_parser.py` 751. -/
noncomputable def J.truth : J → Bool
  | .num x => decide (x ≠ 0)
  | .flag b => b
  | .text t => !t.isEmpty

/-- One iteration of the loop over actuators (425-460) and the construction of `ActuatorConfig` (741-763).  Simplification: an actuator type that is
not a text raises here, not when loading. -/
noncomputable def readActuator (index : Nat) (a : List (Key × J)) : Except PyErr KinConfig.ActuatorCfg := do
  let increment ← number a "increment"
  let stroke ← number a "initial_stroke_length"
  let offset ← number a "offset"
  let pivot ← number a "pivot_radius"
  let angle ← number a "initial_angle"
  let type ← need (dictGet a "type_axis".toList)
  let clockwise ← need (dictGet a "clockwise_axis_movement".toList)
  let lo ← number a "min_increment"
  let hi ← number a "max_increment"
  match type with
  | .text type => pure { key := "actuator_".toList ++ Nat.toDigits 10 index, type := type, clockwise := clockwise.truth, minMax := [lo, hi],
                         parameters := some ⟨some increment, some stroke, some offset, some pivot, some angle⟩ }
  | _ => .error .typeError

/-- The loops over actuators (425-460, 738-764). -/
noncomputable def readActuators : Nat → List (List (Key × J)) → Except PyErr (List KinConfig.ActuatorCfg)
  | _, [] => .ok []
  | i, a :: rest => do
    let x ← readActuator i a
    let xs ← readActuators (i + 1) rest
    pure (x :: xs)

/-- A heliostat of the configuration: kinematics, actuators, position, and the facets with their keys.  Source: `paint_scenario_parser.py` 771-780. -/
structure Heliostat where
  config : KinConfig.HeliostatCfg
  facets : List (Key × Surfaces.Facet)

/-- `generate_ideal_surface_config` (`surface_generator.py` 410-430), called by `_ideal_surface_generator` (`paint_scenario_parser.py` 545-593). -/
noncomputable def idealSurface (nu nv : Nat) (facets : List (H ℝ × H ℝ × H ℝ)) : List (Key × Surfaces.Facet) :=
  Field.generatedFrom 0 (facets.map fun f => Surfaces.idealFacet nu nv f.1 f.2.1 f.2.2)

/-- `extract_paint_heliostat_properties` (251-471) and one iteration of `_process_heliostats_from_paths` (709-773); a negative number of facets
makes `torch.empty` raise. -/
noncomputable def heliostat (plant : Geo.Wgs) (nu nv : Nat) (f : File) : Except PyErr Heliostat := do
  let position ← need f.position
  let position ← position4 plant position
  let n ← need f.numberOfFacets
  if n < 0 then .error .runtimeError
  else do
    let facets ← (if n = 0 then .ok [] else do
      let l ← need f.facets
      readFacets n.toNat l)
    let deviations ← readDeviations f.kinematics
    let orientation ← need f.orientation
    let orientation ← direction4 orientation
    let actuators ← need f.actuators
    let actuators ← readActuators 0 actuators
    pure ⟨⟨position, ⟨Field.rigidBody, orientation, some deviations⟩, actuators⟩, idealSurface nu nv facets⟩

/-- The loop of `_process_heliostats_from_paths` (709-773). -/
noncomputable def loop (plant : Geo.Wgs) (nu nv : Nat) : List (Key × File) → Except PyErr (List (Key × Heliostat))
  | [] => .ok []
  | (name, f) :: rest => do
    let h ← heliostat plant nu nv f
    let hs ← loop plant nu nv rest
    pure ((name, h) :: hs)

/-- `_process_heliostats_from_paths` (668-802), as called by `extract_paint_heliostats_ideal_surface` (805-844): the list of heliostats and the
prototype, which consists of variables assigned in the loop. -/
noncomputable def processHeliostats (plant : Geo.Wgs) (nu nv : Nat) (paths : List (Key × File)) : Except PyErr (List (Key × Heliostat) × Heliostat) := do
  let hs ← loop plant nu nv paths
  match hs.getLast? with
  | none => .error .unboundLocal
  | some p => pure (hs, p.2)

end Artist.PaintHeliostat
