import Verif.Model.Flatten
/-!
# Model of writing a heliostat list into a scenario file and loading it

`artist/scenario/h5_scenario_generator.py` 108-141, 293-301, `artist/util/config.py` 1005-1017, 1165-1195, 1227-1239, `artist/scenario/scenario.py` 166-259,
`artist/field/heliostat_field.py` 80-435, `artist/io/h5_scenario_parser.py` 36-78, 130-143, 416-446, 488-492, 680-684.

Simplifications: contents of kinematics (`D`), actuators (`P`) and facets (`F`) are opaque and NURBS degrees (`G`) are values; `torch.stack`
(`heliostat_field.py` 368-377) is assumed to find equal shapes (`Model/FieldShapes.lean` does not assume it); reading a dataset gives what was written.
-/
namespace Artist.Field
open Artist

/-- A string as a list of characters; names and types in `h5_scenario_generator.py` 108-163 and `heliostat_field.py` 80-435. -/
abbrev Name := List Char

/-- `constants.py` 86. -/
def rigidBody : Name := "rigid_body".toList
/-- `constants.py` 126. -/
def linear : Name := "linear".toList
/-- `constants.py` 122. -/
def ideal : Name := "ideal".toList

/-- `KinematicsConfig` (`config.py` 722-782): type and everything else. -/
structure Kin (D : Type) where
  type : Name
  data : D
  deriving DecidableEq

/-- `ActuatorConfig` (`config.py` 903-976): type and everything else. -/
structure Act (P : Type) where
  type : Name
  params : P
  deriving DecidableEq

/-- `FacetConfig` (`config.py` 424-491): NURBS degrees and everything else. -/
structure Facet (G F : Type) where
  degrees : G
  data : F
  deriving DecidableEq

/-- `HeliostatConfig` without the name (`config.py` 1106-1163), and what a file contains for one heliostat.  `none` is python's `None` or an absent
HDF5 group; facets and actuators are listed with their keys. -/
structure Entry (G F D P : Type) where
  surface : Option (List (Name × Facet G F))
  kinematics : Option (Kin D)
  actuators : Option (List (Name × Act P))
  deriving DecidableEq

/-- `PrototypeConfig` (`config.py` 1049-1103). -/
structure Prototype (G F D P : Type) where
  surface : List (Name × Facet G F)
  kinematics : Kin D
  actuators : List (Name × Act P)

section
variable {G F D P : Type}

/-- A python set of pairs, as a list without repetitions.  As used in `h5_scenario_generator.py` 108-141. -/
def setAdd {A : Type} [DecidableEq A] (s : List A) (a : A) : List A := if a ∈ s then s else s ++ [a]

/-- `_get_number_of_heliostat_groups` (`h5_scenario_generator.py` 108-141). -/
def numberOfGroups (proto : Prototype G F D P) (heliostats : List (Name × Entry G F D P)) : Nat :=
  (heliostats.foldl (fun groups h =>
    let kinematics := match h.2.kinematics with
      | some k => k.type
      | none => proto.kinematics.type
    let actuators := match h.2.actuators with
      | some l => l
      | none => proto.actuators
    actuators.foldl (fun groups a => setAdd groups (kinematics, a.2.type)) groups) []).length

/-- Alphabetical order on names.  HDF5 compares the bytes of the UTF-8 encoding, which orders like code points. -/
def lexLe : Name → Name → Bool
  | [], _ => true
  | _ :: _, [] => false
  | a :: as, b :: bs => if a.toNat < b.toNat then true else if b.toNat < a.toNat then false else lexLe as bs

/-- Insertion for `h5order`. -/
def insertKey {A : Type} (le : Name → Name → Bool) (x : Name × A) : List (Name × A) → List (Name × A)
  | [] => [x]
  | y :: ys => if le x.1 y.1 then x :: y :: ys else y :: insertKey le x ys

/-- The order in which `h5py` iterates over the members of a group: by name, not by insertion.  `le` is the order on names, `lexLe` in fact. -/
def h5order {A : Type} (le : Name → Name → Bool) (l : List (Name × A)) : List (Name × A) := l.foldr (insertKey le) []

/-- A sub-dictionary `{x.key: ... for x in list}` (`config.py` 529-531, 1014-1017) as found in the file: empty ones do not exist, as flattening drops them (`h5_scenario_generator.py` 187-197, see `C45`). -/
def storedList {A : Type} (le : Name → Name → Bool) (l : List (Name × A)) : Option (List (Name × A)) :=
  match h5order le (Flatten.toDict l) with
  | [] => none
  | x :: xs => some (x :: xs)

/-- One heliostat in the file (`config.py` 1165-1195).  A surface consists of the dictionary of its facets only (`config.py` 520-532). -/
def storedEntry (le : Name → Name → Bool) (e : Entry G F D P) : Entry G F D P :=
  { surface := e.surface.bind (storedList le)
    kinematics := e.kinematics
    actuators := e.actuators.bind (storedList le) }

/-- The heliostats in the file in the order of iteration (`h5_scenario_generator.py` 293-301, `config.py` 1227-1239). -/
def stored (le : Name → Name → Bool) (heliostats : List (Name × Entry G F D P)) : List (Name × Entry G F D P) :=
  h5order le (Flatten.toDict (heliostats.map fun h => (h.1, storedEntry le h.2)))

/-- `kinematics_deviations` (`h5_scenario_parser.py` 130-143): contents and number of actuators. -/
def kinematicsDeviations (k : Kin D) : Except PyErr (D × Nat) :=
  if k.type = rigidBody then .ok (k.data, 2) else .error .valueError

/-- `actuator_parameters` (`h5_scenario_parser.py` 416-446, 488-492, 680-684): the actuators read. -/
def actuatorParameters (type : Name) (number : Nat) (l : List (Name × Act P)) : Except PyErr (List P) :=
  if type = linear ∨ type = ideal then
    if l.length ≠ number then .error .valueError else .ok (l.map fun a => a.2.params)
  else .error .valueError

/-- The loaded prototypes (`scenario.py` 194-240).  Each is optional for `HeliostatField.from_hdf5`. -/
structure Prototypes (G F D P : Type) where
  surface : Option (List (Facet G F))
  kinematics : Option (Kin D)
  actuators : Option (Name × List P)

/-- The part of `Scenario.load_scenario_from_hdf5` (`scenario.py` 166-240) that loads prototypes.  A prototype without facets or actuators is absent
in the file, so indexing raises `KeyError`. -/
def loadPrototypes (le : Name → Name → Bool) (proto : Prototype G F D P) : Except PyErr (Prototypes G F D P) :=
  match storedList le proto.surface with
  | none => .error .keyError
  | some facets =>
    match kinematicsDeviations proto.kinematics with
    | .error e => .error e
    | .ok (_, number) =>
      match storedList le proto.actuators with
      | none => .error .keyError
      | some [] => .error .valueError
      | some ((key, first) :: rest) =>
        if rest.any (fun a => a.2.type ≠ first.type) then .error .valueError
        else
          match actuatorParameters first.type number ((key, first) :: rest) with
          | .error e => .error e
          | .ok params => .ok ⟨some (facets.map (·.2)), some proto.kinematics, some (first.type, params)⟩

/-- The local variables that survive an iteration of the loop over heliostats (`heliostat_field.py` 142-366): `number_of_actuators`, `actuator_type`
and `degrees`; `none` if not yet assigned. -/
structure Locals (G : Type) where
  number : Option Nat
  actuatorType : Option Name
  degrees : Option G

/-- What one iteration appends to the data of its group (`heliostat_field.py` 310-366). -/
structure Loaded (G F D P : Type) where
  name : Name
  kinematicsType : Name
  actuatorType : Name
  kinematics : D
  actuators : List P
  facets : List (Facet G F)
  deriving DecidableEq

/-- Surface part of an iteration (`heliostat_field.py` 147-162). -/
def loadSurface (protos : Prototypes G F D P) (e : Entry G F D P) : Except PyErr (List (Facet G F)) :=
  match e.surface with
  | some l => .ok (l.map (·.2))
  | none => match protos.surface with
    | none => .error .valueError
    | some l => .ok l

/-- Kinematics part of an iteration (`heliostat_field.py` 164-205): type, contents and the new value of `number_of_actuators`, which is kept if the
prototype is used. -/
def loadKinematics (protos : Prototypes G F D P) (e : Entry G F D P) (number : Option Nat) : Except PyErr (Name × D × Option Nat) :=
  match e.kinematics with
  | some k => match kinematicsDeviations k with
    | .error err => .error err
    | .ok (d, n) => .ok (k.type, d, some n)
  | none => match protos.kinematics with
    | none => .error .valueError
    | some k => .ok (k.type, k.data, number)

/-- Actuator part of an iteration (`heliostat_field.py` 207-256): the new value of `actuator_type` and the actuators.  For a kinematics other than the
rigid body `actuator_type` keeps its value. -/
def loadActuators (protos : Prototypes G F D P) (e : Entry G F D P) (kinematicsType : Name) (number : Option Nat) (actuatorType : Option Name) :
    Except PyErr (Name × List P) :=
  match e.actuators with
  | some l =>
    let typeNow : Except PyErr (Option Name) :=
      if kinematicsType = rigidBody then
        match l with
        | [] => .error .indexError
        | first :: rest => if rest.any (fun a => a.2.type ≠ first.2.type) then .error .valueError else .ok (some first.2.type)
      else .ok actuatorType
    match typeNow with
    | .error err => .error err
    | .ok none => .error .unboundLocal
    | .ok (some t) => match number with
      | none => .error .unboundLocal
      | some n => match actuatorParameters t n l with
        | .error err => .error err
        | .ok params => .ok (t, params)
  | none => match protos.actuators with
    | none => .error .valueError
    | some p => .ok p

/-- One iteration of the loop over heliostats (`heliostat_field.py` 142-366).  A surface without facets raises `IndexError` in 269-281. -/
def loadOne (protos : Prototypes G F D P) (s : Locals G) (h : Name × Entry G F D P) : Except PyErr (Locals G × Loaded G F D P) :=
  match loadSurface protos h.2 with
  | .error err => .error err
  | .ok facets => match loadKinematics protos h.2 s.number with
    | .error err => .error err
    | .ok (kinematicsType, data, number) => match loadActuators protos h.2 kinematicsType number s.actuatorType with
      | .error err => .error err
      | .ok (actuatorType, params) => match facets.getLast? with
        | none => .error .indexError
        | some facet => .ok (⟨number, some actuatorType, some facet.degrees⟩, ⟨h.1, kinematicsType, actuatorType, data, params, facets⟩)

/-- The loop over heliostats.  Source: `heliostat_field.py` 142-372. -/
def loadLoop (protos : Prototypes G F D P) : Locals G → List (Name × Entry G F D P) → Except PyErr (Locals G × List (Loaded G F D P))
  | s, [] => .ok (s, [])
  | s, h :: rest => match loadOne protos s h with
    | .error err => .error err
    | .ok (s', x) => match loadLoop protos s' rest with
      | .error err => .error err
      | .ok (s'', xs) => .ok (s'', x :: xs)

/-- The key of a group: `f"{kinematics_type}_{actuator_type}"` (`heliostat_field.py` 310). -/
def groupKey (x : Loaded G F D P) : Name := x.kinematicsType ++ ['_'] ++ x.actuatorType

/-- Grouping (`heliostat_field.py` 310-366): a dictionary from group key to its heliostats in order. -/
def grouped (xs : List (Loaded G F D P)) : List (Name × List (Loaded G F D P)) := xs.foldl (fun d x => dictAppend d (groupKey x) x) []

/-- A heliostat group as constructed (`heliostat_field.py` 379-429): its heliostats and the NURBS degrees of the whole group. -/
structure Group (G F D P : Type) where
  heliostats : List (Loaded G F D P)
  degrees : G

/-- Keys of `heliostat_group_type_mapping` (`type_registry.py` 7-10). -/
def registry : List Name := [rigidBody ++ ['_'] ++ linear, rigidBody ++ ['_'] ++ ideal]

/-- Construction of the groups (`heliostat_field.py` 379-433): unknown group keys raise `KeyError`, unbound `degrees` cannot occur as there is a group. -/
def construct (degrees : Option G) : List (Name × List (Loaded G F D P)) → Except PyErr (List (Group G F D P))
  | [] => .ok []
  | (key, xs) :: rest =>
    if key ∈ registry then match degrees with
      | none => .error .unboundLocal
      | some g => match construct degrees rest with
        | .error err => .error err
        | .ok gs => .ok (⟨xs, g⟩ :: gs)
    else .error .keyError

/-- `HeliostatField.from_hdf5` (`heliostat_field.py` 80-435).  Without heliostats the file has no heliostat entry and indexing raises `KeyError`. -/
def fromHdf5 (protos : Prototypes G F D P) (file : List (Name × Entry G F D P)) : Except PyErr (List (Group G F D P)) :=
  match file with
  | [] => .error .keyError
  | h :: rest => match loadLoop protos ⟨none, none, none⟩ (h :: rest) with
    | .error err => .error err
    | .ok (s, xs) => construct s.degrees (grouped xs)

/-- `Scenario.load_scenario_from_hdf5` (`scenario.py` 166-259) applied to the file written by the generator: only prototypes and heliostats. -/
def loadScenario (le : Name → Name → Bool) (proto : Prototype G F D P) (heliostats : List (Name × Entry G F D P)) :
    Except PyErr (List (Group G F D P)) :=
  match loadPrototypes le proto with
  | .error err => .error err
  | .ok protos => fromHdf5 protos (stored le heliostats)

end

end Artist.Field
