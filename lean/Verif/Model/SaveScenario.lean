import Verif.Model.Flatten
/-!
# Model of saving a scenario (`artist/scenario/h5_scenario_generator.py` 199-301)

The disk is one folder: file names to contents.  An HDF5 file is the list of its datasets, each with the names of the groups it is in and its own.  Not modelled: the attribute
`version`, logging, the folder being absent (`FileNotFoundError`, lines 93-98), and what reading a dataset does to a value (see `LightSources`, `TowerFile`).
-/
namespace Artist.SaveScenario
open Artist Flatten

/-- `pathlib.PurePath.suffix` of a file name, up to Python 3.13: from the last dot on, unless that is the first or the last character.  As used in `h5_scenario_generator.py` 223-233. -/
def suffix (name : List Char) : List Char :=
  let tail := name.reverse.takeWhile (· ≠ '.')
  if tail.length + 1 < name.length ∧ tail ≠ [] then '.' :: tail.reverse else []

/-- `pathlib.PurePath.with_suffix(".h5")` for a file name that is not empty.  As used in `h5_scenario_generator.py` 226 and 233. -/
def withH5 (name : List Char) : List Char := name.take (name.length - (suffix name).length) ++ ".h5".toList

/-- The name of the file that is written (`h5_scenario_generator.py` 223-233). -/
def saveName (name : List Char) : List Char :=
  if suffix name = ".h5".toList then name
  else if suffix name = [] then withH5 name
  else withH5 name

/-- An HDF5 file (`h5_scenario_generator.py` 234). -/
abbrev File (V : Type) := List (List Key × V)

/-- The parts of a text between slashes. -/
def splitSep : List Char → List Key
  | [] => [[]]
  | c :: cs =>
    if c = '/' then [] :: splitSep cs
    else match splitSep cs with
      | [] => [[c]]
      | w :: ws => (c :: w) :: ws

/-- How HDF5 reads a path in `file[path]` (`h5_scenario_generator.py` 218): empty parts and parts `"."` do not count. -/
def components (path : List Char) : List Key := (splitSep path).filter fun k => k ≠ [] ∧ k ≠ ['.']

/-- `file[path] = value` (`h5_scenario_generator.py` 215-218): `None` raises `TypeError`; a path that exists, that leads through a dataset or that names a group raises (h5py's exception depends on
the case and the version, here `ValueError`). -/
def put {V : Type} (f : File V) (path : List Char) (value : Option V) : Except PyErr (File V) :=
  match value with
  | none => .error .typeError
  | some x =>
    let p := components path
    if p = [] ∨ f.any (fun e => e.1.isPrefixOf p || p.isPrefixOf e.1) then .error .valueError else .ok (f ++ [(p, x)])

/-- The assignments one after the other (`h5_scenario_generator.py` 215-218 and 239-301): the file as it is when the last one has been made or one has raised.  The `with` statement (line 234) closes the
file in either case; what was written stays. -/
def putAll {V : Type} (f : File V) : List (List Char × Option V) → File V × Except PyErr Unit
  | [] => (f, .ok ())
  | (path, value) :: rest =>
    match put f path value with
    | .error e => (f, .error e)
    | .ok f' => putAll f' rest

/-- What is put into a scenario: the number of heliostat groups and the dictionaries made from the configurations (`h5_scenario_generator.py` 239-301). -/
structure Config (V : Type) where
  groups : V
  powerPlant : Flatten.Tree (Option V)
  planar : Flatten.Tree (Option V)
  cylindrical : Flatten.Tree (Option V)
  lightSources : Flatten.Tree (Option V)
  prototypes : Flatten.Tree (Option V)
  heliostats : Flatten.Tree (Option V)

/-- `constants.number_of_heliostat_groups` (`constants.py` 214). -/
def numberKey : Key := "number_of_heliostat_groups".toList

/-- The dictionaries with the groups they are written to (`h5_scenario_generator.py` 244-301, `constants.py` 148-158). -/
def sections {V : Type} (c : Config V) : List (Key × Flatten.Tree (Option V)) :=
  [("power_plant".toList, c.powerPlant), ("target_areas_planar".toList, c.planar), ("target_areas_cylindrical".toList, c.cylindrical),
    ("lightsources".toList, c.lightSources), ("prototypes".toList, c.prototypes), ("heliostats".toList, c.heliostats)]

/-- All assignments in order (`h5_scenario_generator.py` 239-301); `f"{prefix}/{key}"` is line 218. -/
def assignments {V : Type} (c : Config V) : List (List Char × Option V) :=
  (numberKey, some c.groups) :: (sections c).flatMap fun s => (flatten s.2).map fun e => (s.1 ++ '/' :: e.1, e.2)

/-- A folder: the scenario files by name. -/
abbrev Disk (V : Type) := List Char → Option (File V)

/-- `generate_scenario` (`h5_scenario_generator.py` 220-301): `h5py.File(save_name, "w")` empties an existing file first. -/
def generate {V : Type} (disk : Disk V) (name : List Char) (c : Config V) : Disk V × Except PyErr Unit :=
  let r := putAll [] (assignments c)
  (fun other => if other = saveName name then some r.1 else disk other, r.2)

end Artist.SaveScenario
