import Verif.Model.Field
import Verif.Model.Tower
import Verif.Spec.Flatten
import Mathlib.Data.Real.Basic
import Mathlib.Data.Fin.VecNotation
/-!
# Model of target areas: configuration, file, and loading

`artist/util/config.py` 52-289, `artist/scenario/h5_scenario_generator.py` 165-218, 245-270, `artist/field/tower_target_areas_planar.py` 76-143,
`artist/field/tower_target_areas_cylindrical.py` 104-193, `artist/field/solar_tower.py` 92-127.  Paths in a file are relative to the group of the kind of target
area; reading a dataset gives what was written; numbers are reals (the files are read as 32-bit floats).
-/
namespace Artist.TowerFile
open Artist Flatten

/-- A tensor in a configuration, and what `dataset[()]` gives for it: without dimensions, of shape `[n]`, or of shape `[1, n]`.  Other shapes are not
modelled. -/
inductive Val where
  | scalar (x : ℝ)
  | vec (l : List ℝ)
  | row (l : List ℝ)

/-- `TargetAreaPlanarConfig` (`config.py` 75-103). -/
structure PlanarCfg where
  key : Key
  center : Val
  normal : Val
  planeE : Val
  planeU : Val

/-- `TargetAreaCylindricalConfig` (`config.py` 192-228). -/
structure CylinderCfg where
  key : Key
  radius : Val
  center : Val
  height : Val
  axis : Val
  normal : Val
  opening : Val

/-- A dictionary without dictionaries inside.  Source: `config.py` 105-122 and 230-249. -/
def leafs : List (Key × Val) → Flatten.Tree Val
  | [] => .nil
  | (k, v) :: rest => .leaf k v (leafs rest)

/-- `create_target_area_dict` of planar areas (`config.py` 105-121, keys in `constants.py` 4-10). -/
def planarDict (c : PlanarCfg) : List (Key × Val) :=
  [("position_center".toList, c.center), ("normal_vector".toList, c.normal), ("plane_e".toList, c.planeE), ("plane_u".toList, c.planeU)]

/-- `create_target_area_dict` of cylindrical areas (`config.py` 230-248, keys in `constants.py` 14-24). -/
def cylinderDict (c : CylinderCfg) : List (Key × Val) :=
  [("cylinder_radius".toList, c.radius), ("cylinder_center".toList, c.center), ("cylinder_height".toList, c.height), ("cylinder_axis".toList, c.axis),
    ("cylinder_normal".toList, c.normal), ("cylinder_opening_angle".toList, c.opening)]

/-- A dictionary of dictionaries.  Source: `config.py` 150-163 and 277-290. -/
def nodes : List (Key × List (Key × Val)) → Flatten.Tree Val
  | [] => .nil
  | (k, d) :: rest => .node k (leafs d) (nodes rest)

/-- The datasets of the target areas by path (`h5_scenario_generator.py` 200-301). -/
abbrev File := List (Key × Val)

/-- `create_target_area_list_dict` (`config.py` 150-162, 277-289; of several configurations with the same key the last one counts), flattened and written to its
group (`h5_scenario_generator.py` 165-218, 254-271).  Errors of `h5py` for names with slashes that clash are not modelled. -/
def write (l : List (Key × List (Key × Val))) : File := flatten (nodes (toDict l))

/-- The planar part of `generate_scenario` (`h5_scenario_generator.py` 254-262). -/
def writePlanar (cs : List PlanarCfg) : File := write (cs.map fun c => (c.key, planarDict c))

/-- The cylindrical part of `generate_scenario` (`h5_scenario_generator.py` 263-271). -/
def writeCylinders (cs : List CylinderCfg) : File := write (cs.map fun c => (c.key, cylinderDict c))

/-- `sorted(group.keys())` (`tower_target_areas_planar.py` 114-116, `tower_target_areas_cylindrical.py` 145-147): the first components of all paths in the
group. -/
def memberKeys (f : File) : List Key := (Field.h5order Field.lexLe (toDict (f.map fun x => (x.1.takeWhile (· ≠ '/'), ())))).map (·.1)

/-- `group[name][field]`.  As used in `tower_target_areas_planar.py` 117-136 and `tower_target_areas_cylindrical.py` 148-183. -/
def get (f : File) (key field : Key) : Except PyErr Val :=
  match dictGet f (join [key, field]) with
  | none => .error .keyError
  | some v => .ok v

/-- The four numbers of a list, or one number for all four.  As used in `tower_target_areas_planar.py` 121-130. -/
def four : List ℝ → Except PyErr (Fin 4 → ℝ)
  | [a, b, c, d] => .ok ![a, b, c, d]
  | [a] => .ok fun _ => a
  | _ => .error .runtimeError

/-- `row[index] = tensor` for a row of length 4: broadcasting, other shapes raise `RuntimeError`. -/
def assign4 : Val → Except PyErr (Fin 4 → ℝ)
  | .scalar x => .ok fun _ => x
  | .vec l => four l
  | .row l => four l

/-- `numbers[index] = tensor` for a list of numbers.  As used in `tower_target_areas_cylindrical.py` 145-183. -/
def assign1 : Val → Except PyErr ℝ
  | .scalar x => .ok x
  | .vec [x] => .ok x
  | .row [x] => .ok x
  | _ => .error .runtimeError

/-- `float(array)`.  As used in `tower_target_areas_planar.py` 131-136. -/
def toFloat : Val → Except PyErr ℝ
  | .scalar x => .ok x
  | .vec [x] => .ok x
  | .row [x] => .ok x
  | _ => .error .typeError

/-- What is stored of one planar area: center, normal and dimensions (width, then height).  Source: `tower_target_areas_planar.py` 109-143. -/
structure PlanarArea where
  center : Fin 4 → ℝ
  normal : Fin 4 → ℝ
  width : ℝ
  height : ℝ

/-- What is stored of one cylindrical area.  Source: `tower_target_areas_cylindrical.py` 137-193. -/
structure CylinderArea where
  radius : ℝ
  center : Fin 4 → ℝ
  height : ℝ
  axis : Fin 4 → ℝ
  normal : Fin 4 → ℝ
  opening : ℝ

/-- One iteration of the loop of `TowerTargetAreasPlanar.from_hdf5` (`tower_target_areas_planar.py` 114-136). -/
noncomputable def loadPlanar (f : File) (key : Key) : Except PyErr PlanarArea := do
  let center ← (← get f key "position_center".toList) |> assign4
  let normal ← (← get f key "normal_vector".toList) |> assign4
  let width ← (← get f key "plane_e".toList) |> toFloat
  let height ← (← get f key "plane_u".toList) |> toFloat
  pure ⟨center, normal, width, height⟩

/-- One iteration of the loop of `TowerTargetAreasCylindrical.from_hdf5` (`tower_target_areas_cylindrical.py` 145-183). -/
noncomputable def loadCylinder (f : File) (key : Key) : Except PyErr CylinderArea := do
  let radius ← (← get f key "cylinder_radius".toList) |> assign1
  let center ← (← get f key "cylinder_center".toList) |> assign4
  let height ← (← get f key "cylinder_height".toList) |> assign1
  let axis ← (← get f key "cylinder_axis".toList) |> assign4
  let normal ← (← get f key "cylinder_normal".toList) |> assign4
  let opening ← (← get f key "cylinder_opening_angle".toList) |> assign1
  pure ⟨radius, center, height, axis, normal, opening⟩

/-- A loop over the members of a group: names and rows.  Source: `tower_target_areas_planar.py` 114-136, `tower_target_areas_cylindrical.py` 145-183. -/
def loadAll {A : Type} (load : Key → Except PyErr A) : List Key → Except PyErr (List (Key × A))
  | [] => .ok []
  | k :: ks => do
    let a ← load k
    let rest ← loadAll load ks
    pure ((k, a) :: rest)

/-- `from_hdf5` of either kind: a group without members does not exist in the file (`_include_parameters` creates datasets, and groups only on the way), and
`len(config_file[...])` then raises `KeyError` (`tower_target_areas_planar.py` 107, `tower_target_areas_cylindrical.py` 135). -/
def fromFile {A : Type} (load : File → Key → Except PyErr A) (f : File) : Except PyErr (List (Key × A)) :=
  match f with
  | [] => .error .keyError
  | _ :: _ => loadAll (load f) (memberKeys f)

/-- `SolarTower.from_hdf5` (`solar_tower.py` 92-127) after `generate_scenario`: planar areas, then cylindrical ones. -/
noncomputable def tower (planar : List PlanarCfg) (cylinders : List CylinderCfg) : Except PyErr (List (Key × PlanarArea) × List (Key × CylinderArea)) := do
  let p ← fromFile loadPlanar (writePlanar planar)
  let c ← fromFile loadCylinder (writeCylinders cylinders)
  pure (p, c)

/-- The tower as `Model/Tower` sees it.  Source: `solar_tower.py` 117-127. -/
def planarAreas (p : List (Key × PlanarArea)) : Tower.Areas Key (Tower.Planar ℝ) := ⟨p.map (·.1), p.map fun x => ⟨x.2.center⟩⟩
/-- See `planarAreas`; `solar_tower.py` 120-127. -/
def cylinderAreas (c : List (Key × CylinderArea)) : Tower.Areas Key (Tower.Cylinder ℝ) := ⟨c.map (·.1), c.map fun x => ⟨x.2.center, x.2.normal, x.2.radius⟩⟩

end Artist.TowerFile
