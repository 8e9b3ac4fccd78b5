import Verif.Model.Py
import Mathlib.Algebra.Field.Defs
/-!
# Model of the solar tower's index maps (`artist/field/solar_tower.py`)
-/
namespace Artist.Tower
open Artist

/-- One kind of target areas with `names` and per-area rows; `A` is everything stored for one area (center, normal, radius, ...)
(`artist/field/tower_target_areas.py`).  The tensors have one row per name.  Lines 38-62. -/
structure Areas (N A : Type) where
  names : List N
  rows : List A

/-- `target_name_to_index` (`solar_tower.py` 80-85): later duplicates overwrite earlier ones. -/
def nameToIndexFrom {N : Type} [DecidableEq N] : Nat → List N → List (N × Nat) → List (N × Nat)
  | _, [], d => d
  | idx, name :: rest, d => nameToIndexFrom (idx + 1) rest (dictSet d name idx)

/-- `target_name_to_index` for all target area types.  Source: `solar_tower.py` 80-85. -/
def nameToIndex {N A : Type} [DecidableEq N] (types : List (Areas N A)) : List (N × Nat) :=
  nameToIndexFrom 0 (types.flatMap (·.names)) []

/-- `index_to_target_area` (`solar_tower.py` 87-90): the type is represented by its position in the list of types. -/
def indexToArea {N A : Type} (types : List (Areas N A)) : List (Nat × Nat) :=
  (types.zipIdx).flatMap (fun t => (List.range t.1.names.length).map (fun i => (t.2, i)))

/-- Planar area (`tower_target_areas_planar.py`) as far as `get_centers_of_target_areas` reads it: homogeneous center.  Source: `solar_tower.py` 166-171. -/
structure Planar (K : Type) where
  center : Fin 4 → K
/-- Cylindrical area (`tower_target_areas_cylindrical.py`) as far as `get_centers_of_target_areas` reads it.  Source: `solar_tower.py` 173-186. -/
structure Cylinder (K : Type) where
  center : Fin 4 → K
  normal : Fin 4 → K
  radius : K

/-- `tensor[i]` with a python index: negative indices count from the end, others outside raise `IndexError`.  As used in `solar_tower.py` 171 and 183-185. -/
def pyIndex {α : Type} (l : List α) (i : Int) : Except PyErr α :=
  let j := if i < 0 then i + l.length else i
  if j < 0 then .error .indexError
  else match l[j.toNat]? with
    | some x => .ok x
    | none => .error .indexError

/-- One row of `get_centers_of_target_areas` (`solar_tower.py` 160-188). `numberPlanar` is
`number_of_target_areas_per_type[0]`, the number of planar names. -/
def center {N K : Type} [Field K] (planar : Areas N (Planar K)) (cylinders : Areas N (Cylinder K)) (index : Int) :
    Except PyErr (Fin 4 → K) :=
  if index < planar.names.length then
    match pyIndex planar.rows index with
    | .error e => .error e
    | .ok p => .ok (fun i => if i = 3 then 1 else p.center i)
  else
    match pyIndex cylinders.rows (index - planar.names.length) with
    | .error e => .error e
    | .ok c => .ok (fun i => if i = 3 then 1 else c.center i + c.radius * c.normal i)

/-- The two-type name table built by `SolarTower.from_hdf5` (`solar_tower.py` 117-127): planar first. -/
def towerNames {N K : Type} [DecidableEq N] (planar : Areas N (Planar K)) (cylinders : Areas N (Cylinder K)) : List (N × Nat) :=
  nameToIndex [(⟨planar.names, []⟩ : Areas N Unit), ⟨cylinders.names, []⟩]

/-- The two-type location table.  Source: `solar_tower.py` 87-90 and 125-127. -/
def towerAreas {N K : Type} (planar : Areas N (Planar K)) (cylinders : Areas N (Cylinder K)) : List (Nat × Nat) :=
  indexToArea [(⟨planar.names, []⟩ : Areas N Unit), ⟨cylinders.names, []⟩]

end Artist.Tower
