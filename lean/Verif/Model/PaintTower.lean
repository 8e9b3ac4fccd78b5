import Verif.Model.Flatten
import Verif.Model.Geo
import Verif.Model.Intersect
/-!
# Model of the extraction of target areas from a PAINT tower measurements file

`artist/io/paint_scenario_parser.py` 39-248, 1015-1054.  Numbers are reals.
-/
namespace Artist.PaintTower
open Artist Flatten
noncomputable section

/-- One entry of the JSON file, as far as it is read: the type, the position (power plant) or the named points (target areas) under `"coordinates"`, the
normal vector, and radius and opening angle in degrees of cylinders.  Source: `paint_scenario_parser.py` 73-79, 84-102, 113-135, 147-185. -/
structure Entry where
  type : Option Key := none
  position : Option Geo.Wgs := none
  points : List (Key × Geo.Wgs) := []
  normal : Option (V3 ℝ) := none
  radius : Option ℝ := none
  opening : Option ℝ := none

/-- The dictionary of the file, in the order of the file.  Source: `paint_scenario_parser.py` 70-71. -/
abbrev File := List (Key × Entry)

/-- `dict[key]`.  As used throughout `paint_scenario_parser.py` 73-185. -/
def need {A : Type} : Option A → Except PyErr A
  | none => .error .keyError
  | some a => .ok a

/-- `torch.norm`.  As used in `paint_scenario_parser.py` 200-211. -/
def norm (v : V3 ℝ) : ℝ := √(V3.normSq v)

/-- `corner_points_to_plane` (1015-1054). -/
def cornersToPlane (upperLeft upperRight lowerLeft lowerRight : V3 ℝ) : ℝ × ℝ :=
  ((|upperRight.e - upperLeft.e| + |lowerRight.e - lowerLeft.e|) / 2, (|upperLeft.u - lowerLeft.u| + |upperRight.u - lowerRight.u|) / 2)

/-- `torch.nn.functional.normalize` (default `eps=1e-12`). -/
def normalize (v : V3 ℝ) : V3 ℝ := (1 / max (norm v) (1 / 10 ^ 12)) • v

/-- `axis` (186-191). -/
def cylinderAxis (normal : V3 ℝ) : V3 ℝ := normalize (V3.cross (V3.cross normal ⟨0, 0, 1⟩) normal)

/-- `torch.sqrt(radius**2 - (torch.norm(chord) / 2) ** 2)` (200-205); `none` stands for `NaN`. -/
def distanceToCenter (radius : ℝ) (chord : V3 ℝ) : Option ℝ :=
  if 0 ≤ radius ^ 2 - (norm chord / 2) ^ 2 then some √(radius ^ 2 - (norm chord / 2) ^ 2) else none

/-- The cylinder of four corner points (174-227); `none` if its center and height are `NaN`. -/
def cylinder (upperLeft lowerLeft upperRight lowerRight normal : V3 ℝ) (radius degrees : ℝ) : Option Intersect.Cylinder :=
  match distanceToCenter radius (lowerRight - lowerLeft), distanceToCenter radius (upperRight - upperLeft) with
  | some lower, some upper =>
    let centerLower := (1 / 2 : ℝ) • (lowerLeft + lowerRight) - lower • normal
    let centerUpper := (1 / 2 : ℝ) • (upperLeft + upperRight) - upper • normal
    some { center := (1 / 2 : ℝ) • (centerLower + centerUpper), normal := normal, axis := cylinderAxis normal, radius := radius,
           height := norm (centerLower - centerUpper), opening := Geo.deg2rad degrees }
  | _, _ => none

/-- A planar area (85-145). -/
def planarArea (plant : Geo.Wgs) (e : Entry) : Except PyErr (Intersect.Plane ℝ) := do
  let ul ← need (dictGet e.points "upper_left".toList)
  let ll ← need (dictGet e.points "lower_left".toList)
  let ur ← need (dictGet e.points "upper_right".toList)
  let lr ← need (dictGet e.points "lower_right".toList)
  let c ← need (dictGet e.points "center".toList)
  let n ← need e.normal
  let size := cornersToPlane (Geo.toEnu ul plant) (Geo.toEnu ur plant) (Geo.toEnu ll plant) (Geo.toEnu lr plant)
  pure ⟨Geo.toEnu c plant, n, size.1, size.2⟩

/-- A cylindrical area (147-229): the corners of the area named "receiver" have a prefix. -/
def cylindricalArea (plant : Geo.Wgs) (name : Key) (e : Entry) : Except PyErr (Option Intersect.Cylinder) := do
  let p := if name = "receiver".toList then "receiver_inner_".toList else []
  let ul ← need (dictGet e.points (p ++ "upper_left".toList))
  let ll ← need (dictGet e.points (p ++ "lower_left".toList))
  let ur ← need (dictGet e.points (p ++ "upper_right".toList))
  let lr ← need (dictGet e.points (p ++ "lower_right".toList))
  let r ← need e.radius
  let o ← need e.opening
  let n ← need e.normal
  pure (cylinder (Geo.toEnu ul plant) (Geo.toEnu ll plant) (Geo.toEnu ur plant) (Geo.toEnu lr plant) n r o)

/-- What is extracted: planar and cylindrical areas by name, in the order of the file.  Source: `paint_scenario_parser.py` 231-248. -/
structure Areas where
  planar : List (Key × Intersect.Plane ℝ)
  cylinders : List (Key × Option Intersect.Cylinder)

/-- The loop over the target areas (84-229); areas of another type are skipped. -/
def extractLoop (plant : Geo.Wgs) : File → Except PyErr Areas
  | [] => .ok ⟨[], []⟩
  | (name, e) :: rest => do
    let type ← need e.type
    if type = "planar".toList then
      let a ← planarArea plant e
      let r ← extractLoop plant rest
      pure { r with planar := (name, a) :: r.planar }
    else if type = "convex_cylinder".toList then
      let a ← cylindricalArea plant name e
      let r ← extractLoop plant rest
      pure { r with cylinders := (name, a) :: r.cylinders }
    else extractLoop plant rest

/-- `extract_paint_tower_measurements` (39-248): the power plant is looked up by name, the target areas are all entries but the first. -/
def extract (f : File) : Except PyErr Areas := do
  let plant ← need (dictGet f "power_plant_properties".toList)
  let position ← need plant.position
  extractLoop position f.tail

end
end Artist.PaintTower
