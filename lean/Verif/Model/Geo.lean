import Verif.Model.Vec3
import Mathlib.Analysis.SpecialFunctions.Trigonometric.Basic
import Mathlib.Analysis.SpecialFunctions.Pow.Real
/-!
# Model of sun positions and WGS84 conversion (`artist/geometry/coordinates.py` 252-390)

One sample; real arithmetic (the conversion of inputs to `float32` is not modelled).
-/
namespace Artist.Geo
open Artist
noncomputable section

/-- `torch.deg2rad`, used in `coordinates.py` 296-297 and 366-369. -/
def deg2rad (x : ℝ) : ℝ := x * (Real.pi / 180)

/-- `torch.remainder(azimuth, 2 * torch.pi)` (`coordinates.py` 300). -/
def wrap (x : ℝ) : ℝ := x - 2 * Real.pi * ⌊x / (2 * Real.pi)⌋

/-- `azimuth_elevation_to_enu` (`coordinates.py` 295-312). -/
def sunPosition (azimuth elevation slant : ℝ) (degree : Bool) : V3 ℝ :=
  let el := if degree then deg2rad elevation else elevation
  let az := wrap (if degree then deg2rad azimuth else azimuth)
  let r := slant * Real.cos el
  ⟨r * Real.sin az, -r * Real.cos az, slant * Real.sin el⟩

/-- A point or direction with four components (`coordinates.py` 12-93, 1 appended for points, 0 for directions). -/
structure V4 where
  xyz : V3 ℝ
  w : ℝ

/-- `incident_ray_directions` of a measurement (`artist/io/paint_calibration_parser.py` 295-303). -/
def incident (azimuth elevation : ℝ) : V4 := ⟨0 - sunPosition azimuth elevation 1 true, 1 - 1⟩

/-- Major axis (`coordinates.py` 361). -/
def axisA : ℝ := 6378137
/-- Minor axis (`coordinates.py` 362). -/
def axisB : ℝ := 6356752314245 / 1000000
/-- Squared eccentricity (`coordinates.py` 363). -/
def ecc2 : ℝ := (axisA ^ 2 - axisB ^ 2) / axisA ^ 2

/-- `rn1` (`coordinates.py` 373). -/
def radiusN (lat : ℝ) : ℝ := axisA / Real.sqrt (1 - ecc2 * Real.sin lat ^ 2)
/-- `rm1` (`coordinates.py` 376). -/
def radiusM (lat : ℝ) : ℝ := axisA * (1 - ecc2) / (1 - ecc2 * Real.sin lat ^ 2) ^ (1.5 : ℝ)

/-- Latitude, longitude (degrees) and altitude.  Source: `coordinates.py` 315-390. -/
structure Wgs where
  lat : ℝ
  lon : ℝ
  alt : ℝ

/-- `convert_wgs84_coordinates_to_local_enu` (`coordinates.py` 365-390). -/
def toEnu (x ref : Wgs) : V3 ℝ :=
  let lat := deg2rad x.lat
  let dlat := deg2rad ref.lat - lat
  let dlon := deg2rad ref.lon - deg2rad x.lon
  ⟨-(dlon * radiusN lat * Real.cos lat), -(dlat * radiusM lat), x.alt - ref.alt⟩
end
end Artist.Geo
