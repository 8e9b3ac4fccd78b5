import Mathlib.Analysis.SpecialFunctions.Trigonometric.Basic
/-!
# Specification: where a point given by latitude, longitude and altitude really is (for C115)

The textbook definition, written without the model: the WGS84 ellipsoid has the semi-axes `a` and `b`; a point of latitude `lat`, longitude
`lon` (radians) and altitude `h` is the point `h` above the ellipsoid along the normal.  Its local coordinates are the components of its
offset from the reference point along the directions east, north and up at the reference point.
-/
namespace Artist.Geodesy
noncomputable section

/-- Larger semi-axis of the WGS84 ellipsoid (metres). -/
def a : ℝ := 6378137
/-- Smaller semi-axis of the WGS84 ellipsoid (metres). -/
def b : ℝ := 6356752314245 / 1000000

/-- Distance from the ellipsoid to the axis of the earth along the normal. -/
def vertical (lat : ℝ) : ℝ := a ^ 2 / Real.sqrt ((a * Real.cos lat) ^ 2 + (b * Real.sin lat) ^ 2)

/-- Earth-centred coordinates: towards longitude 0 on the equator. -/
def X (lat lon h : ℝ) : ℝ := (vertical lat + h) * Real.cos lat * Real.cos lon
/-- Earth-centred coordinates: towards longitude 90° east on the equator. -/
def Y (lat lon h : ℝ) : ℝ := (vertical lat + h) * Real.cos lat * Real.sin lon
/-- Earth-centred coordinates: towards the north pole. -/
def Z (lat _lon h : ℝ) : ℝ := (b ^ 2 / a ^ 2 * vertical lat + h) * Real.sin lat

/-- A point on or above the ground: latitude and longitude in radians, altitude above the ellipsoid. -/
structure Place where
  lat : ℝ
  lon : ℝ
  h : ℝ

/-- Component of the offset of `p` from `o` along the direction `(dx, dy, dz)`. -/
def along (p o : Place) (dx dy dz : ℝ) : ℝ :=
  (X p.lat p.lon p.h - X o.lat o.lon o.h) * dx + (Y p.lat p.lon p.h - Y o.lat o.lon o.h) * dy +
    (Z p.lat p.lon p.h - Z o.lat o.lon o.h) * dz

/-- How far `p` is east of `o`, along the direction east at `o`. -/
def east (p o : Place) : ℝ := along p o (-Real.sin o.lon) (Real.cos o.lon) 0
/-- How far `p` is north of `o`, along the direction north at `o`. -/
def north (p o : Place) : ℝ :=
  along p o (-Real.sin o.lat * Real.cos o.lon) (-Real.sin o.lat * Real.sin o.lon) (Real.cos o.lat)
/-- How far `p` is above `o`, along the vertical at `o`. -/
def up (p o : Place) : ℝ := along p o (Real.cos o.lat * Real.cos o.lon) (Real.cos o.lat * Real.sin o.lon) (Real.sin o.lat)

end
end Artist.Geodesy
