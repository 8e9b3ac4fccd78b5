import Verif.Model.Geo
import Mathlib.Tactic.Linarith
import Mathlib.Tactic.Positivity
import Mathlib.Tactic.FieldSimp
import Mathlib.Tactic.Ring
import Mathlib.Tactic.NormNum
/-! Properties C47 and C48: sun positions and WGS84 coordinates. -/
namespace Artist.Geo
open Artist

theorem sin_wrap (x : ℝ) : Real.sin (wrap x) = Real.sin x := by
  unfold wrap
  rw [show x - 2 * Real.pi * (⌊x / (2 * Real.pi)⌋ : ℝ) = x - (⌊x / (2 * Real.pi)⌋ : ℤ) * (2 * Real.pi) by ring, Real.sin_sub_int_mul_two_pi]
theorem cos_wrap (x : ℝ) : Real.cos (wrap x) = Real.cos x := by
  unfold wrap
  rw [show x - 2 * Real.pi * (⌊x / (2 * Real.pi)⌋ : ℝ) = x - (⌊x / (2 * Real.pi)⌋ : ℤ) * (2 * Real.pi) by ring, Real.cos_sub_int_mul_two_pi]

/-- C47: the length of a sun position is the slant range. -/
theorem C47_length (az el s : ℝ) (degree : Bool) : V3.normSq (sunPosition az el s degree) = s ^ 2 := by
  unfold sunPosition V3.normSq V3.dot
  simp only
  generalize wrap _ = a
  generalize (if degree = true then deg2rad el else el) = b
  have h1 := Real.sin_sq_add_cos_sq a
  have h2 := Real.sin_sq_add_cos_sq b
  linear_combination (s ^ 2 * Real.cos b ^ 2) * h1 + s ^ 2 * h2

/-- C47: elevation 90° is straight up, whatever the azimuth. -/
theorem C47_zenith (az s : ℝ) : sunPosition az 90 s true = ⟨0, 0, s⟩ := by
  have h : deg2rad 90 = Real.pi / 2 := by unfold deg2rad; ring
  unfold sunPosition
  simp [h]

/-- C47: at the horizon azimuth 0° is south, 90° is east, 180° is north, 270° is west. -/
theorem C47_compass (s : ℝ) :
    sunPosition 0 0 s true = ⟨0, -s, 0⟩ ∧ sunPosition 90 0 s true = ⟨s, 0, 0⟩ ∧
    sunPosition 180 0 s true = ⟨0, s, 0⟩ ∧ sunPosition 270 0 s true = ⟨-s, 0, 0⟩ := by
  have h0 : deg2rad 0 = 0 := by unfold deg2rad; ring
  have h90 : deg2rad 90 = Real.pi / 2 := by unfold deg2rad; ring
  have h180 : deg2rad 180 = Real.pi := by unfold deg2rad; ring
  have h270 : deg2rad 270 = Real.pi / 2 + Real.pi := by unfold deg2rad; ring
  refine ⟨?_, ?_, ?_, ?_⟩ <;> unfold sunPosition <;> simp [sin_wrap, cos_wrap, h0, h90, h180, h270, Real.sin_add_pi, Real.cos_add_pi]

/-- C47: the height above the horizon and the compass direction: the direction is `(cos el · sin az, -cos el · cos az, sin el)`, so it is
above the horizon exactly for elevations between 0° and 180°. -/
theorem C47_direction (az el s : ℝ) :
    sunPosition az el s true = ⟨s * Real.cos (deg2rad el) * Real.sin (deg2rad az), -(s * Real.cos (deg2rad el) * Real.cos (deg2rad az)),
      s * Real.sin (deg2rad el)⟩ := by
  unfold sunPosition
  simp [sin_wrap, cos_wrap]

/-- C47: full turns of the azimuth do not matter, in degrees and in radians. -/
theorem C47_periodic (az el s : ℝ) (k : ℤ) :
    sunPosition (az + k * 360) el s true = sunPosition az el s true ∧
    sunPosition (az + k * (2 * Real.pi)) el s false = sunPosition az el s false := by
  have h : deg2rad (az + k * 360) = deg2rad az + k * (2 * Real.pi) := by unfold deg2rad; ring
  unfold sunPosition
  simp [sin_wrap, cos_wrap, h, Real.sin_add_int_mul_two_pi, Real.cos_add_int_mul_two_pi]

/-- C47: degrees and radians describe the same positions. -/
theorem C47_units (az el s : ℝ) : sunPosition az el s true = sunPosition (az * Real.pi / 180) (el * Real.pi / 180) s false := by
  unfold sunPosition deg2rad
  simp [mul_div_assoc]

/-- C47: the incident direction of a measurement is a unit direction (fourth component 0) opposite to the sun position. -/
theorem C47_incident (az el : ℝ) :
    (incident az el).w = 0 ∧ V3.normSq (incident az el).xyz = 1 ∧ (incident az el).xyz = -sunPosition az el 1 true := by
  have h : (incident az el).xyz = -sunPosition az el 1 true := by
    unfold incident; ext <;> simp
  refine ⟨by simp [incident], ?_, h⟩
  rw [h]
  have := C47_length az el 1 true
  unfold V3.normSq V3.dot at this ⊢
  simp only [V3.neg_e, V3.neg_n, V3.neg_u]
  linarith

/-- With the sun in the south at 30° the light comes from the south and from above. -/
example : (incident 0 30).xyz = ⟨0, Real.sqrt 3 / 2, -(1 / 2)⟩ := by
  have h : deg2rad 30 = Real.pi / 6 := by unfold deg2rad; ring
  have h0 : deg2rad 0 = 0 := by unfold deg2rad; ring
  rw [(C47_incident 0 30).2.2, C47_direction]
  ext <;> simp [h, h0]

/-! ## C48 -/

theorem ecc2_range : 0 < ecc2 ∧ ecc2 < 1 := by
  unfold ecc2 axisA axisB; constructor <;> norm_num

theorem denom_pos (lat : ℝ) : 0 < 1 - ecc2 * Real.sin lat ^ 2 := by
  have h := Real.sin_sq_le_one lat
  have h0 := sq_nonneg (Real.sin lat)
  nlinarith [ecc2_range.1, ecc2_range.2]

theorem radiusN_pos (lat : ℝ) : 0 < radiusN lat :=
  div_pos (by unfold axisA; norm_num) (Real.sqrt_pos.2 (denom_pos lat))
theorem radiusM_pos (lat : ℝ) : 0 < radiusM lat :=
  div_pos (mul_pos (by unfold axisA; norm_num) (by linarith [ecc2_range.2])) (Real.rpow_pos_of_pos (denom_pos lat) _)

theorem cos_lat_pos (x : ℝ) (h : -90 < x ∧ x < 90) : 0 < Real.cos (deg2rad x) := by
  apply Real.cos_pos_of_mem_Ioo
  have := Real.pi_pos
  unfold deg2rad
  constructor <;> nlinarith [h.1, h.2]

/-- C48: the reference point is the origin. -/
theorem C48_origin (ref : Wgs) : toEnu ref ref = ⟨0, 0, 0⟩ := by unfold toEnu; simp

/-- C48: signs.  Away from the poles a point has a positive east/north/up offset exactly if it lies further east/north/up than the
reference point, and offset zero exactly if that coordinate agrees. -/
theorem C48_signs (x ref : Wgs) (h : -90 < x.lat ∧ x.lat < 90) :
    (0 < (toEnu x ref).e ↔ ref.lon < x.lon) ∧ ((toEnu x ref).e = 0 ↔ x.lon = ref.lon) ∧
    (0 < (toEnu x ref).n ↔ ref.lat < x.lat) ∧ ((toEnu x ref).n = 0 ↔ x.lat = ref.lat) ∧
    (0 < (toEnu x ref).u ↔ ref.alt < x.alt) ∧ ((toEnu x ref).u = 0 ↔ x.alt = ref.alt) := by
  have hpi : 0 < Real.pi / 180 := by positivity
  have he : (toEnu x ref).e = (x.lon - ref.lon) * (Real.pi / 180 * radiusN (deg2rad x.lat) * Real.cos (deg2rad x.lat)) := by
    unfold toEnu deg2rad; simp only; ring
  have hn : (toEnu x ref).n = (x.lat - ref.lat) * (Real.pi / 180 * radiusM (deg2rad x.lat)) := by
    unfold toEnu deg2rad; simp only; ring
  have hu : (toEnu x ref).u = x.alt - ref.alt := rfl
  have pe : 0 < Real.pi / 180 * radiusN (deg2rad x.lat) * Real.cos (deg2rad x.lat) :=
    mul_pos (mul_pos hpi (radiusN_pos _)) (cos_lat_pos _ h)
  have pn : 0 < Real.pi / 180 * radiusM (deg2rad x.lat) := mul_pos hpi (radiusM_pos _)
  rw [he, hn, hu]
  refine ⟨?_, ?_, ?_, ?_, ?_, ?_⟩
  · rw [mul_pos_iff_of_pos_right pe, sub_pos]
  · rw [mul_eq_zero, or_iff_left pe.ne', sub_eq_zero]
  · rw [mul_pos_iff_of_pos_right pn, sub_pos]
  · rw [mul_eq_zero, or_iff_left pn.ne', sub_eq_zero]
  · rw [sub_pos]
  · rw [sub_eq_zero]

/-- C48: at equal latitude the east offset grows strictly and linearly with longitude; the up offset grows with altitude; neither depends on the
other coordinates of the point except for the latitude. -/
theorem C48_monotone (x y ref : Wgs) (h : -90 < x.lat ∧ x.lat < 90) (hlat : y.lat = x.lat) :
    (x.lon < y.lon ↔ (toEnu x ref).e < (toEnu y ref).e) ∧ (x.alt < y.alt ↔ (toEnu x ref).u < (toEnu y ref).u) ∧
    (toEnu y ref).n = (toEnu x ref).n := by
  have hpi : 0 < Real.pi / 180 := by positivity
  have he : (toEnu y ref).e - (toEnu x ref).e = (y.lon - x.lon) * (Real.pi / 180 * radiusN (deg2rad x.lat) * Real.cos (deg2rad x.lat)) := by
    unfold toEnu deg2rad; simp only; rw [hlat]; ring
  have pe : 0 < Real.pi / 180 * radiusN (deg2rad x.lat) * Real.cos (deg2rad x.lat) :=
    mul_pos (mul_pos hpi (radiusN_pos _)) (cos_lat_pos _ h)
  refine ⟨?_, ?_, ?_⟩
  · rw [← sub_pos (a := (toEnu y ref).e), he, mul_pos_iff_of_pos_right pe, sub_pos]
  · unfold toEnu; simp
  · unfold toEnu; simp [hlat]

/-- C48, scale: the radii that turn angles into metres are at least `b² / a` northwards and `a` eastwards, at every latitude. -/
theorem C48_scale (lat : ℝ) : axisB ^ 2 / axisA ≤ radiusM lat ∧ axisA ≤ radiusN lat := by
  have hd := denom_pos lat
  have hle : 1 - ecc2 * Real.sin lat ^ 2 ≤ 1 := by
    have := mul_nonneg ecc2_range.1.le (sq_nonneg (Real.sin lat)); linarith
  constructor
  · have h1 : (1 - ecc2 * Real.sin lat ^ 2) ^ (1.5 : ℝ) ≤ 1 := Real.rpow_le_one hd.le hle (by norm_num)
    have h2 : 0 < (1 - ecc2 * Real.sin lat ^ 2) ^ (1.5 : ℝ) := Real.rpow_pos_of_pos hd _
    have h3 : axisB ^ 2 / axisA = axisA * (1 - ecc2) := by unfold ecc2 axisA; field_simp; ring
    unfold radiusM
    rw [h3, le_div_iff₀ h2]
    have h4 : 0 < axisA * (1 - ecc2) := mul_pos (by unfold axisA; norm_num) (by linarith [ecc2_range.2])
    nlinarith
  · unfold radiusN
    rw [le_div_iff₀ (Real.sqrt_pos.2 hd)]
    have h1 : Real.sqrt (1 - ecc2 * Real.sin lat ^ 2) ≤ 1 := by rw [Real.sqrt_le_iff]; exact ⟨zero_le_one, by linarith⟩
    have : 0 < axisA := by unfold axisA; norm_num
    nlinarith

/-- C48, scale: offsets are lengths on the WGS84 ellipsoid with semi-axes `a` and `b` (flattening 1/298.257223563): the east offset is the
difference of longitudes times the radius of the circle of latitude, the north offset the difference of latitudes times the meridional
radius of curvature. -/
theorem C48_ellipsoid (x ref : Wgs) : ∃ a b : ℝ, a = 6378137 ∧ |b - a * (1 - 1 / 298.257223563)| < 1 / 10 ^ 6 ∧
    let lat := x.lat * Real.pi / 180
    let d := (a * Real.cos lat) ^ 2 + (b * Real.sin lat) ^ 2
    (toEnu x ref).e = (x.lon - ref.lon) * Real.pi / 180 * (a ^ 2 / Real.sqrt d * Real.cos lat) ∧
    (toEnu x ref).n = (x.lat - ref.lat) * Real.pi / 180 * ((a * b) ^ 2 / (d * Real.sqrt d)) ∧
    (toEnu x ref).u = x.alt - ref.alt := by
  refine ⟨axisA, axisB, rfl, by unfold axisA axisB; rw [abs_lt]; constructor <;> norm_num, ?_⟩
  intro lat d
  have hlat : deg2rad x.lat = lat := by unfold deg2rad; simp only [lat]; ring
  have hA : 0 < axisA := by unfold axisA; norm_num
  have hd := denom_pos lat
  have hdd : d = axisA ^ 2 * (1 - ecc2 * Real.sin lat ^ 2) := by
    simp only [d]
    have h1 := Real.sin_sq_add_cos_sq lat
    have h2 : ecc2 * axisA ^ 2 = axisA ^ 2 - axisB ^ 2 := by unfold ecc2; field_simp
    linear_combination axisA ^ 2 * h1 + Real.sin lat ^ 2 * h2
  have hs : Real.sqrt d = axisA * Real.sqrt (1 - ecc2 * Real.sin lat ^ 2) := by
    rw [hdd, Real.sqrt_mul (by positivity), Real.sqrt_sq hA.le]
  have hp : (1 - ecc2 * Real.sin lat ^ 2) ^ (1.5 : ℝ) = (1 - ecc2 * Real.sin lat ^ 2) * Real.sqrt (1 - ecc2 * Real.sin lat ^ 2) := by
    rw [show (1.5 : ℝ) = 1 + 1 / 2 by norm_num, Real.rpow_add hd, Real.rpow_one, Real.sqrt_eq_rpow]
  have hb : axisA ^ 2 * (1 - ecc2) = axisB ^ 2 := by unfold ecc2; field_simp; ring
  have hr := Real.sqrt_pos.2 hd
  have hN : radiusN lat = axisA ^ 2 / Real.sqrt d := by
    unfold radiusN; rw [hs]; field_simp
  have hM : radiusM lat = (axisA * axisB) ^ 2 / (d * Real.sqrt d) := by
    unfold radiusM; rw [hp, hs, hdd, mul_pow, ← hb]; field_simp
  refine ⟨?_, ?_, rfl⟩
  · rw [← hN]; unfold toEnu; simp only [hlat]; unfold deg2rad; ring
  · rw [← hM]; unfold toEnu; simp only [hlat]; rw [← hlat]; unfold deg2rad; ring

/-- Jülich and a point north-east of it and lower. -/
example : 0 < (toEnu ⟨50.92, 6.39, 80⟩ ⟨50.91, 6.38, 87⟩).e ∧ 0 < (toEnu ⟨50.92, 6.39, 80⟩ ⟨50.91, 6.38, 87⟩).n ∧
    ¬ 0 < (toEnu ⟨50.92, 6.39, 80⟩ ⟨50.91, 6.38, 87⟩).u := by
  obtain ⟨h1, _, h2, _, h3, _⟩ := C48_signs ⟨50.92, 6.39, 80⟩ ⟨50.91, 6.38, 87⟩ (by norm_num)
  rw [h1, h2, h3]
  norm_num

end Artist.Geo
