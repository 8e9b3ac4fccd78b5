import Verif.Proofs.Geodesy
import Mathlib.Analysis.Real.Pi.Bounds
/-! Property C115: positions converted from WGS84 coordinates are where the points really are, up to the curvature of the earth. -/
namespace Artist.Geodesy
open Artist Artist.Geo
noncomputable section

/-- The place that the user's coordinates (degrees) denote. -/
def place (x : Wgs) : Place := ⟨x.lat * Real.pi / 180, x.lon * Real.pi / 180, x.alt⟩

theorem place_lat (x : Wgs) : deg2rad x.lat = (place x).lat := by unfold deg2rad place; simp only; ring
theorem place_lon (x : Wgs) : deg2rad x.lon = (place x).lon := by unfold deg2rad place; simp only; ring

theorem cos_place (x : Wgs) (h : |x.lat| ≤ 60) : 1 / 2 ≤ Real.cos (place x).lat := by
  rw [← Real.cos_pi_div_three, ← Real.cos_abs (place x).lat]
  have hp := Real.pi_pos
  have : |(place x).lat| = |x.lat| * Real.pi / 180 := by
    show |x.lat * Real.pi / 180| = _
    rw [abs_div, abs_mul, abs_of_pos hp, abs_of_pos (by norm_num : (0:ℝ) < 180)]
  rw [this]
  apply Real.cos_le_cos_of_nonneg_of_le_pi (by positivity) (by linarith)
  nlinarith

theorem code_e (x ref : Wgs) : (toEnu x ref).e = ((place x).lon - (place ref).lon) * radiusN (place x).lat * Real.cos (place x).lat := by
  unfold toEnu; simp only [place_lat, place_lon]; ring
theorem code_n (x ref : Wgs) : (toEnu x ref).n = ((place x).lat - (place ref).lat) * radiusM (place x).lat := by
  unfold toEnu; simp only [place_lat]; ring
theorem code_u (x ref : Wgs) : (toEnu x ref).u = (place x).h - (place ref).h := rfl

/-- C115: **the converted position of a point is its true position up to the curvature of the earth**.  For latitudes up to 60° and a
converted horizontal distance `d` of at most 10 km, each of the three coordinates differs from the true one (ellipsoid WGS84, directions
at the reference point) by at most `(|altitude| + d) * d / 6200 km`: 18 cm for a point 1 km away at 100 m above the ellipsoid. -/
theorem C115_accuracy (x ref : Wgs) (d : ℝ) (hlat : |x.lat| ≤ 60) (hd : 0 ≤ d) (hd1 : d ≤ 10000)
    (h : (toEnu x ref).e ^ 2 + (toEnu x ref).n ^ 2 ≤ d ^ 2) :
    |(toEnu x ref).e - east (place x) (place ref)| ≤ (|x.alt| + d) * d / 6200000 ∧
    |(toEnu x ref).n - north (place x) (place ref)| ≤ (|x.alt| + d) * d / 6200000 ∧
    |(toEnu x ref).u - up (place x) (place ref)| ≤ (|x.alt| + d) * d / 6200000 := by
  have hc := cos_place x hlat
  have he := code_e x ref
  have hn := code_n x ref
  have hu := code_u x ref
  have hN : 6378137 ≤ radiusN (place x).lat := radiusN_ge _
  have hMl : 6335000 ≤ radiusM (place x).lat := le_trans (by
    have := ecc2_num.2; unfold axisA; nlinarith) (radiusM_ge _)
  have hMu : ∀ m, radiusM m ≤ 6422000 := fun m => (radiusM_le m).trans (by
    have := ecc2_num.2
    rw [div_le_iff₀ (by linarith [ecc2_range.2])]; unfold axisA; nlinarith)
  have hc1 := Real.cos_le_one (place x).lat
  obtain ⟨m, hm1, hm2, hnorth⟩ := north_eq (place x) (place ref)
  obtain ⟨m', hm1', hm2', hup⟩ := up_eq (place x) (place ref)
  have hLip : |radiusM m - radiusM (place x).lat| ≤ 65100 * |(place x).lat - (place ref).lat| := by
    refine (M_lipschitz m _).trans (mul_le_mul ?_ hm2 (abs_nonneg _) (by norm_num))
    unfold axisA; norm_num
  have hed : |(toEnu x ref).e| ≤ d := abs_le_of_sq_le_sq (by nlinarith [sq_nonneg (toEnu x ref).n]) hd
  refine ⟨?_, ?_, ?_⟩
  · rw [east_eq]; exact east_err hN hc hc1 he hed hd1
  · exact north_err hN hc hc1 (Real.abs_sin_le_one _) he hn hMl (hMu m) (radiusM_pos m).le hLip hm1 hd h hd1 hnorth
  · rw [hu]; exact up_err hN hc hc1 (Real.abs_cos_le_one _) he hn hMl (hMu m') (radiusM_pos m').le hm1' hd h hd1 hup

/-- A point on the equator, a thousandth of a degree (111 m) east of the reference point and 20 m higher: within 5 mm. -/
example : |(toEnu ⟨0, 1 / 1000, 70⟩ ⟨0, 0, 50⟩).u - up (place ⟨0, 1 / 1000, 70⟩) (place ⟨0, 0, 50⟩)| ≤ 5 / 1000 := by
  have h : (toEnu ⟨0, 1 / 1000, 70⟩ ⟨0, 0, 50⟩).e ^ 2 + (toEnu ⟨0, 1 / 1000, 70⟩ ⟨0, 0, 50⟩).n ^ 2 ≤ (112 : ℝ) ^ 2 := by
    have h1 : (toEnu ⟨0, 1 / 1000, 70⟩ ⟨0, 0, 50⟩).n = 0 := by unfold toEnu; simp
    have h2 : (toEnu ⟨0, 1 / 1000, 70⟩ ⟨0, 0, 50⟩).e = Real.pi * (6378137 / 180000) := by
      unfold toEnu radiusN deg2rad axisA; simp; ring
    rw [h1, h2]
    have := Real.pi_pos
    have h4 := Real.pi_lt_d2
    nlinarith
  refine (C115_accuracy _ _ 112 (by norm_num) (by norm_num) (by norm_num) h).2.2.trans ?_
  norm_num

/-- C115, sign of the error in height: the converted height never understates the true height of a point above the tangent plane (the
ground falls away from it), however far the point is. -/
theorem C115_height (x ref : Wgs) (hlat : |x.lat| ≤ 90) (href : |ref.lat| ≤ 90) (halt : 0 ≤ x.alt) :
    up (place x) (place ref) ≤ (toEnu x ref).u := by
  obtain ⟨m, hm1, hm2, hup⟩ := up_eq (place x) (place ref)
  rw [hup, code_u]
  have hp := Real.pi_pos
  have hh : 0 ≤ (place x).h := halt
  have c1 : ∀ y : Wgs, |y.lat| ≤ 90 → |(place y).lat| ≤ Real.pi / 2 ∧ 0 ≤ Real.cos (place y).lat := by
    intro y hy
    have : |(place y).lat| ≤ Real.pi / 2 := by
      show |y.lat * Real.pi / 180| ≤ _
      rw [abs_div, abs_mul, abs_of_pos hp, abs_of_pos (by norm_num : (0:ℝ) < 180)]
      nlinarith
    exact ⟨this, Real.cos_nonneg_of_mem_Icc (abs_le.1 this)⟩
  obtain ⟨a1, a2⟩ := c1 x hlat
  obtain ⟨b1, b2⟩ := c1 ref href
  have t1 : 0 ≤ radiusM m * Real.sin (m - (place ref).lat) * ((place x).lat - (place ref).lat) := by
    rw [mul_assoc]
    refine mul_nonneg (radiusM_pos m).le ?_
    have hd : |(place x).lat - (place ref).lat| ≤ Real.pi := (abs_sub _ _).trans (by linarith)
    rcases le_total 0 ((place x).lat - (place ref).lat) with h | h
    · rw [abs_of_nonneg h] at hm1 hm2 hd
      exact mul_nonneg (Real.sin_nonneg_of_nonneg_of_le_pi (by linarith [(abs_le.1 hm2).1]) (by linarith [(abs_le.1 hm1).2])) h
    · rw [abs_of_nonpos h] at hm1 hm2 hd
      exact mul_nonneg_of_nonpos_of_nonpos
        (Real.sin_nonpos_of_nonpos_of_neg_pi_le (by linarith [(abs_le.1 hm2).2]) (by linarith [(abs_le.1 hm1).1])) h
  have t2 : 0 ≤ (1 - Real.cos ((place x).lon - (place ref).lon)) *
      ((radiusN (place x).lat + (place x).h) * Real.cos (place x).lat * Real.cos (place ref).lat) := by
    refine mul_nonneg (one_sub_cos _).1 (mul_nonneg (mul_nonneg ?_ a2) b2)
    linarith [radiusN_pos (place x).lat]
  have t3 : (place x).h * Real.cos ((place x).lat - (place ref).lat) ≤ (place x).h := by
    nlinarith [Real.cos_le_one ((place x).lat - (place ref).lat)]
  linarith

/-- C115, the specification itself: points of altitude 0 lie on the ellipsoid with the semi-axes `a` and `b`, and the offset of a point
of altitude `h` from the point below it is `h` along the normal of the ellipsoid there. -/
theorem C115_place (lat lon h : ℝ) :
    (X lat lon 0 ^ 2 + Y lat lon 0 ^ 2) / a ^ 2 + Z lat lon 0 ^ 2 / b ^ 2 = 1 ∧
    ∃ k, 0 < k ∧ X lat lon h - X lat lon 0 = h * (k * (X lat lon 0 / a ^ 2)) ∧
      Y lat lon h - Y lat lon 0 = h * (k * (Y lat lon 0 / a ^ 2)) ∧ Z lat lon h - Z lat lon 0 = h * (k * (Z lat lon 0 / b ^ 2)) ∧
      (X lat lon h - X lat lon 0) ^ 2 + (Y lat lon h - Y lat lon 0) ^ 2 + (Z lat lon h - Z lat lon 0) ^ 2 = h ^ 2 := by
  have ha : 0 < a := by unfold a; norm_num
  have hb : 0 < b := by unfold b; norm_num
  have hD : 0 < (a * Real.cos lat) ^ 2 + (b * Real.sin lat) ^ 2 := by
    have h1 := Real.sin_sq_add_cos_sq lat
    have : b ^ 2 < a ^ 2 := by unfold a b; norm_num
    nlinarith [sq_nonneg (Real.cos lat), pow_pos hb 2]
  have hv : 0 < vertical lat := div_pos (by positivity) (Real.sqrt_pos.2 hD)
  have hq : vertical lat ^ 2 * ((a * Real.cos lat) ^ 2 + (b * Real.sin lat) ^ 2) = a ^ 4 := by
    unfold vertical
    rw [div_pow, Real.sq_sqrt hD.le, div_mul_cancel₀ _ hD.ne']; ring
  have h1 := Real.sin_sq_add_cos_sq lat
  have h2 := Real.sin_sq_add_cos_sq lon
  unfold X Y Z
  refine ⟨?_, a ^ 2 / vertical lat, by positivity, by field_simp; ring, by field_simp; ring, by field_simp; ring, ?_⟩
  · field_simp
    linear_combination b ^ 2 * hq + (b ^ 2 * vertical lat ^ 2 * Real.cos lat ^ 2 * a ^ 2) * h2
  · linear_combination (h ^ 2 * Real.cos lat ^ 2) * h2 + h ^ 2 * h1

/-- C115, **not exact**: a point on the equator that is as high as the reference point and `t` degrees east of it gets height 0, but lies
`(a + altitude) * (1 - cos t)` below the horizontal plane of the reference point, and `(a + altitude) * sin t` east of it instead of the
converted `a * t`. -/
theorem C115_equator (t alt : ℝ) :
    let x : Wgs := ⟨0, t, alt⟩
    let ref : Wgs := ⟨0, 0, alt⟩
    (toEnu x ref).u = 0 ∧ up (place x) (place ref) = -((a + alt) * (1 - Real.cos (t * Real.pi / 180))) ∧
    (toEnu x ref).e = a * (t * Real.pi / 180) ∧ east (place x) (place ref) = (a + alt) * Real.sin (t * Real.pi / 180) := by
  have hv : vertical 0 = a := by
    rw [vertical_eq]; unfold radiusN; simp; rfl
  refine ⟨by unfold toEnu; simp, ?_, ?_, ?_⟩
  · unfold up along X Y Z place; simp [hv]; ring
  · unfold toEnu radiusN deg2rad; simp; unfold a axisA; ring
  · unfold east along X Y Z place; simp [hv]

end
end Artist.Geodesy
