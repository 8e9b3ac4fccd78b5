import Verif.Spec.Geodesy
import Verif.Model.Geo
import Verif.Props.Geo
import Mathlib.Analysis.Calculus.MeanValue
import Mathlib.Analysis.SpecialFunctions.Sqrt
import Mathlib.Analysis.SpecialFunctions.Trigonometric.Deriv
import Mathlib.Analysis.SpecialFunctions.Trigonometric.Bounds
import Mathlib.Tactic.Linarith
import Mathlib.Tactic.Positivity
import Mathlib.Tactic.FieldSimp
import Mathlib.Tactic.Ring
import Mathlib.Tactic.NormNum
import Mathlib.Tactic.LinearCombination
/-! Helpers for C115: the meridian ellipse, its derivatives, and error terms. -/
namespace Artist.Geodesy
open Artist.Geo
noncomputable section

/-- `1 - e² sin²`. -/
def W (t : ℝ) : ℝ := 1 - ecc2 * Real.sin t ^ 2

theorem W_pos (t : ℝ) : 0 < W t := denom_pos t
theorem W_le (t : ℝ) : W t ≤ 1 := by
  unfold W; nlinarith [ecc2_range.1, sq_nonneg (Real.sin t)]
theorem W_ge (t : ℝ) : 1 - ecc2 ≤ W t := by
  unfold W; nlinarith [ecc2_range.1, Real.sin_sq_le_one t]

theorem ecc2_num : 669437 / 100000000 ≤ ecc2 ∧ ecc2 ≤ 669439 / 100000000 := by
  unfold ecc2 axisA axisB; constructor <;> norm_num

theorem radiusM_eq (t : ℝ) : radiusM t = axisA * (1 - ecc2) / (W t * Real.sqrt (W t)) := by
  unfold radiusM
  rw [show (1.5 : ℝ) = 1 + 1 / 2 by norm_num, Real.rpow_add (denom_pos t), Real.rpow_one, ← Real.sqrt_eq_rpow]; rfl

theorem radiusN_eq (t : ℝ) : radiusN t = axisA / Real.sqrt (W t) := rfl

theorem vertical_eq (t : ℝ) : vertical t = radiusN t := by
  have hA : (0:ℝ) < axisA := by unfold axisA; norm_num
  have h : (a * Real.cos t) ^ 2 + (b * Real.sin t) ^ 2 = axisA ^ 2 * W t := by
    have h1 := Real.sin_sq_add_cos_sq t
    have h2 : ecc2 * axisA ^ 2 = axisA ^ 2 - axisB ^ 2 := by unfold ecc2; field_simp
    show (axisA * Real.cos t) ^ 2 + (axisB * Real.sin t) ^ 2 = axisA ^ 2 * (1 - ecc2 * Real.sin t ^ 2)
    linear_combination axisA ^ 2 * h1 + Real.sin t ^ 2 * h2
  have hr := Real.sqrt_pos.2 (W_pos t)
  unfold vertical
  rw [h, radiusN_eq, Real.sqrt_mul (by positivity), Real.sqrt_sq hA.le]
  show axisA ^ 2 / _ = _
  field_simp

theorem ratio : b ^ 2 / a ^ 2 = 1 - ecc2 := by
  show axisB ^ 2 / axisA ^ 2 = _
  have hA : (0:ℝ) < axisA := by unfold axisA; norm_num
  unfold ecc2; field_simp; ring

theorem sqrt_W (t : ℝ) : W t ≤ Real.sqrt (W t) ∧ Real.sqrt (W t) ≤ 1 := by
  have h := W_le t
  have h0 := W_pos t
  refine ⟨Real.le_sqrt_of_sq_le (by nlinarith), ?_⟩
  rw [show (1:ℝ) = Real.sqrt 1 by simp]; exact Real.sqrt_le_sqrt h

theorem radiusN_ge (t : ℝ) : axisA ≤ radiusN t := by
  rw [radiusN_eq, le_div_iff₀ (Real.sqrt_pos.2 (W_pos t))]
  have : (0:ℝ) < axisA := by unfold axisA; norm_num
  nlinarith [(sqrt_W t).2]

theorem radiusM_ge (t : ℝ) : axisA * (1 - ecc2) ≤ radiusM t := by
  have hp : 0 < W t * Real.sqrt (W t) := mul_pos (W_pos t) (Real.sqrt_pos.2 (W_pos t))
  rw [radiusM_eq, le_div_iff₀ hp]
  have h0 : (0:ℝ) < axisA * (1 - ecc2) := mul_pos (by unfold axisA; norm_num) (by linarith [ecc2_range.2])
  have : W t * Real.sqrt (W t) ≤ 1 := by nlinarith [(sqrt_W t).2, W_le t, W_pos t, Real.sqrt_nonneg (W t)]
  nlinarith

theorem radiusM_le (t : ℝ) : radiusM t ≤ axisA / (1 - ecc2) := by
  have hw := W_ge t
  have he : 0 < 1 - ecc2 := by linarith [ecc2_range.2]
  have hp : 0 < W t * Real.sqrt (W t) := mul_pos (W_pos t) (Real.sqrt_pos.2 (W_pos t))
  have hA : (0:ℝ) < axisA := by unfold axisA; norm_num
  rw [radiusM_eq, div_le_div_iff₀ hp he]
  have : (1 - ecc2) * (1 - ecc2) ≤ W t * Real.sqrt (W t) := by
    have := (sqrt_W t).1
    exact mul_le_mul hw (by linarith) he.le (W_pos t).le
  nlinarith

theorem W_deriv (t : ℝ) : HasDerivAt W (-(2 * ecc2 * Real.sin t * Real.cos t)) t := by
  have h := (((Real.hasDerivAt_sin t).pow 2).const_mul ecc2).const_sub 1
  refine HasDerivAt.congr_deriv h ?_
  push_cast; ring

theorem sqrtW_deriv (t : ℝ) : HasDerivAt (fun t => Real.sqrt (W t)) (-(ecc2 * Real.sin t * Real.cos t) / Real.sqrt (W t)) t := by
  have h := (W_deriv t).sqrt (W_pos t).ne'
  refine HasDerivAt.congr_deriv h ?_
  have := Real.sqrt_pos.2 (W_pos t)
  field_simp

/-- Distance from the axis of the earth on the meridian. -/
theorem rho_deriv (t : ℝ) : HasDerivAt (fun t => radiusN t * Real.cos t) (-(radiusM t * Real.sin t)) t := by
  have hs := Real.sqrt_pos.2 (W_pos t)
  have h := (((hasDerivAt_const t axisA).div (sqrtW_deriv t) hs.ne').mul (Real.hasDerivAt_cos t))
  refine HasDerivAt.congr_deriv h ?_
  rw [radiusM_eq]
  have hq : Real.sqrt (W t) ^ 2 = W t := Real.sq_sqrt (W_pos t).le
  have h1 := Real.sin_sq_add_cos_sq t
  have hw : W t = 1 - ecc2 * Real.sin t ^ 2 := rfl
  have hW := W_pos t
  rw [show W t * Real.sqrt (W t) = Real.sqrt (W t) ^ 3 by rw [pow_succ, hq]]
  simp only [Pi.div_apply]
  field_simp
  rw [hq, hw]
  linear_combination ecc2 * Real.sin t * axisA * h1

/-- Height over the plane of the equator on the meridian. -/
theorem z_deriv (t : ℝ) : HasDerivAt (fun t => (1 - ecc2) * radiusN t * Real.sin t) (radiusM t * Real.cos t) t := by
  have hs := Real.sqrt_pos.2 (W_pos t)
  have h := ((((hasDerivAt_const t axisA).div (sqrtW_deriv t) hs.ne').const_mul (1 - ecc2)).mul (Real.hasDerivAt_sin t))
  refine HasDerivAt.congr_deriv h ?_
  rw [radiusM_eq]
  have hq : Real.sqrt (W t) ^ 2 = W t := Real.sq_sqrt (W_pos t).le
  have hw : W t = 1 - ecc2 * Real.sin t ^ 2 := rfl
  have hW := W_pos t
  rw [show W t * Real.sqrt (W t) = Real.sqrt (W t) ^ 3 by rw [pow_succ, hq]]
  simp only [Pi.div_apply]
  field_simp
  rw [hq, hw]
  ring

theorem M_deriv (t : ℝ) : HasDerivAt radiusM (3 * axisA * (1 - ecc2) * ecc2 * Real.sin t * Real.cos t / (W t ^ 2 * Real.sqrt (W t))) t := by
  have hs := Real.sqrt_pos.2 (W_pos t)
  have hW := W_pos t
  have h := (hasDerivAt_const t (axisA * (1 - ecc2))).div ((W_deriv t).mul (sqrtW_deriv t)) (mul_pos hW hs).ne'
  rw [show radiusM = fun t => axisA * (1 - ecc2) / (W t * Real.sqrt (W t)) from funext radiusM_eq]
  refine HasDerivAt.congr_deriv h ?_
  have hq : Real.sqrt (W t) ^ 2 = W t := Real.sq_sqrt (W_pos t).le
  simp only [Pi.mul_apply]
  field_simp
  rw [hq]
  ring

theorem M_slope (t : ℝ) : |3 * axisA * (1 - ecc2) * ecc2 * Real.sin t * Real.cos t / (W t ^ 2 * Real.sqrt (W t))| ≤ axisA / 98 := by
  have hs := Real.sqrt_pos.2 (W_pos t)
  have hW := W_pos t
  have hA : (0:ℝ) < axisA := by unfold axisA; norm_num
  have he : 0 < 1 - ecc2 := by linarith [ecc2_range.2]
  have he0 := ecc2_range.1
  have hp : 0 < W t ^ 2 * Real.sqrt (W t) := by positivity
  have hsc : |Real.sin t * Real.cos t| ≤ 1 / 2 := by
    rw [abs_le]
    have h1 := Real.sin_sq_add_cos_sq t
    constructor <;> nlinarith [sq_nonneg (Real.sin t + Real.cos t), sq_nonneg (Real.sin t - Real.cos t)]
  rw [abs_div, abs_of_pos hp, div_le_iff₀ hp]
  have hlow : (1 - ecc2) ^ 3 ≤ W t ^ 2 * Real.sqrt (W t) := by
    have h1 := W_ge t
    have h2 := (sqrt_W t).1
    calc (1 - ecc2) ^ 3 ≤ W t ^ 3 := by gcongr
      _ = W t ^ 2 * W t := by ring
      _ ≤ _ := by gcongr
  have e1 : |3 * axisA * (1 - ecc2) * ecc2 * Real.sin t * Real.cos t| = 3 * axisA * (1 - ecc2) * ecc2 * |Real.sin t * Real.cos t| := by
    rw [show 3 * axisA * (1 - ecc2) * ecc2 * Real.sin t * Real.cos t = (3 * axisA * (1 - ecc2) * ecc2) * (Real.sin t * Real.cos t) by ring,
      abs_mul, abs_of_pos (by positivity)]
  rw [e1]
  have hnum : 3 * ecc2 * (1 / 2) * 98 ≤ (1 - ecc2) ^ 2 := by
    obtain ⟨h1, h2⟩ := ecc2_num
    nlinarith
  calc 3 * axisA * (1 - ecc2) * ecc2 * |Real.sin t * Real.cos t| ≤ 3 * axisA * (1 - ecc2) * ecc2 * (1 / 2) := by gcongr
    _ = axisA / 98 * ((1 - ecc2) * (3 * ecc2 * (1 / 2) * 98)) := by ring
    _ ≤ axisA / 98 * ((1 - ecc2) * (1 - ecc2) ^ 2) := by gcongr
    _ = axisA / 98 * (1 - ecc2) ^ 3 := by ring
    _ ≤ _ := by gcongr

theorem M_lipschitz (s t : ℝ) : |radiusM s - radiusM t| ≤ axisA / 98 * |s - t| := by
  have := Convex.norm_image_sub_le_of_norm_hasDerivWithin_le (f := radiusM) (s := Set.univ) (C := axisA / 98)
    (fun x _ => (M_deriv x).hasDerivWithinAt) (fun x _ => by rw [Real.norm_eq_abs]; exact M_slope x) convex_univ
    (Set.mem_univ t) (Set.mem_univ s)
  simpa [Real.norm_eq_abs] using this

theorem one_sub_cos (t : ℝ) : 0 ≤ 1 - Real.cos t ∧ 1 - Real.cos t ≤ t ^ 2 / 2 :=
  ⟨by linarith [Real.cos_le_one t], by linarith [Real.one_sub_sq_div_two_le_cos (x := t)]⟩

/-- Mean value theorem between two numbers in any order. -/
theorem mvt {f f' : ℝ → ℝ} (h : ∀ t, HasDerivAt f (f' t) t) (s t : ℝ) : ∃ m, |m - s| ≤ |t - s| ∧ |m - t| ≤ |t - s| ∧ f t - f s = f' m * (t - s) := by
  rcases lt_trichotomy s t with hl | rfl | hl
  · obtain ⟨m, hm, he⟩ := exists_hasDerivAt_eq_slope f f' hl (fun x _ => (h x).continuousAt.continuousWithinAt) (fun x _ => h x)
    refine ⟨m, ?_, ?_, ?_⟩
    · rw [abs_of_pos (by linarith [hm.1] : 0 < m - s), abs_of_pos (by linarith)]; linarith [hm.2]
    · rw [abs_of_neg (by linarith [hm.2] : m - t < 0), abs_of_pos (by linarith)]; linarith [hm.1]
    · rw [he]; field_simp [sub_ne_zero.2 hl.ne']
  · exact ⟨s, by simp⟩
  · obtain ⟨m, hm, he⟩ := exists_hasDerivAt_eq_slope f f' hl (fun x _ => (h x).continuousAt.continuousWithinAt) (fun x _ => h x)
    refine ⟨m, ?_, ?_, ?_⟩
    · rw [abs_of_neg (by linarith [hm.2] : m - s < 0), abs_of_neg (by linarith)]; linarith [hm.1]
    · rw [abs_of_pos (by linarith [hm.1] : 0 < m - t), abs_of_neg (by linarith)]; linarith [hm.2]
    · have : s - t ≠ 0 := sub_ne_zero.2 hl.ne'
      rw [he]; field_simp; ring

/-- Northward offset on the meridian. -/
theorem meridian_north (s t : ℝ) : ∃ m, |m - s| ≤ |t - s| ∧ |m - t| ≤ |t - s| ∧
    (1 - ecc2) * radiusN t * Real.sin t * Real.cos s - radiusN t * Real.cos t * Real.sin s
      - ((1 - ecc2) * radiusN s * Real.sin s * Real.cos s - radiusN s * Real.cos s * Real.sin s) =
    radiusM m * Real.cos (m - s) * (t - s) := by
  obtain ⟨m, h1, h2, h3⟩ := mvt (fun t => ((z_deriv t).mul_const (Real.cos s)).sub ((rho_deriv t).mul_const (Real.sin s))) s t
  refine ⟨m, h1, h2, ?_⟩
  rw [Real.cos_sub]
  simp only [Pi.sub_apply] at h3
  linear_combination h3

/-- Upward offset on the meridian. -/
theorem meridian_up (s t : ℝ) : ∃ m, |m - s| ≤ |t - s| ∧ |m - t| ≤ |t - s| ∧
    (1 - ecc2) * radiusN t * Real.sin t * Real.sin s + radiusN t * Real.cos t * Real.cos s
      - ((1 - ecc2) * radiusN s * Real.sin s * Real.sin s + radiusN s * Real.cos s * Real.cos s) =
    -(radiusM m * Real.sin (m - s)) * (t - s) := by
  obtain ⟨m, h1, h2, h3⟩ := mvt (fun t => ((z_deriv t).mul_const (Real.sin s)).add ((rho_deriv t).mul_const (Real.cos s))) s t
  refine ⟨m, h1, h2, ?_⟩
  rw [Real.sin_sub]
  simp only [Pi.add_apply] at h3
  linear_combination h3

theorem east_eq (p o : Place) : east p o = (radiusN p.lat + p.h) * Real.cos p.lat * Real.sin (p.lon - o.lon) := by
  unfold east along X Y
  rw [vertical_eq, vertical_eq, Real.sin_sub]
  ring

theorem north_eq (p o : Place) : ∃ m, |m - o.lat| ≤ |p.lat - o.lat| ∧ |m - p.lat| ≤ |p.lat - o.lat| ∧
    north p o = radiusM m * Real.cos (m - o.lat) * (p.lat - o.lat) + p.h * Real.sin (p.lat - o.lat) +
      (1 - Real.cos (p.lon - o.lon)) * ((radiusN p.lat + p.h) * Real.cos p.lat * Real.sin o.lat) := by
  obtain ⟨m, h1, h2, h3⟩ := meridian_north o.lat p.lat
  refine ⟨m, h1, h2, ?_⟩
  rw [← h3]
  unfold north along X Y Z
  rw [vertical_eq, vertical_eq, ratio, Real.sin_sub, Real.cos_sub]
  have h := Real.sin_sq_add_cos_sq o.lon
  linear_combination (radiusN o.lat + o.h) * Real.cos o.lat * Real.sin o.lat * h

theorem up_eq (p o : Place) : ∃ m, |m - o.lat| ≤ |p.lat - o.lat| ∧ |m - p.lat| ≤ |p.lat - o.lat| ∧
    up p o = -(radiusM m * Real.sin (m - o.lat)) * (p.lat - o.lat) + (p.h * Real.cos (p.lat - o.lat) - o.h) -
      (1 - Real.cos (p.lon - o.lon)) * ((radiusN p.lat + p.h) * Real.cos p.lat * Real.cos o.lat) := by
  obtain ⟨m, h1, h2, h3⟩ := meridian_up o.lat p.lat
  refine ⟨m, h1, h2, ?_⟩
  rw [← h3]
  unfold up along X Y Z
  rw [vertical_eq, vertical_eq, ratio, Real.cos_sub, Real.cos_sub]
  have h := Real.sin_sq_add_cos_sq o.lon
  have h' := Real.sin_sq_add_cos_sq o.lat
  linear_combination (-(radiusN o.lat + o.h) * Real.cos o.lat ^ 2) * h - o.h * h'

theorem sin_close (t : ℝ) : |Real.sin t - t| ≤ |t| * (t ^ 2 / 2) := by
  obtain ⟨m, h1, -, h3⟩ := mvt Real.hasDerivAt_sin 0 t
  simp only [Real.sin_zero, sub_zero] at h1 h3
  rw [h3, show Real.cos m * t - t = -(t * (1 - Real.cos m)) by ring, abs_neg, abs_mul, abs_of_nonneg (one_sub_cos m).1]
  have : m ^ 2 ≤ t ^ 2 := sq_le_sq.2 h1
  gcongr
  linarith [(one_sub_cos m).2]

/-- The term that an offset in longitude adds to the other two directions. -/
theorem lon_term {N c h l e d k : ℝ} (hN : 6378137 ≤ N) (hc : 1 / 2 ≤ c) (hc1 : c ≤ 1) (hk : |k| ≤ 1) (he : e = l * N * c)
    (hd : |e| ≤ d) (hd1 : d ≤ 10000) :
    |(1 - Real.cos l) * ((N + h) * c * k)| ≤ e ^ 2 / 6300000 + |h| * d / 1000000000 := by
  have hd0 : 0 ≤ d := le_trans (abs_nonneg _) hd
  have hea : |e| = |l| * N * c := by rw [he, abs_mul, abs_mul, abs_of_pos (by linarith : 0 < N), abs_of_pos (by linarith : 0 < c)]
  have hl : |l| * 3189000 ≤ |e| := by
    rw [hea, mul_assoc]
    apply mul_le_mul_of_nonneg_left _ (abs_nonneg l)
    nlinarith
  obtain ⟨c0, c1⟩ := one_sub_cos l
  have hcN : 0 ≤ (N + |h|) * c := mul_nonneg (by linarith [abs_nonneg h]) (by linarith)
  have b1 : |(N + h) * c * k| ≤ (N + |h|) * c := by
    rw [abs_mul, abs_mul, abs_of_pos (by linarith : 0 < c)]
    have : |N + h| ≤ N + |h| := by
      refine (abs_add_le _ _).trans ?_
      rw [abs_of_pos (by linarith : 0 < N)]
    calc |N + h| * c * |k| ≤ (N + |h|) * c * 1 := by
          apply mul_le_mul _ hk (abs_nonneg _) hcN
          exact mul_le_mul_of_nonneg_right this (by linarith)
      _ = _ := by ring
  rw [abs_mul, abs_of_nonneg c0]
  have hsq : l ^ 2 = |l| * |l| := by rw [← sq, sq_abs]
  have hesq : e ^ 2 = |e| * |e| := by rw [← sq, sq_abs]
  have hl0 := abs_nonneg l
  have he0 := abs_nonneg e
  have hh0 := abs_nonneg h
  have t1 : |l| * |e| / 2 ≤ e ^ 2 / 6300000 := by rw [hesq]; nlinarith
  have hl2 : |l| * |l| ≤ d / 500000000 := by
    have hl3 : |l| ≤ d / 3189000 := by rw [le_div_iff₀ (by norm_num)]; linarith
    have hl4 : |l| ≤ 10000 / 3189000 := hl3.trans (by gcongr)
    calc |l| * |l| ≤ (d / 3189000) * (10000 / 3189000) := mul_le_mul hl3 hl4 hl0 (by positivity)
      _ ≤ d / 500000000 := by
        rw [show d / 3189000 * (10000 / 3189000) = d * (10000 / 3189000 / 3189000) by ring, div_eq_mul_inv d]
        apply mul_le_mul_of_nonneg_left _ hd0
        norm_num
  calc (1 - Real.cos l) * |(N + h) * c * k| ≤ l ^ 2 / 2 * ((N + |h|) * c) := mul_le_mul c1 b1 (abs_nonneg _) (by positivity)
    _ = |l| * |e| / 2 + |h| * (|l| * |l| * c / 2) := by rw [hsq, hea]; ring
    _ ≤ e ^ 2 / 6300000 + |h| * (d / 500000000 * 1 / 2) := by
        refine add_le_add t1 ?_
        gcongr
    _ = _ := by ring

theorem small_lon {N c l e : ℝ} (hN : 6378137 ≤ N) (hc : 1 / 2 ≤ c) (he : e = l * N * c) : |l| * 3189000 ≤ |e| := by
  rw [he, abs_mul, abs_mul, abs_of_pos (by linarith : 0 < N), abs_of_pos (by linarith : 0 < c), mul_assoc]
  apply mul_le_mul_of_nonneg_left _ (abs_nonneg l)
  nlinarith

theorem east_err {N c h l e d : ℝ} (hN : 6378137 ≤ N) (hc : 1 / 2 ≤ c) (hc1 : c ≤ 1) (he : e = l * N * c) (hd : |e| ≤ d)
    (hd1 : d ≤ 10000) : |e - (N + h) * c * Real.sin l| ≤ (|h| + d) * d / 6200000 := by
  have hd0 : 0 ≤ d := le_trans (abs_nonneg _) hd
  have hl := small_lon hN hc he
  have hea : |e| = |l| * N * c := by rw [he, abs_mul, abs_mul, abs_of_pos (by linarith : 0 < N), abs_of_pos (by linarith : 0 < c)]
  have hl0 := abs_nonneg l
  have hh0 := abs_nonneg h
  have e1 : e - (N + h) * c * Real.sin l = -(N * c * (Real.sin l - l)) - h * c * Real.sin l := by rw [he]; ring
  have b1 : |N * c * (Real.sin l - l)| ≤ |e| * (l ^ 2 / 2) := by
    rw [abs_mul, abs_of_pos (mul_pos (by linarith) (by linarith) : 0 < N * c), hea]
    calc N * c * |Real.sin l - l| ≤ N * c * (|l| * (l ^ 2 / 2)) :=
          mul_le_mul_of_nonneg_left (sin_close l) (mul_nonneg (by linarith) (by linarith))
      _ = _ := by ring
  have b2 : |h * c * Real.sin l| ≤ |h| * d / 6378137 := by
    rw [abs_mul, abs_mul, abs_of_pos (by linarith : 0 < c)]
    have h1 := Real.abs_sin_le_abs (x := l)
    have h2 : c * |l| * 6378137 ≤ d := by
      refine le_trans ?_ hd
      rw [hea]
      have : 0 ≤ c * |l| := mul_nonneg (by linarith) hl0
      nlinarith
    rw [le_div_iff₀ (by norm_num)]
    calc |h| * c * |Real.sin l| * 6378137 ≤ |h| * c * |l| * 6378137 := by
          apply mul_le_mul_of_nonneg_right _ (by norm_num)
          exact mul_le_mul_of_nonneg_left h1 (mul_nonneg hh0 (by linarith))
      _ = |h| * (c * |l| * 6378137) := by ring
      _ ≤ _ := mul_le_mul_of_nonneg_left h2 hh0
  have hl3 : |l| ≤ d / 3189000 := by rw [le_div_iff₀ (by norm_num)]; linarith
  have b3 : |e| * (l ^ 2 / 2) ≤ d * d / 100000000 := by
    have hl4 : |l| ≤ 10000 / 3189000 := hl3.trans (by gcongr)
    have : l ^ 2 / 2 ≤ d / 100000000 := by
      rw [← sq_abs, sq]
      calc |l| * |l| / 2 ≤ (d / 3189000) * (10000 / 3189000) / 2 := by gcongr
        _ = d * (10000 / 3189000 / 3189000 / 2) := by ring
        _ ≤ d * (1 / 100000000) := mul_le_mul_of_nonneg_left (by norm_num) hd0
        _ = _ := by ring
    calc |e| * (l ^ 2 / 2) ≤ d * (d / 100000000) := mul_le_mul hd this (by positivity) hd0
      _ = _ := by ring
  rw [e1]
  refine (abs_sub _ _).trans ?_
  rw [abs_neg]
  have hdd := mul_nonneg hd0 hd0
  have hhd := mul_nonneg hh0 hd0
  calc |N * c * (Real.sin l - l)| + |h * c * Real.sin l| ≤ d * d / 100000000 + |h| * d / 6378137 := add_le_add (b1.trans b3) b2
    _ ≤ _ := by linarith

theorem north_err {N c h l e d k q n M M' t X : ℝ} (hN : 6378137 ≤ N) (hc : 1 / 2 ≤ c) (hc1 : c ≤ 1) (hk : |k| ≤ 1) (he : e = l * N * c)
    (hn : n = q * M) (hM : 6335000 ≤ M) (hM' : M' ≤ 6422000) (hM0 : 0 ≤ M') (hMM : |M' - M| ≤ 65100 * |q|) (ht : |t| ≤ |q|)
    (hd0 : 0 ≤ d) (hd : e ^ 2 + n ^ 2 ≤ d ^ 2) (hd1 : d ≤ 10000)
    (hX : X = M' * Real.cos t * q + h * Real.sin q + (1 - Real.cos l) * ((N + h) * c * k)) : |n - X| ≤ (|h| + d) * d / 6200000 := by
  have hed : |e| ≤ d := abs_le_of_sq_le_sq (by nlinarith [sq_nonneg n]) hd0
  have hnd : |n| ≤ d := abs_le_of_sq_le_sq (by nlinarith [sq_nonneg e]) hd0
  have L := lon_term (h := h) hN hc hc1 hk he hed hd1
  have hq0 := abs_nonneg q
  have hh0 := abs_nonneg h
  have hq : |q| * 6335000 ≤ |n| := by
    rw [hn, abs_mul, abs_of_pos (by linarith : 0 < M)]
    exact mul_le_mul_of_nonneg_left hM hq0
  have hq1 : |q| ≤ |n| / 6335000 := by rw [le_div_iff₀ (by norm_num)]; linarith
  have hq2 : |q| ≤ 10000 / 6335000 := hq1.trans (by gcongr; linarith)
  have hq3 : |q| * |q| ≤ n ^ 2 / 40000000000000 := by
    calc |q| * |q| ≤ |n| / 6335000 * (|n| / 6335000) := mul_le_mul hq1 hq1 hq0 (by positivity)
      _ = |n| ^ 2 / (6335000 * 6335000) := by ring
      _ ≤ _ := by rw [sq_abs]; gcongr; norm_num
  obtain ⟨t0, t1⟩ := one_sub_cos t
  have htq : t ^ 2 ≤ |q| * |q| := by rw [← sq_abs t, sq]; exact mul_le_mul ht ht (abs_nonneg _) hq0
  have e1 : n - X = -((M' - M) * q) + M' * (1 - Real.cos t) * q - h * Real.sin q - (1 - Real.cos l) * ((N + h) * c * k) := by
    rw [hX, hn]; ring
  have b1 : |(M' - M) * q| ≤ n ^ 2 * (65100 / 40000000000000) := by
    rw [abs_mul]
    calc |M' - M| * |q| ≤ 65100 * |q| * |q| := mul_le_mul_of_nonneg_right hMM hq0
      _ = 65100 * (|q| * |q|) := by ring
      _ ≤ 65100 * (n ^ 2 / 40000000000000) := mul_le_mul_of_nonneg_left hq3 (by norm_num)
      _ = _ := by ring
  have b2 : |M' * (1 - Real.cos t) * q| ≤ n ^ 2 * (6422000 / 40000000000000 * (10000 / 6335000)) := by
    rw [abs_mul, abs_mul, abs_of_nonneg hM0, abs_of_nonneg t0]
    calc M' * (1 - Real.cos t) * |q| ≤ 6422000 * (n ^ 2 / 40000000000000) * (10000 / 6335000) := by
          apply mul_le_mul _ hq2 hq0 (by positivity)
          apply mul_le_mul hM' _ t0 (by norm_num)
          have := sq_nonneg t
          linarith
      _ = _ := by ring
  have b3 : |h * Real.sin q| ≤ |h| * d / 6335000 := by
    rw [abs_mul]
    have : |Real.sin q| ≤ d / 6335000 := (Real.abs_sin_le_abs).trans (hq1.trans (by gcongr))
    calc |h| * |Real.sin q| ≤ |h| * (d / 6335000) := mul_le_mul_of_nonneg_left this hh0
      _ = _ := by ring
  rw [e1]
  refine (abs_sub _ _).trans ?_
  have s1 := abs_sub (-((M' - M) * q) + M' * (1 - Real.cos t) * q) (h * Real.sin q)
  have s2 := abs_add_le (-((M' - M) * q)) (M' * (1 - Real.cos t) * q)
  rw [abs_neg] at s2
  have hhd := mul_nonneg hh0 hd0
  have hn2 := sq_nonneg n
  have he2 := sq_nonneg e
  have hdd : d * d = d ^ 2 := by ring
  rw [add_mul |h| d d, hdd]
  linarith

theorem up_err {N c h h0 l e d k q n M M' t X : ℝ} (hN : 6378137 ≤ N) (hc : 1 / 2 ≤ c) (hc1 : c ≤ 1) (hk : |k| ≤ 1) (he : e = l * N * c)
    (hn : n = q * M) (hM : 6335000 ≤ M) (hM' : M' ≤ 6422000) (hM0 : 0 ≤ M') (ht : |t| ≤ |q|)
    (hd0 : 0 ≤ d) (hd : e ^ 2 + n ^ 2 ≤ d ^ 2) (hd1 : d ≤ 10000)
    (hX : X = -(M' * Real.sin t) * q + (h * Real.cos q - h0) - (1 - Real.cos l) * ((N + h) * c * k)) :
    |(h - h0) - X| ≤ (|h| + d) * d / 6200000 := by
  have hed : |e| ≤ d := abs_le_of_sq_le_sq (by nlinarith [sq_nonneg n]) hd0
  have hnd : |n| ≤ d := abs_le_of_sq_le_sq (by nlinarith [sq_nonneg e]) hd0
  have L := lon_term (h := h) hN hc hc1 hk he hed hd1
  have hq0 := abs_nonneg q
  have hh0 := abs_nonneg h
  have hq : |q| * 6335000 ≤ |n| := by
    rw [hn, abs_mul, abs_of_pos (by linarith : 0 < M)]
    exact mul_le_mul_of_nonneg_left hM hq0
  have hq1 : |q| ≤ |n| / 6335000 := by rw [le_div_iff₀ (by norm_num)]; linarith
  have hq1' : |q| ≤ d / 6335000 := hq1.trans (by gcongr)
  have hq2 : |q| ≤ 10000 / 6335000 := hq1.trans (by gcongr; linarith)
  have hq3 : |q| * |q| ≤ n ^ 2 / (6335000 * 6335000) := by
    calc |q| * |q| ≤ |n| / 6335000 * (|n| / 6335000) := mul_le_mul hq1 hq1 hq0 (by positivity)
      _ = |n| ^ 2 / (6335000 * 6335000) := by ring
      _ ≤ _ := by rw [sq_abs]
  obtain ⟨t0, t1⟩ := one_sub_cos q
  have e1 : (h - h0) - X = M' * Real.sin t * q + h * (1 - Real.cos q) + (1 - Real.cos l) * ((N + h) * c * k) := by
    rw [hX]; ring
  have b1 : |M' * Real.sin t * q| ≤ n ^ 2 * (6422000 / (6335000 * 6335000)) := by
    rw [abs_mul, abs_mul, abs_of_nonneg hM0]
    calc M' * |Real.sin t| * |q| ≤ 6422000 * |q| * |q| := by
          apply mul_le_mul_of_nonneg_right _ hq0
          exact mul_le_mul hM' (Real.abs_sin_le_abs.trans ht) (abs_nonneg _) (by norm_num)
      _ = 6422000 * (|q| * |q|) := by ring
      _ ≤ 6422000 * (n ^ 2 / (6335000 * 6335000)) := mul_le_mul_of_nonneg_left hq3 (by norm_num)
      _ = _ := by ring
  have b2 : |h * (1 - Real.cos q)| ≤ |h| * d * (10000 / 6335000 / 6335000) := by
    rw [abs_mul, abs_of_nonneg t0]
    have : 1 - Real.cos q ≤ d / 6335000 * (10000 / 6335000) := by
      refine t1.trans ?_
      rw [← sq_abs, sq]
      have := mul_le_mul hq1' hq2 hq0 (by positivity)
      have := mul_nonneg hq0 hq0
      linarith
    calc |h| * (1 - Real.cos q) ≤ |h| * (d / 6335000 * (10000 / 6335000)) := mul_le_mul_of_nonneg_left this hh0
      _ = _ := by ring
  rw [e1]
  refine (abs_add_le _ _).trans ?_
  have s1 := abs_add_le (M' * Real.sin t * q) (h * (1 - Real.cos q))
  have hhd := mul_nonneg hh0 hd0
  have hn2 := sq_nonneg n
  have he2 := sq_nonneg e
  have hdd : d * d = d ^ 2 := by ring
  rw [add_mul |h| d d, hdd]
  linarith

end
end Artist.Geodesy
