import Verif.Spec.Converge
/-! Helper lemmas for C110. -/
namespace Artist.Converge
open Artist Matrix Real Transforms Kinematics Intersect Aiming

theorem length3_nonneg (v : Fin 4 → ℝ) : 0 ≤ length3 v := Real.sqrt_nonneg _

theorem length3_neg (v : Fin 4 → ℝ) : length3 (-v) = length3 v := by
  unfold length3; simp

theorem length3_sub_comm (a b : Fin 4 → ℝ) : length3 (a - b) = length3 (b - a) := by
  rw [← length3_neg, neg_sub]

theorem length3_triangle (a b c : Fin 4 → ℝ) : length3 (a - c) ≤ length3 (a - b) + length3 (b - c) := by
  have := length3_add_le (a - b) (b - c)
  rwa [sub_add_sub_cancel] at this

theorem length3_le_of_sq {v : Fin 4 → ℝ} {b : ℝ} (hb : 0 ≤ b) (h : v 0 ^ 2 + v 1 ^ 2 + v 2 ^ 2 ≤ b ^ 2) : length3 v ≤ b :=
  Real.sqrt_le_iff.2 ⟨hb, h⟩

/-- normalising is Lipschitz away from zero -/
theorem normalise_close (a b : Fin 4 → ℝ) {d : ℝ} (hd : 0 < d) (ha : d ≤ length3 a) (hb : d ≤ length3 b) :
    length3 ((length3 a)⁻¹ • a - (length3 b)⁻¹ • b) ≤ length3 (a - b) / d := by
  have ha0 : 0 < length3 a := lt_of_lt_of_le hd ha
  have hb0 : 0 < length3 b := lt_of_lt_of_le hd hb
  have sa := length3_sq a
  have sb := length3_sq b
  have sab := length3_sq (a - b)
  rw [le_div_iff₀ hd]
  refine abs_le_of_sq_le_sq' ?_ (length3_nonneg _) |>.2
  rw [mul_pow, length3_sq, sab]
  simp only [Pi.sub_apply, Pi.smul_apply, smul_eq_mul]
  generalize length3 a = x at *
  generalize length3 b = y at *
  have e : (x⁻¹ * a 0 - y⁻¹ * b 0) ^ 2 + (x⁻¹ * a 1 - y⁻¹ * b 1) ^ 2 + (x⁻¹ * a 2 - y⁻¹ * b 2) ^ 2 = 2 - 2 * (a 0 * b 0 + a 1 * b 1 + a 2 * b 2) / (x * y) := by
    have h1 : (x⁻¹ * a 0 - y⁻¹ * b 0) ^ 2 + (x⁻¹ * a 1 - y⁻¹ * b 1) ^ 2 + (x⁻¹ * a 2 - y⁻¹ * b 2) ^ 2 =
        (x⁻¹) ^ 2 * (a 0 ^ 2 + a 1 ^ 2 + a 2 ^ 2) + (y⁻¹) ^ 2 * (b 0 ^ 2 + b 1 ^ 2 + b 2 ^ 2) - 2 * (a 0 * b 0 + a 1 * b 1 + a 2 * b 2) * (x⁻¹ * y⁻¹) := by ring
    rw [h1, ← sa, ← sb]
    field_simp
    ring
  have e2 : (a 0 - b 0) ^ 2 + (a 1 - b 1) ^ 2 + (a 2 - b 2) ^ 2 = (x - y) ^ 2 + (x * y) * (2 - 2 * (a 0 * b 0 + a 1 * b 1 + a 2 * b 2) / (x * y)) := by
    have : (x * y) * (2 - 2 * (a 0 * b 0 + a 1 * b 1 + a 2 * b 2) / (x * y)) = 2 * (x * y) - 2 * (a 0 * b 0 + a 1 * b 1 + a 2 * b 2) := by
      field_simp
    rw [this]
    nlinarith
  rw [e2, e]
  have pos : 0 ≤ 2 - 2 * (a 0 * b 0 + a 1 * b 1 + a 2 * b 2) / (x * y) := by rw [← e]; positivity
  have hxy : d ^ 2 ≤ x * y := by nlinarith
  nlinarith [mul_le_mul_of_nonneg_right hxy pos, sq_nonneg (x - y)]

theorem toAim_close (aim : Fin 4 → ℝ) (M N : Mat) {d : ℝ} (hd : 0 < d) (hM : d ≤ slant aim M) (hN : d ≤ slant aim N) :
    length3 (toAim aim M - toAim aim N) ≤ length3 (centre M - centre N) / d := by
  have := normalise_close _ _ hd hM hN
  refine this.trans (le_of_eq ?_)
  congr 1
  rw [length3_sub_comm (centre M)]
  unfold length3 centre
  congr 1
  simp only [Pi.sub_apply, Matrix.cons_val]
  ring

/-- the desired normal is the direction of `toAim - incident` -/
theorem desired_eq (i aim : Fin 4 → ℝ) (M : Mat) (hi : i 3 = 0) (hfar : 1 / 10 ^ 8 ≤ slant aim M) (hback : 1 / 10 ^ 8 ≤ length3 (toAim aim M - i)) :
    Heliostat.desiredNormal i aim M = (length3 (toAim aim M - i))⁻¹ • (toAim aim M - i) := by
  set r := toAim aim M with hr
  have hr3 : r 3 = 0 := by simp [hr, toAim]
  set v : Fin 4 → ℝ := ![aim 0 - (M *ᵥ ![0, 0, 0, 1]) 0, aim 1 - (M *ᵥ ![0, 0, 0, 1]) 1, aim 2 - (M *ᵥ ![0, 0, 0, 1]) 2, 0] with hv
  have hrv : r = (length3 v)⁻¹ • v := rfl
  set w := r - i with hw
  have hw3 : w 3 = 0 := by simp [hw, hr3, hi]
  have hn3 : ∀ x : Fin 4 → ℝ, norm3 ![x 0, x 1, x 2] = length3 x := by
    intro x; rw [norm3, length3]; congr 1; simp [dotProduct, Fin.sum_univ_three]; ring
  have e1 : normalizeEps (1 / 10 ^ 8) ![aim 0 - (M *ᵥ origin) 0, aim 1 - (M *ᵥ origin) 1, aim 2 - (M *ᵥ origin) 2] =
      ![r 0, r 1, r 2] := by
    rw [show (![aim 0 - (M *ᵥ origin) 0, aim 1 - (M *ᵥ origin) 1, aim 2 - (M *ᵥ origin) 2] : Fin 3 → ℝ) = ![v 0, v 1, v 2] from rfl,
      normalizeEps_of_le (by rw [hn3]; exact hfar), hn3, hrv]
    ext j; fin_cases j <;> simp
  have e2 : normalizeEps (1 / 10 ^ 8) ![-i 0 + r 0, -i 1 + r 1, -i 2 + r 2] =
      (length3 w)⁻¹ • ![w 0, w 1, w 2] := by
    have : (![-i 0 + r 0, -i 1 + r 1, -i 2 + r 2] : Fin 3 → ℝ) = ![w 0, w 1, w 2] := by
      ext j; fin_cases j <;> simp [hw] <;> ring
    rw [this, normalizeEps_of_le (by rw [hn3]; exact hback), hn3]
  simp only [Heliostat.desiredNormal, e1]
  simp only [cons_val_zero, cons_val_one, cons_val_two, head_cons, tail_cons]
  rw [e2]
  ext j; fin_cases j <;> simp [hw3]

theorem desired_close (i aim : Fin 4 → ℝ) (M N : Mat) (hi : i 3 = 0) {far back : ℝ} (hf : 1 / 10 ^ 8 ≤ far) (hb : 1 / 10 ^ 8 ≤ back)
    (fM : far ≤ slant aim M) (fN : far ≤ slant aim N) (bM : back ≤ length3 (toAim aim M - i)) (bN : back ≤ length3 (toAim aim N - i)) :
    length3 (Heliostat.desiredNormal i aim M - Heliostat.desiredNormal i aim N) ≤ length3 (centre M - centre N) / (far * back) := by
  have f0 : 0 < far := lt_of_lt_of_le (by norm_num) hf
  have b0 : 0 < back := lt_of_lt_of_le (by norm_num) hb
  rw [desired_eq i aim M hi (hf.trans fM) (hb.trans bM), desired_eq i aim N hi (hf.trans fN) (hb.trans bN)]
  refine (normalise_close _ _ b0 bM bN).trans ?_
  rw [sub_sub_sub_cancel_right, div_le_iff₀ b0]
  refine (toAim_close aim M N f0 fM fN).trans (le_of_eq ?_)
  field_simp

/-! ### The mirror centre -/

theorem transl_mulVec (e n u : ℝ) (v : Fin 4 → ℝ) : transl e n u *ᵥ v = v + v 3 • ![e, n, u, 0] := by
  ext i; fin_cases i <;> simp [transl, mulVec, dotProduct, Fin.sum_univ_four] <;> ring

/-- the arm seen from the first joint -/
noncomputable def arm (h : Heliostat) (a b : ℝ) : Fin 4 → ℝ :=
  rotE a *ᵥ (h.deviation2 *ᵥ (![h.translation 3, h.translation 4, h.translation 5, 0] + rotU b *ᵥ ![h.translation 6, h.translation 7, h.translation 8, 0]))

theorem centre_eq (h : Heliostat) (a b : ℝ) : centre (h.anglesToOrientation a b) =
    origin + ![h.position 0, h.position 1, h.position 2, 0] + h.deviation1 *ᵥ (![h.translation 0, h.translation 1, h.translation 2, 0] + arm h a b) := by
  have hE : ∀ x, rotE x *ᵥ origin = origin := by
    intro x; ext i; fin_cases i <;> simp [rotE, origin, mulVec, dotProduct, Fin.sum_univ_four]
  have hN : ∀ x, rotN x *ᵥ origin = origin := by
    intro x; ext i; fin_cases i <;> simp [rotN, origin, mulVec, dotProduct, Fin.sum_univ_four]
  have hU : ∀ x, rotU x *ᵥ origin = origin := by
    intro x; ext i; fin_cases i <;> simp [rotU, origin, mulVec, dotProduct, Fin.sum_univ_four]
  have o3 : origin 3 = 1 := by simp [origin]
  set T0 : Fin 4 → ℝ := ![h.translation 0, h.translation 1, h.translation 2, 0] with hT0
  set T3 : Fin 4 → ℝ := ![h.translation 3, h.translation 4, h.translation 5, 0] with hT3
  set T6 : Fin 4 → ℝ := ![h.translation 6, h.translation 7, h.translation 8, 0] with hT6
  have z0 : T0 3 = 0 := by simp [hT0]
  have z3 : T3 3 = 0 := by simp [hT3]
  have z6 : T6 3 = 0 := by simp [hT6]
  have k1 : (rotU b *ᵥ T6) 3 = 0 := ((rigid_rotU b).homogeneous _).trans z6
  have step : ∀ (e n u : ℝ) (v : Fin 4 → ℝ), v 3 = 0 → transl e n u *ᵥ (origin + v) = origin + (v + ![e, n, u, 0]) := by
    intro e n u v hv
    rw [transl_mulVec]
    have : (origin + v) 3 = 1 := by simp [o3, hv]
    rw [this, one_smul, add_assoc]
  unfold centre Heliostat.anglesToOrientation
  rw [show (![0, 0, 0, 1] : Fin 4 → ℝ) = origin + 0 by simp [origin]]
  simp only [one_mul, ← mulVec_mulVec]
  rw [step _ _ _ 0 rfl, zero_add, mulVec_add, hU, step _ _ _ _ k1]
  have k2 : (rotU b *ᵥ T6 + T3) 3 = 0 := by simp [k1, z3]
  rw [mulVec_add (rotN _), hN, mulVec_add (rotE _), hE, mulVec_add (rotE a), hE]
  have k3 : (rotE a *ᵥ (rotE (h.rotation 2) *ᵥ (rotN (h.rotation 3) *ᵥ (rotU b *ᵥ T6 + T3)))) 3 = 0 := by
    rw [(rigid_rotE _).homogeneous, (rigid_rotE _).homogeneous, (rigid_rotN _).homogeneous, k2]
  rw [step _ _ _ _ k3, mulVec_add (rotU _), hU, mulVec_add (rotN _), hN]
  have k4 : (rotN (h.rotation 0) *ᵥ (rotU (h.rotation 1) *ᵥ (rotE a *ᵥ (rotE (h.rotation 2) *ᵥ (rotN (h.rotation 3) *ᵥ (rotU b *ᵥ T6 + T3))) + T0))) 3 = 0 := by
    rw [(rigid_rotN _).homogeneous, (rigid_rotU _).homogeneous, Pi.add_apply, k3, z0, add_zero]
  rw [step _ _ _ _ k4]
  simp only [arm, Heliostat.deviation1, Heliostat.deviation2, ← mulVec_mulVec, ← hT3, ← hT6]
  rw [add_comm T3, add_comm T0, add_comm (rotN _ *ᵥ _), add_assoc]

theorem dev1_rigid (h : Heliostat) : Rigid h.deviation1 := (rigid_rotN _).mul (rigid_rotU _)
theorem dev2_rigid (h : Heliostat) : Rigid h.deviation2 := (rigid_rotE _).mul (rigid_rotN _)

theorem arm_hom (h : Heliostat) (a b : ℝ) : arm h a b 3 = 0 := by
  unfold arm
  rw [(rigid_rotE _).homogeneous, (dev2_rigid h).homogeneous, Pi.add_apply, (rigid_rotU _).homogeneous]
  simp

theorem centre_distance (h : Heliostat) (a b a' b' : ℝ) :
    length3 (centre (h.anglesToOrientation a b) - centre (h.anglesToOrientation a' b')) = length3 (arm h a b - arm h a' b') := by
  rw [centre_eq, centre_eq, add_sub_add_left_eq_sub, ← mulVec_sub, add_sub_add_left_eq_sub, (dev1_rigid h).length_dir]
  simp [arm_hom]

theorem arm_length (h : Heliostat) (a b : ℝ) : length3 (arm h a b) ≤ lever h := by
  have z6 : (![h.translation 6, h.translation 7, h.translation 8, 0] : Fin 4 → ℝ) 3 = 0 := by simp
  have z3 : (![h.translation 3, h.translation 4, h.translation 5, 0] : Fin 4 → ℝ) 3 = 0 := by simp
  have k1 : (rotU b *ᵥ ![h.translation 6, h.translation 7, h.translation 8, 0]) 3 = 0 := ((rigid_rotU b).homogeneous _).trans z6
  have k2 : (![h.translation 3, h.translation 4, h.translation 5, 0] + rotU b *ᵥ ![h.translation 6, h.translation 7, h.translation 8, 0]) 3 = 0 := by
    rw [Pi.add_apply, k1, z3, add_zero]
  unfold arm lever secondJoint concentrator
  rw [(rigid_rotE a).length_dir _ (by rw [(dev2_rigid h).homogeneous, k2]), (dev2_rigid h).length_dir _ k2]
  refine (length3_add_le _ _).trans ?_
  rw [(rigid_rotU b).length_dir _ z6]

/-- distance of two directions on the circle -/
noncomputable def turn (a a' : ℝ) : ℝ := √((cos a - cos a') ^ 2 + (sin a - sin a') ^ 2)

theorem rotE_close (a a' : ℝ) (v : Fin 4 → ℝ) : length3 (rotE a *ᵥ v - rotE a' *ᵥ v) ≤ turn a a' * length3 v := by
  refine length3_le_of_sq (mul_nonneg (Real.sqrt_nonneg _) (length3_nonneg _)) ?_
  rw [mul_pow, length3_sq, turn, Real.sq_sqrt (by positivity)]
  simp [rotE, mulVec, dotProduct, Fin.sum_univ_four]
  nlinarith [mul_nonneg (add_nonneg (sq_nonneg (cos a - cos a')) (sq_nonneg (sin a - sin a'))) (sq_nonneg (v 0))]

theorem rotU_close (a a' : ℝ) (v : Fin 4 → ℝ) : length3 (rotU a *ᵥ v - rotU a' *ᵥ v) ≤ turn a a' * length3 v := by
  refine length3_le_of_sq (mul_nonneg (Real.sqrt_nonneg _) (length3_nonneg _)) ?_
  rw [mul_pow, length3_sq, turn, Real.sq_sqrt (by positivity)]
  simp [rotU, mulVec, dotProduct, Fin.sum_univ_four]
  nlinarith [mul_nonneg (add_nonneg (sq_nonneg (cos a - cos a')) (sq_nonneg (sin a - sin a'))) (sq_nonneg (v 2))]

theorem arm_close (h : Heliostat) (a b a' b' : ℝ) : length3 (arm h a b - arm h a' b') ≤ turn a a' * lever h + turn b b' * concentrator h := by
  set T3 : Fin 4 → ℝ := ![h.translation 3, h.translation 4, h.translation 5, 0] with hT3
  set T6 : Fin 4 → ℝ := ![h.translation 6, h.translation 7, h.translation 8, 0] with hT6
  have z3 : T3 3 = 0 := by simp [hT3]
  have z6 : T6 3 = 0 := by simp [hT6]
  have k : ∀ b, (rotU b *ᵥ T6) 3 = 0 := fun b => ((rigid_rotU b).homogeneous _).trans z6
  have e : arm h a b - arm h a' b' = (rotE a *ᵥ (h.deviation2 *ᵥ (T3 + rotU b *ᵥ T6)) - rotE a' *ᵥ (h.deviation2 *ᵥ (T3 + rotU b *ᵥ T6))) +
      rotE a' *ᵥ (h.deviation2 *ᵥ (rotU b *ᵥ T6 - rotU b' *ᵥ T6)) := by
    unfold arm
    rw [← hT3, ← hT6]
    have : rotU b *ᵥ T6 - rotU b' *ᵥ T6 = (T3 + rotU b *ᵥ T6) - (T3 + rotU b' *ᵥ T6) := by abel
    rw [this, mulVec_sub, mulVec_sub]
    abel
  rw [e]
  refine (length3_add_le _ _).trans (add_le_add ?_ ?_)
  · refine (rotE_close _ _ _).trans (mul_le_mul_of_nonneg_left ?_ (Real.sqrt_nonneg _))
    rw [(dev2_rigid h).length_dir _ (by rw [Pi.add_apply, k, z3, add_zero])]
    refine (length3_add_le _ _).trans ?_
    rw [(rigid_rotU b).length_dir _ z6]
    exact le_rfl
  · have z : (rotU b *ᵥ T6 - rotU b' *ᵥ T6) 3 = 0 := by rw [Pi.sub_apply, k, k, sub_zero]
    rw [(rigid_rotE a').length_dir _ (by rw [(dev2_rigid h).homogeneous, z]), (dev2_rigid h).length_dir _ z]
    exact rotU_close _ _ _

/-! ### The joint angles as functions of the wanted normal -/

theorem turn_wrap (a a' : ℝ) : turn (Heliostat.wrap a) (Heliostat.wrap a') = turn a a' := by
  unfold turn; rw [wrap_cos, wrap_cos, wrap_sin, wrap_sin]

theorem turn_sub (a a' p : ℝ) : turn (a - p) (a' - p) = turn a a' := by
  unfold turn
  congr 1
  rw [cos_sub, cos_sub, sin_sub, sin_sub]
  have := sin_sq_add_cos_sq p
  linear_combination ((cos a - cos a') ^ 2 + (sin a - sin a') ^ 2) * this

theorem turn_pi (a a' : ℝ) : turn (π - a) (π - a') = turn a a' := by
  unfold turn; rw [cos_pi_sub, cos_pi_sub, sin_pi_sub, sin_pi_sub]; congr 1; ring

theorem root_close {x y s : ℝ} (hs : s < 1) (hx : |x| ≤ s) (hy : |y| ≤ s) :
    (x - y) ^ 2 + (√(1 - x ^ 2) - √(1 - y ^ 2)) ^ 2 ≤ (x - y) ^ 2 / (1 - s ^ 2) := by
  have s0 : 0 ≤ s := (abs_nonneg x).trans hx
  have hk : 0 < 1 - s ^ 2 := by nlinarith
  have hx2 : x ^ 2 ≤ s ^ 2 := sq_le_sq' (by linarith [(abs_le.1 hx).1]) (abs_le.1 hx).2
  have hy2 : y ^ 2 ≤ s ^ 2 := sq_le_sq' (by linarith [(abs_le.1 hy).1]) (abs_le.1 hy).2
  set c := √(1 - x ^ 2) with hc
  set d := √(1 - y ^ 2) with hd
  have c2 : c ^ 2 = 1 - x ^ 2 := Real.sq_sqrt (by linarith)
  have d2 : d ^ 2 = 1 - y ^ 2 := Real.sq_sqrt (by linarith)
  have c0 : 0 ≤ c := Real.sqrt_nonneg _
  have d0 : 0 ≤ d := Real.sqrt_nonneg _
  have hcd : 1 - s ^ 2 ≤ c * d := by
    refine le_of_sq_le_sq ?_ (mul_nonneg c0 d0)
    rw [mul_pow, c2, d2]; nlinarith
  have e1 : (c - d) ^ 2 * (c + d) ^ 2 = (x - y) ^ 2 * (x + y) ^ 2 := by
    have : (c - d) * (c + d) = - ((x - y) * (x + y)) := by nlinarith
    rw [← mul_pow, this]; ring
  have e2 : 4 * (1 - s ^ 2) ≤ (c + d) ^ 2 := by nlinarith
  have e3 : (x + y) ^ 2 ≤ 4 * s ^ 2 := by nlinarith [sq_nonneg (x - y)]
  rw [le_div_iff₀ hk]
  nlinarith [mul_le_mul_of_nonneg_left e2 (sq_nonneg (c - d)), mul_le_mul_of_nonneg_left e3 (sq_nonneg (x - y))]

theorem turn_arcsin {x y s : ℝ} (hs : s < 1) (hx : |x| ≤ s) (hy : |y| ≤ s) :
    turn (arcsin x) (arcsin y) ≤ |x - y| / √(1 - s ^ 2) := by
  have s0 : 0 ≤ s := (abs_nonneg x).trans hx
  have hk : 0 < 1 - s ^ 2 := by nlinarith
  have := root_close hs hx hy
  unfold turn
  rw [sin_arcsin (by linarith [(abs_le.1 hx).1]) (by linarith [(abs_le.1 hx).2]), sin_arcsin (by linarith [(abs_le.1 hy).1]) (by linarith [(abs_le.1 hy).2]),
    cos_arcsin, cos_arcsin]
  refine Real.sqrt_le_iff.2 ⟨by positivity, ?_⟩
  rw [div_pow, sq_abs, Real.sq_sqrt hk.le]
  linarith

theorem firstAngle_cs (h : Heliostat) (n' : Fin 4 → ℝ) (b : ℝ) :
    √(vOf h b 1 ^ 2 + vOf h b 2 ^ 2) * √(n' 1 ^ 2 + n' 2 ^ 2) * cos (h.firstAngle n' b) = vOf h b 1 * n' 1 + vOf h b 2 * n' 2 ∧
    √(vOf h b 1 ^ 2 + vOf h b 2 ^ 2) * √(n' 1 ^ 2 + n' 2 ^ 2) * sin (h.firstAngle n' b) = vOf h b 1 * n' 2 - vOf h b 2 * n' 1 := by
  set v := vOf h b with hv
  have hv' : (h.deviation2 * rotU b) *ᵥ south = v := by rw [hv, vOf, mulVec_mulVec]
  have hc := atan2_cos (v 1 * n' 2 - v 2 * n' 1) (v 1 * n' 1 + v 2 * n' 2)
  have hs := atan2_sin (v 1 * n' 2 - v 2 * n' 1) (v 1 * n' 1 + v 2 * n' 2)
  have hr : √((v 1 * n' 1 + v 2 * n' 2) ^ 2 + (v 1 * n' 2 - v 2 * n' 1) ^ 2) = √(v 1 ^ 2 + v 2 ^ 2) * √(n' 1 ^ 2 + n' 2 ^ 2) := by
    rw [← Real.sqrt_mul (by positivity)]; congr 1; ring
  rw [hr] at hc hs
  have hθ : h.firstAngle n' b = Heliostat.wrap (atan2 (v 1 * n' 2 - v 2 * n' 1) (v 1 * n' 1 + v 2 * n' 2)) := by
    rw [Heliostat.firstAngle, hv']
  rw [hθ, wrap_cos, wrap_sin]
  exact ⟨hc, hs⟩

/-- the part of a vector across the first axis -/
def across (v : Fin 4 → ℝ) : Fin 4 → ℝ := ![0, v 1, v 2, 0]

theorem length3_across (v : Fin 4 → ℝ) : length3 (across v) = √(v 1 ^ 2 + v 2 ^ 2) := by
  unfold length3 across; simp

theorem across_le (v w : Fin 4 → ℝ) : length3 (across v - across w) ≤ length3 (v - w) := by
  unfold length3 across
  refine Real.sqrt_le_sqrt ?_
  simp
  positivity

/-- product of unit vectors of the plane -/
theorem product_close (p p' r r' : Fin 4 → ℝ) (hp : p 1 ^ 2 + p 2 ^ 2 = 1) (hr : r' 1 ^ 2 + r' 2 ^ 2 = 1) :
    √((p 1 * r 1 + p 2 * r 2 - (p' 1 * r' 1 + p' 2 * r' 2)) ^ 2 + (p 1 * r 2 - p 2 * r 1 - (p' 1 * r' 2 - p' 2 * r' 1)) ^ 2) ≤ length3 (p - p') + length3 (r - r') := by
  set x : Fin 4 → ℝ := ![(p 1 - p' 1) * r' 1 + (p 2 - p' 2) * r' 2, (p 1 - p' 1) * r' 2 - (p 2 - p' 2) * r' 1, 0, 0] with hx
  set y : Fin 4 → ℝ := ![p 1 * (r 1 - r' 1) + p 2 * (r 2 - r' 2), p 1 * (r 2 - r' 2) - p 2 * (r 1 - r' 1), 0, 0] with hy
  have e : √((p 1 * r 1 + p 2 * r 2 - (p' 1 * r' 1 + p' 2 * r' 2)) ^ 2 + (p 1 * r 2 - p 2 * r 1 - (p' 1 * r' 2 - p' 2 * r' 1)) ^ 2) = length3 (x + y) := by
    unfold length3
    congr 1
    simp [hx, hy]
    ring
  rw [e]
  refine (length3_add_le x y).trans (add_le_add ?_ ?_)
  · refine length3_le_of_sq (length3_nonneg _) ?_
    rw [length3_sq]
    simp only [hx, Pi.sub_apply, Matrix.cons_val]
    have : ((p 1 - p' 1) * r' 1 + (p 2 - p' 2) * r' 2) ^ 2 + ((p 1 - p' 1) * r' 2 - (p 2 - p' 2) * r' 1) ^ 2 = ((p 1 - p' 1) ^ 2 + (p 2 - p' 2) ^ 2) * (r' 1 ^ 2 + r' 2 ^ 2) := by ring
    nlinarith [sq_nonneg (p 0 - p' 0)]
  · refine length3_le_of_sq (length3_nonneg _) ?_
    rw [length3_sq]
    simp only [hy, Pi.sub_apply, Matrix.cons_val]
    have : (p 1 * (r 1 - r' 1) + p 2 * (r 2 - r' 2)) ^ 2 + (p 1 * (r 2 - r' 2) - p 2 * (r 1 - r' 1)) ^ 2 = ((r 1 - r' 1) ^ 2 + (r 2 - r' 2) ^ 2) * (p 1 ^ 2 + p 2 ^ 2) := by ring
    nlinarith [sq_nonneg (r 0 - r' 0)]

theorem vOf_close (h : Heliostat) (b b' : ℝ) : length3 (vOf h b - vOf h b') ≤ turn b b' := by
  have s3 : south 3 = 0 := by simp [south]
  have k : ∀ b, (rotU b *ᵥ south) 3 = 0 := fun b => ((rigid_rotU b).homogeneous _).trans s3
  unfold vOf
  rw [← mulVec_sub, (dev2_rigid h).length_dir _ (by rw [Pi.sub_apply, k, k, sub_zero])]
  refine (rotU_close b b' south).trans (le_of_eq ?_)
  rw [show length3 south = 1 by simp [length3, south], mul_one]

theorem turn_first (h : Heliostat) (n n' : Fin 4 → ℝ) (b b' : ℝ) {k : ℝ} (hk : 0 < k)
    (hn : k ≤ √(n 1 ^ 2 + n 2 ^ 2)) (hn' : k ≤ √(n' 1 ^ 2 + n' 2 ^ 2))
    (hv : k ≤ √(vOf h b 1 ^ 2 + vOf h b 2 ^ 2)) (hv' : k ≤ √(vOf h b' 1 ^ 2 + vOf h b' 2 ^ 2)) :
    turn (h.firstAngle n b) (h.firstAngle n' b') ≤ (turn b b' + length3 (n - n')) / k := by
  have pn := lt_of_lt_of_le hk hn
  have pn' := lt_of_lt_of_le hk hn'
  have pv := lt_of_lt_of_le hk hv
  have pv' := lt_of_lt_of_le hk hv'
  have norm1 : ∀ w : Fin 4 → ℝ, 0 < √(w 1 ^ 2 + w 2 ^ 2) → ((length3 (across w))⁻¹ • across w) 1 ^ 2 + ((length3 (across w))⁻¹ • across w) 2 ^ 2 = 1 := by
    intro w hw
    rw [length3_across]
    have : √(w 1 ^ 2 + w 2 ^ 2) ^ 2 = w 1 ^ 2 + w 2 ^ 2 := Real.sq_sqrt (by positivity)
    simp only [across, Pi.smul_apply, smul_eq_mul, Matrix.cons_val, mul_pow, inv_pow, ← mul_add, this]
    rw [inv_mul_cancel₀]
    rw [← this]; positivity
  have key := product_close ((length3 (across (vOf h b)))⁻¹ • across (vOf h b)) ((length3 (across (vOf h b')))⁻¹ • across (vOf h b'))
    ((length3 (across n))⁻¹ • across n) ((length3 (across n'))⁻¹ • across n') (norm1 _ pv) (norm1 _ pn')
  obtain ⟨c, s⟩ := firstAngle_cs h n b
  obtain ⟨c', s'⟩ := firstAngle_cs h n' b'
  have l1 := (normalise_close (across (vOf h b)) (across (vOf h b')) hk (by rwa [length3_across]) (by rwa [length3_across])).trans
    (div_le_div_of_nonneg_right ((across_le _ _).trans (vOf_close h b b')) hk.le)
  have l2 := (normalise_close (across n) (across n') hk (by rwa [length3_across]) (by rwa [length3_across])).trans
    (div_le_div_of_nonneg_right (across_le _ _) hk.le)
  rw [add_div]
  refine le_trans (le_of_eq ?_) (key.trans (add_le_add l1 l2))
  simp only [length3_across]
  simp only [Pi.smul_apply, smul_eq_mul, across, Matrix.cons_val]
  generalize vOf h b = v at *
  generalize vOf h b' = v' at *
  generalize √(v 1 ^ 2 + v 2 ^ 2) = x at *
  generalize √(v' 1 ^ 2 + v' 2 ^ 2) = x' at *
  generalize √(n 1 ^ 2 + n 2 ^ 2) = y at *
  generalize √(n' 1 ^ 2 + n' 2 ^ 2) = y' at *
  have a1 : x⁻¹ * v 1 * (y⁻¹ * n 1) + x⁻¹ * v 2 * (y⁻¹ * n 2) = cos (h.firstAngle n b) := by
    rw [show x⁻¹ * v 1 * (y⁻¹ * n 1) + x⁻¹ * v 2 * (y⁻¹ * n 2) = x⁻¹ * y⁻¹ * (v 1 * n 1 + v 2 * n 2) by ring, ← c]; field_simp
  have a2 : x⁻¹ * v 1 * (y⁻¹ * n 2) - x⁻¹ * v 2 * (y⁻¹ * n 1) = sin (h.firstAngle n b) := by
    rw [show x⁻¹ * v 1 * (y⁻¹ * n 2) - x⁻¹ * v 2 * (y⁻¹ * n 1) = x⁻¹ * y⁻¹ * (v 1 * n 2 - v 2 * n 1) by ring, ← s]; field_simp
  have a3 : x'⁻¹ * v' 1 * (y'⁻¹ * n' 1) + x'⁻¹ * v' 2 * (y'⁻¹ * n' 2) = cos (h.firstAngle n' b') := by
    rw [show x'⁻¹ * v' 1 * (y'⁻¹ * n' 1) + x'⁻¹ * v' 2 * (y'⁻¹ * n' 2) = x'⁻¹ * y'⁻¹ * (v' 1 * n' 1 + v' 2 * n' 2) by ring, ← c']; field_simp
  have a4 : x'⁻¹ * v' 1 * (y'⁻¹ * n' 2) - x'⁻¹ * v' 2 * (y'⁻¹ * n' 1) = sin (h.firstAngle n' b') := by
    rw [show x'⁻¹ * v' 1 * (y'⁻¹ * n' 2) - x'⁻¹ * v' 2 * (y'⁻¹ * n' 1) = x'⁻¹ * y'⁻¹ * (v' 1 * n' 2 - v' 2 * n' 1) by ring, ← s']; field_simp
  rw [a1, a2, a3, a4, turn]

/-- the ratio of the inverse kinematics, which is not clamped away from the axis -/
theorem ratio_eq {c A s ε : ℝ} (hA : 0 < A) (hε : 0 < ε) (s0 : 0 ≤ s) (hs : s ≤ 1 - ε) (hc : |c| ≤ s * A) :
    Actuators.clamp (c / (A + ε)) (-1 + ε) (1 - ε) = c / (A + ε) ∧ |c / (A + ε)| ≤ s ∧ |A * (c / (A + ε)) - c| ≤ ε ∧ |A * (c / (A + ε))| ≤ s * A := by
  have hp : 0 < A + ε := by linarith
  have b : |c / (A + ε)| ≤ s := by
    rw [abs_div, abs_of_pos hp, div_le_iff₀ hp]; nlinarith
  refine ⟨?_, b, ?_, ?_⟩
  · obtain ⟨l, r⟩ := abs_le.1 b
    unfold Actuators.clamp
    rw [max_eq_left (by linarith), min_eq_left (by linarith)]
  · have : A * (c / (A + ε)) - c = - (c / (A + ε) * ε) := by field_simp; ring
    rw [this, abs_neg, abs_mul, abs_of_pos hε]
    nlinarith
  · rw [abs_mul, abs_of_pos hA, mul_comm]
    exact mul_le_mul_of_nonneg_right b hA.le

theorem dev1_transpose (h : Heliostat) (n : Fin 4 → ℝ) (hn : n 3 = 0) : (h.deviation1ᵀ *ᵥ n) 3 = 0 ∧ length3 (h.deviation1ᵀ *ᵥ n) = length3 n := by
  have hnn : h.deviation1 *ᵥ (h.deviation1ᵀ *ᵥ n) = n := transpose_cancel (orth_dev1 h) n
  have h3 : (h.deviation1ᵀ *ᵥ n) 3 = 0 := by rw [← (dev1_rigid h).homogeneous (h.deviation1ᵀ *ᵥ n), hnn]; exact hn
  exact ⟨h3, by rw [← (dev1_rigid h).length_dir _ h3, hnn]⟩

/-- the joint angles for a normal away from the first axis -/
theorem jointAngles_eq (h : Heliostat) (n : Fin 4 → ℝ) {s ε : ℝ} (hA : cos (h.rotation 3) ≠ 0) (hε : 0 < ε) (s0 : 0 ≤ s) (hs : s ≤ 1 - ε)
    (hc : |(h.deviation1ᵀ *ᵥ n) 0| ≤ s * |cos (h.rotation 3)|) :
    ∃ ρ phi, ρ = (h.deviation1ᵀ *ᵥ n) 0 / (|cos (h.rotation 3)| + ε) ∧ phi = atan2 (-(h.deviation2 0 1)) (h.deviation2 0 0) ∧
      h.jointAngles ε n = ((h.firstAngle (h.deviation1ᵀ *ᵥ n) (Heliostat.wrap (arcsin ρ - phi)), Heliostat.wrap (arcsin ρ - phi)),
        (h.firstAngle (h.deviation1ᵀ *ᵥ n) (Heliostat.wrap (π - arcsin ρ - phi)), Heliostat.wrap (π - arcsin ρ - phi))) := by
  obtain ⟨e1, e2⟩ := dev2_entries h
  have hden : √((h.deviation2 0 0) ^ 2 + (h.deviation2 0 1) ^ 2) = |cos (h.rotation 3)| := by
    rw [e1, e2]; simp [Real.sqrt_sq_eq_abs]
  refine ⟨_, _, rfl, rfl, ?_⟩
  simp only [Heliostat.jointAngles, hden, (ratio_eq (abs_pos.2 hA) hε s0 hs hc).1]

theorem across_lower {v : Fin 4 → ℝ} {s : ℝ} (s0 : 0 ≤ s) (hu : v 0 ^ 2 + v 1 ^ 2 + v 2 ^ 2 = 1) (hv : |v 0| ≤ s) : √(1 - s ^ 2) ≤ √(v 1 ^ 2 + v 2 ^ 2) := by
  refine Real.sqrt_le_sqrt ?_
  have : v 0 ^ 2 ≤ s ^ 2 := sq_le_sq' (by linarith [(abs_le.1 hv).1]) (abs_le.1 hv).2
  linarith

theorem mul_abs_cos_le {s : ℝ} (s0 : 0 ≤ s) (x : ℝ) : s * |cos x| ≤ s := mul_le_of_le_one_right s0 (abs_cos_le_one x)

/-- one of the two solutions, for two normals -/
theorem solution_close (h : Heliostat) (n n' : Fin 4 → ℝ) {s ε : ℝ} (hA : cos (h.rotation 3) ≠ 0) (hε : 0 < ε) (s0 : 0 ≤ s) (hs : s ≤ 1 - ε)
    (un : UnitDirection n) (un' : UnitDirection n')
    (hc : |(h.deviation1ᵀ *ᵥ n) 0| ≤ s * |cos (h.rotation 3)|) (hc' : |(h.deviation1ᵀ *ᵥ n') 0| ≤ s * |cos (h.rotation 3)|) :
    (length3 (centre (h.anglesToOrientation (h.jointAngles ε n).1.1 (h.jointAngles ε n).1.2) - centre (h.anglesToOrientation (h.jointAngles ε n').1.1 (h.jointAngles ε n').1.2)) ≤
      stretch h s * length3 (n - n')) ∧
    (length3 (centre (h.anglesToOrientation (h.jointAngles ε n).2.1 (h.jointAngles ε n).2.2) - centre (h.anglesToOrientation (h.jointAngles ε n').2.1 (h.jointAngles ε n').2.2)) ≤
      stretch h s * length3 (n - n')) := by
  have A0 : 0 < |cos (h.rotation 3)| := abs_pos.2 hA
  have s1 : s < 1 := by linarith
  have hk : 0 < 1 - s ^ 2 := by nlinarith
  have k0 : 0 < √(1 - s ^ 2) := Real.sqrt_pos.2 hk
  obtain ⟨z, l⟩ := dev1_transpose h n un.1
  obtain ⟨z', l'⟩ := dev1_transpose h n' un'.1
  have dl : length3 (h.deviation1ᵀ *ᵥ n - h.deviation1ᵀ *ᵥ n') = length3 (n - n') := by
    rw [← mulVec_sub]; exact (dev1_transpose h (n - n') (by rw [Pi.sub_apply, un.1, un'.1, sub_zero])).2
  have u1 : (h.deviation1ᵀ *ᵥ n) 0 ^ 2 + (h.deviation1ᵀ *ᵥ n) 1 ^ 2 + (h.deviation1ᵀ *ᵥ n) 2 ^ 2 = 1 := by rw [← length3_sq, l, un.2, one_pow]
  have u1' : (h.deviation1ᵀ *ᵥ n') 0 ^ 2 + (h.deviation1ᵀ *ᵥ n') 1 ^ 2 + (h.deviation1ᵀ *ᵥ n') 2 ^ 2 = 1 := by rw [← length3_sq, l', un'.2, one_pow]
  obtain ⟨ρ, phi, hρ, hphi, hj⟩ := jointAngles_eq h n hA hε s0 hs hc
  obtain ⟨ρ', phi', hρ', hphi', hj'⟩ := jointAngles_eq h n' hA hε s0 hs hc'
  obtain ⟨-, r1, -, r2⟩ := ratio_eq A0 hε s0 hs hc
  obtain ⟨-, r1', -, r2'⟩ := ratio_eq A0 hε s0 hs hc'
  rw [← hρ] at r1 r2
  rw [← hρ'] at r1' r2'
  have dρ : |ρ - ρ'| ≤ length3 (n - n') / |cos (h.rotation 3)| := by
    rw [hρ, hρ', ← sub_div, abs_div, abs_of_pos (by linarith : 0 < |cos (h.rotation 3)| + ε)]
    refine div_le_div₀ (length3_nonneg _) ?_ A0 (by linarith)
    rw [← dl]
    exact abs_comp_le_length3 (h.deviation1ᵀ *ᵥ n - h.deviation1ᵀ *ᵥ n') |>.1
  have t2 : turn (arcsin ρ) (arcsin ρ') ≤ length3 (n - n') / (|cos (h.rotation 3)| * √(1 - s ^ 2)) := by
    refine (turn_arcsin s1 r1 r1').trans ?_
    rw [← div_div]
    exact div_le_div_of_nonneg_right dρ k0.le
  have bound : ∀ b b', vOf h b 0 = |cos (h.rotation 3)| * ρ → vOf h b' 0 = |cos (h.rotation 3)| * ρ' → turn b b' = turn (arcsin ρ) (arcsin ρ') →
      length3 (centre (h.anglesToOrientation (h.firstAngle (h.deviation1ᵀ *ᵥ n) b) b) - centre (h.anglesToOrientation (h.firstAngle (h.deviation1ᵀ *ᵥ n') b') b')) ≤ stretch h s * length3 (n - n') := by
    intro b b' hb hb' hbb
    rw [centre_distance]
    refine (arm_close h _ _ _ _).trans ?_
    have lev : 0 ≤ lever h := add_nonneg (length3_nonneg _) (length3_nonneg _)
    have con : 0 ≤ concentrator h := length3_nonneg _
    have t1 := turn_first h (h.deviation1ᵀ *ᵥ n) (h.deviation1ᵀ *ᵥ n') b b' k0
      (across_lower s0 u1 (hc.trans (mul_abs_cos_le s0 _))) (across_lower s0 u1' (hc'.trans (mul_abs_cos_le s0 _)))
      (across_lower s0 (vOf_unit h b) (by rw [hb]; exact r2.trans (mul_abs_cos_le s0 _)))
      (across_lower s0 (vOf_unit h b') (by rw [hb']; exact r2'.trans (mul_abs_cos_le s0 _)))
    rw [dl, hbb] at t1
    rw [hbb]
    have t1' : turn (h.firstAngle (h.deviation1ᵀ *ᵥ n) b) (h.firstAngle (h.deviation1ᵀ *ᵥ n') b') ≤
        (1 + 1 / (|cos (h.rotation 3)| * √(1 - s ^ 2))) / √(1 - s ^ 2) * length3 (n - n') := by
      refine t1.trans ?_
      rw [div_mul_eq_mul_div]
      refine div_le_div_of_nonneg_right ?_ k0.le
      have e : (1 + 1 / (|cos (h.rotation 3)| * √(1 - s ^ 2))) * length3 (n - n') = length3 (n - n') / (|cos (h.rotation 3)| * √(1 - s ^ 2)) + length3 (n - n') := by ring
      rw [e]
      linarith
    calc _ ≤ (1 + 1 / (|cos (h.rotation 3)| * √(1 - s ^ 2))) / √(1 - s ^ 2) * length3 (n - n') * lever h + length3 (n - n') / (|cos (h.rotation 3)| * √(1 - s ^ 2)) * concentrator h :=
          add_le_add (mul_le_mul_of_nonneg_right t1' lev) (mul_le_mul_of_nonneg_right t2 con)
      _ = stretch h s * length3 (n - n') := by unfold stretch; ring
  obtain ⟨b1, b2⟩ := arcsin_branch h (ρ := ρ) (by linarith [(abs_le.1 r1).1]) (by linarith [(abs_le.1 r1).2])
  obtain ⟨b1', b2'⟩ := arcsin_branch h (ρ := ρ') (by linarith [(abs_le.1 r1').1]) (by linarith [(abs_le.1 r1').2])
  rw [hj, hj', hphi, hphi']
  refine ⟨bound _ _ b1 b1' (by rw [turn_wrap, turn_sub]), bound _ _ b2 b2' (by rw [turn_wrap, turn_sub, turn_pi])⟩

/-- away from the first axis, the solutions miss the normal by the order of epsilon only -/
theorem solution_sharp (h : Heliostat) (n : Fin 4 → ℝ) {s ε : ℝ} (hA : cos (h.rotation 3) ≠ 0) (hε : 0 < ε) (s0 : 0 ≤ s) (hs : s ≤ 1 - ε)
    (un : UnitDirection n) (hc : |(h.deviation1ᵀ *ᵥ n) 0| ≤ s * |cos (h.rotation 3)|) (θ : ℝ × ℝ) (hθ : θ = (h.jointAngles ε n).1 ∨ θ = (h.jointAngles ε n).2) :
    length3 (h.anglesToOrientation θ.1 θ.2 *ᵥ south - n) ≤ ε / √(1 - s ^ 2) := by
  have A0 : 0 < |cos (h.rotation 3)| := abs_pos.2 hA
  have s1 : s < 1 := by linarith
  have hk : 0 < 1 - s ^ 2 := by nlinarith
  have k0 : 0 < √(1 - s ^ 2) := Real.sqrt_pos.2 hk
  obtain ⟨z, l⟩ := dev1_transpose h n un.1
  have u1 : (h.deviation1ᵀ *ᵥ n) 0 ^ 2 + (h.deviation1ᵀ *ᵥ n) 1 ^ 2 + (h.deviation1ᵀ *ᵥ n) 2 ^ 2 = 1 := by rw [← length3_sq, l, un.2, one_pow]
  have hnn : h.deviation1 *ᵥ (h.deviation1ᵀ *ᵥ n) = n := transpose_cancel (orth_dev1 h) n
  obtain ⟨ρ, phi, hρ, hphi, hj⟩ := jointAngles_eq h n hA hε s0 hs hc
  obtain ⟨-, r1, r3, r2⟩ := ratio_eq A0 hε s0 hs hc
  rw [← hρ] at r1 r2 r3
  have bound : ∀ b, vOf h b 0 = |cos (h.rotation 3)| * ρ → length3 (h.anglesToOrientation (h.firstAngle (h.deviation1ᵀ *ᵥ n) b) b *ᵥ south - n) ≤ ε / √(1 - s ^ 2) := by
    intro b hb
    obtain ⟨w0, w3, w12, wd⟩ := firstAngle_spec h (h.deviation1ᵀ *ᵥ n) b
    rw [normal_of_angles]
    set n' := h.deviation1ᵀ *ᵥ n with hn'
    set w := rotE (h.firstAngle n' b) *ᵥ vOf h b with hw
    have hd : length3 (h.deviation1 *ᵥ w - n) = length3 (w - n') := by
      conv_lhs => rw [← hnn]
      exact (dev1_rigid h).distance w n' (w3.trans z.symm)
    rw [hd]
    refine length3_le_of_sq (by positivity) ?_
    have hvu := vOf_unit h b
    have rc := root_close s1 (r2.trans (mul_abs_cos_le s0 _)) (hc.trans (mul_abs_cos_le s0 _))
    rw [← hb] at rc r3
    have e1 : 1 - vOf h b 0 ^ 2 = vOf h b 1 ^ 2 + vOf h b 2 ^ 2 := by linarith
    have e2 : 1 - n' 0 ^ 2 = n' 1 ^ 2 + n' 2 ^ 2 := by linarith
    rw [e1, e2] at rc
    have q1 : √(vOf h b 1 ^ 2 + vOf h b 2 ^ 2) ^ 2 = vOf h b 1 ^ 2 + vOf h b 2 ^ 2 := Real.sq_sqrt (by positivity)
    have q2 : √(n' 1 ^ 2 + n' 2 ^ 2) ^ 2 = n' 1 ^ 2 + n' 2 ^ 2 := Real.sq_sqrt (by positivity)
    have le : (vOf h b 0 - n' 0) ^ 2 / (1 - s ^ 2) ≤ (ε / √(1 - s ^ 2)) ^ 2 := by
      rw [div_pow, Real.sq_sqrt hk.le]
      refine div_le_div_of_nonneg_right ?_ hk.le
      exact sq_le_sq' (by linarith [(abs_le.1 r3).1]) (abs_le.1 r3).2
    refine le_trans (le_of_eq ?_) (rc.trans le)
    simp only [Pi.sub_apply]
    rw [w0]
    linear_combination w12 - 2 * wd - q1 - q2
  obtain ⟨b1, b2⟩ := arcsin_branch h (ρ := ρ) (by linarith [(abs_le.1 r1).1]) (by linarith [(abs_le.1 r1).2])
  rcases hθ with rfl | rfl <;> rw [hj, hphi]
  · exact bound _ b1
  · exact bound _ b2

/-! ### Iterations -/

theorem centre_offset (h : Heliostat) (m : ℝ × ℝ) : centre (h.motorToOrientation m) = centre (h.forward m) := by
  unfold centre
  rw [Heliostat.motorToOrientation, offset_eq, ← mulVec_mulVec]
  congr 1
  ext i; fin_cases i <;> simp [rotE, mulVec, dotProduct, Fin.sum_univ_four]

theorem slant_offset (aim : Fin 4 → ℝ) (h : Heliostat) (m : ℝ × ℝ) : slant aim (h.motorToOrientation m) = slant aim (h.forward m) := by
  have := centre_offset h m
  unfold centre at this
  unfold slant
  rw [this]

theorem toAim_offset (aim : Fin 4 → ℝ) (h : Heliostat) (m : ℝ × ℝ) : toAim aim (h.motorToOrientation m) = toAim aim (h.forward m) := by
  have := centre_offset h m
  unfold centre at this
  unfold toAim
  rw [this]

theorem normal_direction (h : Heliostat) (m : ℝ × ℝ) : UnitDirection (h.forward m *ᵥ ![0, -1, 0, 0]) := by
  have hr := rigid_forward h (h.actuator1.toAngle m.1) (h.actuator2.toAngle m.2)
  exact ⟨(hr.homogeneous _).trans (by simp), (hr.length_dir _ (by simp)).trans (by simp [length3])⟩

/-- the loss and the distance of the normals -/
theorem loss_bounds (d : Fin 4 → ℝ) (M : Mat) (h3 : d 3 = (M *ᵥ ![0, -1, 0, 0]) 3) :
    length3 (M *ᵥ ![0, -1, 0, 0] - d) ≤ 4 * Heliostat.loss d M ∧ 2 * Heliostat.loss d M ≤ length3 (M *ᵥ ![0, -1, 0, 0] - d) := by
  rw [Heliostat.loss]
  change _ ≤ 4 * ((|d 0 - (M *ᵥ ![0, -1, 0, 0]) 0| + |d 1 - (M *ᵥ ![0, -1, 0, 0]) 1| + |d 2 - (M *ᵥ ![0, -1, 0, 0]) 2| + |d 3 - (M *ᵥ ![0, -1, 0, 0]) 3|) / 4) ∧
    2 * ((|d 0 - (M *ᵥ ![0, -1, 0, 0]) 0| + |d 1 - (M *ᵥ ![0, -1, 0, 0]) 1| + |d 2 - (M *ᵥ ![0, -1, 0, 0]) 2| + |d 3 - (M *ᵥ ![0, -1, 0, 0]) 3|) / 4) ≤ _
  generalize M *ᵥ ![0, -1, 0, 0] = x at *
  rw [h3, sub_self, abs_zero, add_zero, length3_sub_comm]
  have a0 := abs_nonneg (d 0 - x 0)
  have a1 := abs_nonneg (d 1 - x 1)
  have a2 := abs_nonneg (d 2 - x 2)
  have sq : length3 (d - x) ^ 2 = |d 0 - x 0| ^ 2 + |d 1 - x 1| ^ 2 + |d 2 - x 2| ^ 2 := by
    rw [length3_sq]; simp only [sq_abs, Pi.sub_apply]
  have l0 := length3_nonneg (d - x)
  generalize |d 0 - x 0| = a at *
  generalize |d 1 - x 1| = b at *
  generalize |d 2 - x 2| = c at *
  generalize length3 (d - x) = l at *
  constructor
  · refine abs_le_of_sq_le_sq' ?_ (by positivity) |>.2
    rw [sq]
    nlinarith [mul_nonneg a0 a1, mul_nonneg a0 a2, mul_nonneg a1 a2]
  · refine abs_le_of_sq_le_sq' ?_ l0 |>.2
    rw [sq]
    nlinarith [sq_nonneg (a - b), sq_nonneg (a - c), sq_nonneg (b - c), sq_nonneg a, sq_nonneg b, sq_nonneg c]

section
variable {h : Heliostat} {incident aim : Fin 4 → ℝ} {far back s : ℝ} (R : Regular h incident aim far back s)
include R

theorem Regular.far0 : 0 < far := lt_of_lt_of_le (by norm_num) R.far_pos
theorem Regular.back0 : 0 < back := lt_of_lt_of_le (by norm_num) R.back_pos
theorem Regular.root : 0 < √(1 - s ^ 2) := by
  have := R.s_pos
  have := R.s_lt
  exact Real.sqrt_pos.2 (by nlinarith)
theorem Regular.slack0 : 0 ≤ slack s := by have := R.root; unfold slack; positivity
theorem Regular.stretch0 : 0 ≤ stretch h s := by
  have := R.root
  have l : 0 ≤ lever h := add_nonneg (length3_nonneg _) (length3_nonneg _)
  have c : 0 ≤ concentrator h := length3_nonneg _
  unfold stretch; positivity
theorem Regular.factor0 : 0 ≤ factor h far back s := by
  have := R.far0
  have := R.back0
  have := R.stretch0
  unfold factor; positivity

theorem Regular.wanted_spec (m : ℝ × ℝ) : UnitDirection (wanted h incident aim m) ∧ reflect incident (wanted h incident aim m) = toAim aim (h.forward m) :=
  desired_reflects incident aim (h.forward m) R.unit (R.far_pos.trans (R.distant m)) (R.back_pos.trans (R.facing m))

theorem Regular.wanted_close (m m' : ℝ × ℝ) : length3 (wanted h incident aim m - wanted h incident aim m') ≤ length3 (centre (h.forward m) - centre (h.forward m')) / (far * back) :=
  desired_close incident aim _ _ R.unit.1 R.far_pos R.back_pos (R.distant m) (R.distant m') (R.facing m) (R.facing m')

/-- the solution that is chosen -/
theorem Regular.chosen (m : ℝ × ℝ) : ∃ θ, (θ = (h.jointAngles (1 / 10 ^ 8) (wanted h incident aim m)).1 ∨ θ = (h.jointAngles (1 / 10 ^ 8) (wanted h incident aim m)).2) ∧
    h.forward (h.inverse (1 / 10 ^ 8) (wanted h incident aim m)).1 = h.anglesToOrientation θ.1 θ.2 := by
  by_cases hl : h.InLimits (h.motors (h.jointAngles (1 / 10 ^ 8) (wanted h incident aim m)).1)
  · refine ⟨_, Or.inl rfl, ?_⟩
    obtain ⟨a, b⟩ := R.actuators m _ (Or.inl rfl)
    have : (h.inverse (1 / 10 ^ 8) (wanted h incident aim m)).1 = h.motors (h.jointAngles (1 / 10 ^ 8) (wanted h incident aim m)).1 := by simp only [Heliostat.inverse, if_pos hl]
    rw [this, Heliostat.forward, Heliostat.motors]; simp only [a, b]
  · refine ⟨_, Or.inr rfl, ?_⟩
    obtain ⟨a, b⟩ := R.actuators m _ (Or.inr rfl)
    have : (h.inverse (1 / 10 ^ 8) (wanted h incident aim m)).1 = h.motors (h.jointAngles (1 / 10 ^ 8) (wanted h incident aim m)).2 := by simp only [Heliostat.inverse, if_neg hl]
    rw [this, Heliostat.forward, Heliostat.motors]; simp only [a, b]

theorem Regular.normal_close (m : ℝ × ℝ) :
    length3 (h.forward (h.inverse (1 / 10 ^ 8) (wanted h incident aim m)).1 *ᵥ ![0, -1, 0, 0] - wanted h incident aim m) ≤ slack s := by
  obtain ⟨θ, hθ, e⟩ := R.chosen m
  rw [e]
  exact solution_sharp h _ R.axes (by norm_num) R.s_pos R.s_lt (R.wanted_spec m).1 (R.away m) θ hθ

theorem Regular.centre_close (m m' : ℝ × ℝ) :
    length3 (centre (h.forward (h.inverse (1 / 10 ^ 8) (wanted h incident aim m)).1) - centre (h.forward (h.inverse (1 / 10 ^ 8) (wanted h incident aim m')).1)) ≤
      stretch h s * length3 (wanted h incident aim m - wanted h incident aim m') := by
  obtain ⟨c1, c2⟩ := solution_close h _ _ R.axes (by norm_num) R.s_pos R.s_lt (R.wanted_spec m).1 (R.wanted_spec m').1 (R.away m) (R.away m')
  rcases R.branch with hb | hb
  · have e : ∀ m, h.forward (h.inverse (1 / 10 ^ 8) (wanted h incident aim m)).1 =
        h.anglesToOrientation (h.jointAngles (1 / 10 ^ 8) (wanted h incident aim m)).1.1 (h.jointAngles (1 / 10 ^ 8) (wanted h incident aim m)).1.2 := by
      intro m
      obtain ⟨a, b⟩ := R.actuators m _ (Or.inl rfl)
      have : (h.inverse (1 / 10 ^ 8) (wanted h incident aim m)).1 = h.motors (h.jointAngles (1 / 10 ^ 8) (wanted h incident aim m)).1 := by simp only [Heliostat.inverse, if_pos (hb m)]
      rw [this, Heliostat.forward, Heliostat.motors]; simp only [a, b]
    rw [e, e]; exact c1
  · have e : ∀ m, h.forward (h.inverse (1 / 10 ^ 8) (wanted h incident aim m)).1 =
        h.anglesToOrientation (h.jointAngles (1 / 10 ^ 8) (wanted h incident aim m)).2.1 (h.jointAngles (1 / 10 ^ 8) (wanted h incident aim m)).2.2 := by
      intro m
      obtain ⟨a, b⟩ := R.actuators m _ (Or.inr rfl)
      have : (h.inverse (1 / 10 ^ 8) (wanted h incident aim m)).1 = h.motors (h.jointAngles (1 / 10 ^ 8) (wanted h incident aim m)).2 := by simp only [Heliostat.inverse, if_neg (hb m)]
      rw [this, Heliostat.forward, Heliostat.motors]; simp only [a, b]
    rw [e, e]; exact c2

end

theorem iterate_succ {k : Nat} (t : Task k) (j : Nat) (i : Fin k) :
    iterate t (j + 1) i = ((t.heliostat i).inverse (1 / 10 ^ 8) (wanted (t.heliostat i) (t.incident i) (t.aim i) (iterate t j i))).1 := by
  rw [iterate, Function.iterate_succ_apply', ← iterate]; rfl

/-- why the loop ended -/
theorem loop_end {k : Nat} (t : Task k) (minEps : ℝ) (n : Nat) (last : Option (Fin k → ℝ)) (m : Fin k → ℝ × ℝ) :
    ∃ j ≤ n, (t.loop minEps n last m).1 = t.orientations (t.next^[j] m) ∧
      ((j = n ∧ (t.loop minEps n last m).2 = t.next^[n + 1] m) ∨
        ((t.loop minEps n last m).2 = t.next^[j] m ∧ ((j = 0 ∧ ∃ l, last = some l ∧ ∀ i, |l i - t.losses m i| ≤ minEps) ∨
          ∃ j', j = j' + 1 ∧ ∀ i, |t.losses (t.next^[j'] m) i - t.losses (t.next^[j' + 1] m) i| ≤ minEps))) := by
  induction n generalizing last m with
  | zero =>
    rw [Task.loop]
    split_ifs with hl
    · exact ⟨0, le_rfl, rfl, Or.inr ⟨rfl, Or.inl ⟨rfl, hl⟩⟩⟩
    · exact ⟨0, le_rfl, rfl, Or.inl ⟨rfl, rfl⟩⟩
  | succ n ih =>
    rw [Task.loop]
    split_ifs with hl
    · exact ⟨0, Nat.zero_le _, rfl, Or.inr ⟨rfl, Or.inl ⟨rfl, hl⟩⟩⟩
    · obtain ⟨j, hj, h1, h2⟩ := ih (some (t.losses m)) (t.next m)
      refine ⟨j + 1, by omega, h1, ?_⟩
      rcases h2 with ⟨h2, h3⟩ | ⟨h2, h3⟩
      · exact Or.inl ⟨by omega, h3⟩
      · refine Or.inr ⟨h2, Or.inr ?_⟩
        rcases h3 with ⟨h3, l, hl', h4⟩ | ⟨j', h3, h4⟩
        · refine ⟨0, by omega, ?_⟩
          simp only [Option.some.injEq] at hl'
          subst hl'
          exact h4
        · exact ⟨j' + 1, by omega, h4⟩

theorem align_end {k : Nat} (t : Task k) (n : Nat) (minEps : ℝ) (o : Fin k → Mat) (m : Fin k → ℝ × ℝ) (h : t.align n minEps = .ok (o, m)) :
    ∃ j < n, (∀ i, o i = (t.heliostat i).motorToOrientation (iterate t j i)) ∧
      ((j + 1 = n ∧ m = iterate t n) ∨ (m = iterate t j ∧ ∃ j', j = j' + 1 ∧ ∀ i, |t.losses (iterate t j') i - t.losses (iterate t (j' + 1)) i| ≤ minEps)) := by
  cases n with
  | zero => simp [Task.align] at h
  | succ n =>
    obtain ⟨j, hj, h1, h2⟩ := loop_end t minEps n none (fun _ => (0, 0))
    simp only [Task.align, Except.ok.injEq, Prod.mk.injEq] at h
    obtain ⟨ho, hm⟩ := h
    refine ⟨j, by omega, fun i => by rw [← ho, h1]; rfl, ?_⟩
    rw [← hm]
    rcases h2 with ⟨h2, h3⟩ | ⟨h2, h3⟩
    · exact Or.inl ⟨by omega, h3⟩
    · refine Or.inr ⟨h2, ?_⟩
      rcases h3 with ⟨-, l, hl, -⟩ | h3
      · exact absurd hl (by simp)
      · exact h3

end Artist.Converge
