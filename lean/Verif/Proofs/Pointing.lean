import Verif.Spec.Pointing
import Verif.Proofs.Converge
import Verif.Proofs.MotorImage
import Mathlib.Analysis.SpecialFunctions.Trigonometric.Bounds
/-! Helper lemmas for C119. -/
namespace Artist.Pointing
open Artist Matrix Real Transforms Kinematics Intersect Flux Moved Converge

theorem turn_le (a a' : ℝ) : turn a a' ≤ |a - a'| := by
  unfold turn
  refine Real.sqrt_le_iff.2 ⟨abs_nonneg _, ?_⟩
  rw [sq_abs]
  have h1 : (cos a - cos a') ^ 2 + (sin a - sin a') ^ 2 = 2 - 2 * cos (a - a') := by
    rw [cos_sub]
    linear_combination cos_sq_add_sin_sq a + cos_sq_add_sin_sq a'
  have h2 := one_sub_sq_div_two_le_cos (x := a - a')
  rw [h1]
  linarith

theorem transl_length (e n u : ℝ) (v : Fin 4 → ℝ) : length3 (transl e n u *ᵥ v) ≤ length3 v + |v 3| * length3 ![e, n, u, 0] := by
  rw [transl_mulVec]
  refine (length3_add_le _ _).trans ?_
  rw [length3_smul]

theorem rot_length (M : Mat) (h0 : M 0 3 = 0) (h1 : M 1 3 = 0) (h2 : M 2 3 = 0) (hM : Rigid M) (v : Fin 4 → ℝ) : length3 (M *ᵥ v) = length3 v := by
  have e : length3 (M *ᵥ v) = length3 (M *ᵥ ![v 0, v 1, v 2, 0]) := by
    unfold length3
    simp [mulVec, dotProduct, Fin.sum_univ_four, h0, h1, h2]
  rw [e, hM.length_dir _ (by simp)]
  simp [length3]

theorem joints_close (h : Heliostat) (a b a' b' : ℝ) (v : Fin 4 → ℝ) :
    length3 (h.anglesToOrientation a b *ᵥ v - h.anglesToOrientation a' b' *ᵥ v) ≤
      |a - a'| * (length3 v + |v 3| * lever h) + |b - b'| * (length3 v + |v 3| * concentrator h) := by
  set P : Mat := transl (h.position 0) (h.position 1) (h.position 2) * (rotN (h.rotation 0) * rotU (h.rotation 1) *
    transl (h.translation 0) (h.translation 1) (h.translation 2)) with hP
  set Q : Mat := rotE (h.rotation 2) * rotN (h.rotation 3) * transl (h.translation 3) (h.translation 4) (h.translation 5) with hQ
  set q : Fin 4 → ℝ := transl (h.translation 6) (h.translation 7) (h.translation 8) *ᵥ v with hq
  have rP : Rigid P := (rigid_transl _ _ _).mul (((rigid_rotN _).mul (rigid_rotU _)).mul (rigid_transl _ _ _))
  have rQ : Rigid Q := ((rigid_rotE _).mul (rigid_rotN _)).mul (rigid_transl _ _ _)
  have q3 : q 3 = v 3 := (rigid_transl _ _ _).homogeneous _
  have form : ∀ a b, h.anglesToOrientation a b *ᵥ v = P *ᵥ (rotE a *ᵥ (Q *ᵥ (rotU b *ᵥ q))) := by
    intro a b
    rw [hq, hP, hQ]
    unfold Heliostat.anglesToOrientation
    simp only [mulVec_mulVec, one_mul, Matrix.mul_assoc]
  have lq : length3 q ≤ length3 v + |v 3| * concentrator h := transl_length _ _ _ _
  have lU : ∀ b, length3 (rotU b *ᵥ q) = length3 q := fun b => rot_length _ (by simp [rotU]) (by simp [rotU]) (by simp [rotU]) (rigid_rotU b) q
  have lQ : length3 (Q *ᵥ (rotU b *ᵥ q)) ≤ length3 v + |v 3| * lever h := by
    rw [hQ, ← mulVec_mulVec, ← mulVec_mulVec, rot_length _ (by simp [rotE]) (by simp [rotE]) (by simp [rotE]) (rigid_rotE _),
      rot_length _ (by simp [rotN]) (by simp [rotN]) (by simp [rotN]) (rigid_rotN _)]
    refine (transl_length _ _ _ _).trans ?_
    rw [lU, (rigid_rotU b).homogeneous, q3]
    unfold lever
    have : length3 ![h.translation 3, h.translation 4, h.translation 5, 0] = secondJoint h := rfl
    rw [this]
    nlinarith [lq]
  have e : h.anglesToOrientation a b *ᵥ v - h.anglesToOrientation a' b' *ᵥ v =
      P *ᵥ (rotE a *ᵥ (Q *ᵥ (rotU b *ᵥ q)) - rotE a' *ᵥ (Q *ᵥ (rotU b *ᵥ q))) + P *ᵥ (rotE a' *ᵥ (Q *ᵥ (rotU b *ᵥ q - rotU b' *ᵥ q))) := by
    rw [form, form]
    simp only [mulVec_sub]
    abel
  have z : (rotU b *ᵥ q - rotU b' *ᵥ q) 3 = 0 := by rw [Pi.sub_apply, (rigid_rotU b).homogeneous, (rigid_rotU b').homogeneous, sub_self]
  rw [e]
  refine (length3_add_le _ _).trans (add_le_add ?_ ?_)
  · rw [rP.length_dir _ (by rw [Pi.sub_apply, (rigid_rotE a).homogeneous, (rigid_rotE a').homogeneous, sub_self])]
    exact (rotE_close _ _ _).trans (mul_le_mul (turn_le _ _) lQ (length3_nonneg _) (abs_nonneg _))
  · rw [rP.length_dir _ (by rw [(rigid_rotE a').homogeneous, rQ.homogeneous, z]), (rigid_rotE a').length_dir _ (by rw [rQ.homogeneous, z]), rQ.length_dir _ z]
    exact (rotU_close _ _ _).trans (mul_le_mul (turn_le _ _) lq (length3_nonneg _) (abs_nonneg _))

theorem orientation_close (h : Heliostat) (m m' : ℝ × ℝ) (v : Fin 4 → ℝ) :
    length3 (h.motorToOrientation m *ᵥ v - h.motorToOrientation m' *ᵥ v) ≤
      |(angles h m).1 - (angles h m').1| * (length3 v + |v 3| * lever h) + |(angles h m).2 - (angles h m').2| * (length3 v + |v 3| * concentrator h) := by
  have := joints_close h (angles h m).1 (angles h m).2 (angles h m').1 (angles h m').2 (orientationOffset *ᵥ v)
  rw [offset_eq, rot_length _ (by simp [rotE]) (by simp [rotE]) (by simp [rotE]) (rigid_rotE _), (rigid_rotE _).homogeneous, ← offset_eq, mulVec_mulVec, mulVec_mulVec] at this
  exact this

theorem reflect_normals (i n n' : Fin 4 → ℝ) (hi : i 3 = 0) (hn : UnitDirection n) (hn' : UnitDirection n') :
    length3 (reflect i n - reflect i n') ≤ 2 * length3 (n - n') * length3 i := by
  obtain ⟨n3, l⟩ := hn
  obtain ⟨n3', l'⟩ := hn'
  have s := length3_sq n
  have s' := length3_sq n'
  rw [l, one_pow] at s
  rw [l', one_pow] at s'
  refine length3_le_of_sq (mul_nonneg (mul_nonneg (by norm_num) (length3_nonneg _)) (length3_nonneg _)) ?_
  rw [mul_pow, mul_pow, length3_sq, length3_sq]
  simp only [reflect, dotProduct, Fin.sum_univ_four, Pi.sub_apply, Pi.smul_apply, smul_eq_mul, hi, n3, n3', mul_zero, add_zero, zero_mul]
  generalize i 0 = x, i 1 = y, i 2 = z
  generalize n 0 = a, n 1 = b, n 2 = c at *
  generalize n' 0 = d, n' 1 = e, n' 2 = f at *
  -- sum `(p, q, r)` and difference `(u, v, w)` of the normals are orthogonal
  obtain ⟨p, hp⟩ : ∃ p, p = a + d := ⟨_, rfl⟩
  obtain ⟨q, hq⟩ : ∃ q, q = b + e := ⟨_, rfl⟩
  obtain ⟨r, hr⟩ : ∃ r, r = c + f := ⟨_, rfl⟩
  obtain ⟨u, hu⟩ : ∃ u, u = a - d := ⟨_, rfl⟩
  obtain ⟨v, hv⟩ : ∃ v, v = b - e := ⟨_, rfl⟩
  obtain ⟨w, hw⟩ : ∃ w, w = c - f := ⟨_, rfl⟩
  have o : p * u + q * v + r * w = 0 := by rw [hp, hq, hr, hu, hv, hw]; linear_combination s' - s
  have sm : p ^ 2 + q ^ 2 + r ^ 2 + (u ^ 2 + v ^ 2 + w ^ 2) = 4 := by rw [hp, hq, hr, hu, hv, hw]; linear_combination -2 * s - 2 * s'
  have ea : a = (p + u) / 2 := by rw [hp, hu]; ring
  have eb : b = (q + v) / 2 := by rw [hq, hv]; ring
  have ec : c = (r + w) / 2 := by rw [hr, hw]; ring
  have ed : d = (p - u) / 2 := by rw [hp, hu]; ring
  have ee : e = (q - v) / 2 := by rw [hq, hv]; ring
  have ef : f = (r - w) / 2 := by rw [hr, hw]; ring
  rw [← hu, ← hv, ← hw]
  have lhs : (x - 2 * (x * a + y * b + z * c) * a - (x - 2 * (x * d + y * e + z * f) * d)) ^ 2 +
      (y - 2 * (x * a + y * b + z * c) * b - (y - 2 * (x * d + y * e + z * f) * e)) ^ 2 + (z - 2 * (x * a + y * b + z * c) * c - (z - 2 * (x * d + y * e + z * f) * f)) ^ 2 =
      (x ^ 2 + y ^ 2 + z ^ 2) * (p ^ 2 + q ^ 2 + r ^ 2) * (u ^ 2 + v ^ 2 + w ^ 2) - (x * (q * w - r * v) + y * (r * u - p * w) + z * (p * v - q * u)) ^ 2 := by
    rw [ea, eb, ec, ed, ee, ef]
    linear_combination (4 * (x * p + y * q + z * r) * (x * u + y * v + z * w) - (x ^ 2 + y ^ 2 + z ^ 2) * (p * u + q * v + r * w)) * o
  rw [lhs]
  have hP : p ^ 2 + q ^ 2 + r ^ 2 ≤ 4 := by linarith [sq_nonneg u, sq_nonneg v, sq_nonneg w]
  have : (x ^ 2 + y ^ 2 + z ^ 2) * (p ^ 2 + q ^ 2 + r ^ 2) * (u ^ 2 + v ^ 2 + w ^ 2) ≤ (x ^ 2 + y ^ 2 + z ^ 2) * 4 * (u ^ 2 + v ^ 2 + w ^ 2) :=
    mul_le_mul_of_nonneg_right (mul_le_mul_of_nonneg_left hP (by positivity)) (by positivity)
  exact (sub_le_self _ (sq_nonneg _)).trans (this.trans (le_of_eq (by ring)))

theorem reflect_incident (i i' n : Fin 4 → ℝ) (hi : i 3 = 0) (hi' : i' 3 = 0) (hn : UnitDirection n) : length3 (reflect i n - reflect i' n) = length3 (i - i') := by
  obtain ⟨n3, l⟩ := hn
  have s := length3_sq n
  rw [l, one_pow] at s
  unfold length3
  congr 1
  simp only [reflect, dotProduct, Fin.sum_univ_four, Pi.sub_apply, Pi.smul_apply, smul_eq_mul, hi, hi', n3, mul_zero, add_zero]
  linear_combination (-4 * ((i 0 - i' 0) * n 0 + (i 1 - i' 1) * n 1 + (i 2 - i' 2) * n 2) ^ 2) * s

theorem apart_eq (a b : Fin 4 → ℝ) : apart ⟨a 0, a 1, a 2⟩ ⟨b 0, b 1, b 2⟩ = length3 (a - b) := by
  unfold apart length3
  simp

theorem scattered (i n : Fin 4 → ℝ) (i' n' : Fin 4 → ℝ) (e u : ℝ) (h : reflect i n 3 = reflect i' n' 3) :
    apart (direction i n e u) (direction i' n' e u) = length3 (reflect i n - reflect i' n') := by
  unfold direction
  rw [apart_eq, (rigid_rotDist e u).distance _ _ h]

theorem apart_triangle (a b c : V3 ℝ) : apart a c ≤ apart a b + apart b c := by
  have h : ∀ a b : V3 ℝ, apart a b = length3 (![a.e, a.n, a.u, 0] - ![b.e, b.n, b.u, 0]) := by
    intro a b
    unfold apart length3
    simp
  rw [h, h, h]
  exact length3_triangle _ _ _

theorem dot_le (a b N : V3 ℝ) (hN : V3.normSq N = 1) : |V3.dot (a - b) N| ≤ apart a b := by
  unfold apart
  refine Real.abs_le_sqrt ?_
  unfold V3.normSq V3.dot at hN
  unfold V3.dot
  simp only [V3.sub_e, V3.sub_n, V3.sub_u]
  generalize a.e - b.e = x, a.n - b.n = y, a.u - b.u = z
  nlinarith [sq_nonneg (x * N.n - y * N.e), sq_nonneg (x * N.u - z * N.e), sq_nonneg (y * N.u - z * N.n)]

/-- Two rays that start `δ` apart, with directions `ε` apart, hit a plane at points that are not far from each other. -/
theorem hits_close (o o' d d' c N : V3 ℝ) (t t' δ ε κ : ℝ) (hN : V3.normSq N = 1) (ht : V3.dot (o + t • d - c) N = 0) (ht' : V3.dot (o' + t' • d' - c) N = 0)
    (ho : apart o o' ≤ δ) (hd : apart d d' ≤ ε) (hu : V3.normSq d' = 1) (hκ : 0 < κ) (hk : κ ≤ |V3.dot d' N|) :
    apart (o + t • d) (o' + t' • d') ≤ (δ + |t| * ε) * (1 + 1 / κ) := by
  have h1 : apart (o + t • d) (o' + t • d') ≤ δ + |t| * ε := by
    have e : apart (o + t • d) (o' + t • d) = apart o o' := by unfold apart; simp
    have e' : apart (o' + t • d) (o' + t • d') = |t| * apart d d' := by
      unfold apart
      rw [← Real.sqrt_sq_eq_abs, ← Real.sqrt_mul (sq_nonneg t)]
      congr 1
      simp
      ring
    refine (apart_triangle _ (o' + t • d) _).trans ?_
    rw [e, e']
    exact add_le_add ho (mul_le_mul_of_nonneg_left hd (abs_nonneg _))
  have h2 : apart (o' + t • d') (o' + t' • d') = |t - t'| := by
    unfold apart
    rw [← Real.sqrt_sq_eq_abs]
    congr 1
    unfold V3.normSq V3.dot at hu
    simp
    linear_combination (t - t') ^ 2 * hu
  have h3 : |t - t'| * |V3.dot d' N| ≤ δ + |t| * ε := by
    rw [← abs_mul]
    refine le_trans (le_of_eq ?_) ((dot_le _ _ N hN).trans h1)
    rw [← abs_neg]
    congr 1
    unfold V3.dot at ht ht' ⊢
    simp at ht ht' ⊢
    linear_combination ht' - ht
  have h4 : |t - t'| ≤ (δ + |t| * ε) / κ := by
    rw [le_div_iff₀ hκ]
    exact (mul_le_mul_of_nonneg_left hk (abs_nonneg _)).trans h3
  refine (apart_triangle _ (o' + t • d') _).trans ?_
  rw [h2]
  calc _ ≤ δ + |t| * ε + (δ + |t| * ε) / κ := add_le_add h1 h4
    _ = _ := by ring

theorem clamp_close (x y lo hi : ℝ) : |Actuators.clamp x lo hi - Actuators.clamp y lo hi| ≤ |x - y| := by
  unfold Actuators.clamp
  refine (abs_min_sub_min_le_max _ _ _ _).trans ?_
  rw [sub_self, abs_zero, max_eq_left (abs_nonneg _)]
  refine (abs_max_sub_max_le_max _ _ _ _).trans ?_
  rw [sub_self, abs_zero, max_eq_left (abs_nonneg _)]

/-- angles between 0 and π whose sines are at least `s` are determined by their cosines, up to the factor `1 / s` -/
theorem angle_of_cos {a b s : ℝ} (hs : 0 < s) (ha : 0 ≤ a) (hb : b ≤ π) (hab : a ≤ b) (h1 : s ≤ sin a) (h2 : s ≤ sin b) : s * (b - a) ≤ cos a - cos b := by
  have hhalf : (b - a) / 2 < π / 2 := by
    by_contra hc
    have e1 : a = 0 := by linarith
    rw [e1, sin_zero] at h1
    linarith
  have h0 : 0 ≤ (b - a) / 2 := by linarith
  have ea : a = (a + b) / 2 - (b - a) / 2 := by ring
  have eb : b = (a + b) / 2 + (b - a) / 2 := by ring
  have hsum : s ≤ sin ((a + b) / 2) * cos ((b - a) / 2) := by
    have e1 : sin a = sin ((a + b) / 2) * cos ((b - a) / 2) - cos ((a + b) / 2) * sin ((b - a) / 2) := by rw [← sin_sub]; congr 1
    have e2 : sin b = sin ((a + b) / 2) * cos ((b - a) / 2) + cos ((a + b) / 2) * sin ((b - a) / 2) := by rw [← sin_add]; congr 1
    linarith
  have hdiff : cos a - cos b = 2 * (sin ((a + b) / 2) * sin ((b - a) / 2)) := by
    have e1 : cos a = cos ((a + b) / 2) * cos ((b - a) / 2) + sin ((a + b) / 2) * sin ((b - a) / 2) := by rw [← cos_sub]; congr 1
    have e2 : cos b = cos ((a + b) / 2) * cos ((b - a) / 2) - sin ((a + b) / 2) * sin ((b - a) / 2) := by rw [← cos_add]; congr 1
    rw [e1, e2]; ring
  have hc : 0 < cos ((b - a) / 2) := cos_pos_of_mem_Ioo ⟨by linarith [pi_pos], hhalf⟩
  have ht : (b - a) / 2 ≤ tan ((b - a) / 2) := Real.le_tan h0 hhalf
  have hsin : sin ((b - a) / 2) = tan ((b - a) / 2) * cos ((b - a) / 2) := (tan_mul_cos hc.ne').symm
  rw [hdiff, hsin]
  have : s * ((b - a) / 2) ≤ sin ((a + b) / 2) * cos ((b - a) / 2) * tan ((b - a) / 2) := mul_le_mul hsum ht h0 (hs.le.trans hsum)
  linarith

theorem angle_of_cos' {a b s : ℝ} (hs : 0 < s) (ha : 0 ≤ a) (ha' : a ≤ π) (hb : 0 ≤ b) (hb' : b ≤ π) (h1 : s ≤ sin a) (h2 : s ≤ sin b) : s * |a - b| ≤ |cos a - cos b| := by
  rcases le_total a b with h | h
  · rw [abs_sub_comm, abs_of_nonneg (by linarith)]
    exact (angle_of_cos hs ha hb' h h1 h2).trans (le_abs_self _)
  · rw [abs_of_nonneg (by linarith), abs_sub_comm (cos a)]
    exact (angle_of_cos hs hb ha' h h2 h1).trans (le_abs_self _)

open Actuators in
theorem stroke_range (a : Linear) (x : ℝ) : 0 ≤ a.clampStroke x ∧ a.clampStroke x ≤ a.offset + a.pivotRadius := by
  obtain ⟨hi, ho, hr, -⟩ := C27_parameters_positive a
  have e : 0 < eps := by unfold eps; norm_num
  have hmin : 0 ≤ a.offset + a.pivotRadius - eps := by
    have h1 : ∀ x, 0 ≤ softplus 100 x := by
      intro x
      unfold softplus
      split
      · linarith
      · exact div_nonneg (Real.log_nonneg (by linarith [Real.exp_pos (100 * x)])) (by norm_num)
    have : eps ≤ a.offset := by unfold Linear.offset Linear.physical; linarith [h1 a.rawOffset]
    linarith
  unfold Linear.clampStroke clamp
  constructor
  · exact le_min (le_max_of_le_right (add_nonneg (abs_nonneg _) e.le)) hmin
  · exact (min_le_right _ _).trans (by linarith)

open Actuators in
theorem cos_close (a : Linear) (m m' : ℝ) : |cos (a.absoluteAngle m) - cos (a.absoluteAngle m')| ≤ (a.offset + a.pivotRadius) / (a.offset * a.pivotRadius * a.increment) * |m - m'| := by
  obtain ⟨hi, ho, hr, -⟩ := C27_parameters_positive a
  have hcos : ∀ x : ℝ, cos (arccos (clamp x (-1 + 1 / 10 ^ 6) (1 - 1 / 10 ^ 6))) = clamp x (-1 + 1 / 10 ^ 6) (1 - 1 / 10 ^ 6) := by
    intro x
    refine cos_arccos ?_ ?_
    · unfold clamp
      exact le_min (le_max_of_le_right (by norm_num)) (by norm_num)
    · exact (min_le_right _ _).trans (by norm_num)
  unfold Linear.absoluteAngle
  simp only [hcos]
  refine (clamp_close _ _ _ _).trans ?_
  have hst : |a.clampStroke (m / a.increment + a.initialStroke) - a.clampStroke (m' / a.increment + a.initialStroke)| ≤ |m - m'| / a.increment := by
    refine (clamp_close _ _ _ _).trans (le_of_eq ?_)
    rw [add_sub_add_right_eq_sub, ← sub_div, abs_div, abs_of_pos hi]
  obtain ⟨l1, u1⟩ := stroke_range a (m / a.increment + a.initialStroke)
  obtain ⟨l2, u2⟩ := stroke_range a (m' / a.increment + a.initialStroke)
  generalize a.clampStroke (m / a.increment + a.initialStroke) = s1 at *
  generalize a.clampStroke (m' / a.increment + a.initialStroke) = s2 at *
  rw [← sub_div, abs_div, abs_of_pos (show 0 < 2 * a.offset * a.pivotRadius by positivity), div_le_iff₀ (by positivity)]
  have e1 : a.offset ^ 2 + a.pivotRadius ^ 2 - s1 ^ 2 - (a.offset ^ 2 + a.pivotRadius ^ 2 - s2 ^ 2) = -((s1 + s2) * (s1 - s2)) := by ring
  rw [e1, abs_neg, abs_mul, abs_of_nonneg (add_nonneg l1 l2)]
  refine (mul_le_mul (add_le_add u1 u2) hst (abs_nonneg _) (by positivity)).trans (le_of_eq ?_)
  field_simp
  ring

open Actuators in
theorem sin_margin (a : Linear) (m : ℝ) : 1 / 1000 ≤ sin (a.absoluteAngle m) := by
  unfold Linear.absoluteAngle
  simp only
  rw [sin_arccos]
  refine Real.le_sqrt_of_sq_le ?_
  generalize (a.offset ^ 2 + a.pivotRadius ^ 2 - (a.clampStroke (m / a.increment + a.initialStroke)) ^ 2) / (2 * a.offset * a.pivotRadius) = x
  have h1 : -1 + 1 / 10 ^ 6 ≤ clamp x (-1 + 1 / 10 ^ 6) (1 - 1 / 10 ^ 6) := by
    unfold clamp
    exact le_min (le_max_right _ _) (by norm_num)
  have h2 : clamp x (-1 + 1 / 10 ^ 6) (1 - 1 / 10 ^ 6) ≤ 1 - 1 / 10 ^ 6 := min_le_right _ _
  have : clamp x (-1 + 1 / 10 ^ 6) (1 - 1 / 10 ^ 6) ^ 2 ≤ (1 - 1 / 10 ^ 6) ^ 2 := sq_le_sq' (by linarith) h2
  norm_num at this ⊢
  linarith

end Artist.Pointing
