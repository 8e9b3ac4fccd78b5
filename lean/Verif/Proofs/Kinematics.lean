import Verif.Model.Kinematics
import Verif.Proofs.Canting
import Mathlib.Tactic.FieldSimp
import Mathlib.Tactic.Positivity
namespace Artist
open Matrix Real Transforms Kinematics Intersect

/-! ### atan2 -/

theorem atan2_cos (y x : ℝ) : √(x ^ 2 + y ^ 2) * cos (atan2 y x) = x := by
  have hn : ‖(⟨x, y⟩ : ℂ)‖ = √(x ^ 2 + y ^ 2) := by
    rw [Complex.norm_def, Complex.normSq_mk]; congr 1; ring
  by_cases h : (⟨x, y⟩ : ℂ) = 0
  · have hx : x = 0 := congrArg Complex.re h
    have hy : y = 0 := congrArg Complex.im h
    subst hx hy; simp
  · rw [atan2, Complex.cos_arg h, hn]
    have : √(x ^ 2 + y ^ 2) ≠ 0 := by rw [← hn]; exact norm_ne_zero_iff.2 h
    field_simp

theorem atan2_sin (y x : ℝ) : √(x ^ 2 + y ^ 2) * sin (atan2 y x) = y := by
  have hn : ‖(⟨x, y⟩ : ℂ)‖ = √(x ^ 2 + y ^ 2) := by
    rw [Complex.norm_def, Complex.normSq_mk]; congr 1; ring
  by_cases h : (⟨x, y⟩ : ℂ) = 0
  · have hx : x = 0 := congrArg Complex.re h
    have hy : y = 0 := congrArg Complex.im h
    subst hx hy; simp
  · rw [atan2, Complex.sin_arg, hn]
    have : √(x ^ 2 + y ^ 2) ≠ 0 := by rw [← hn]; exact norm_ne_zero_iff.2 h
    field_simp

theorem wrap_cos (x : ℝ) : cos (Heliostat.wrap x) = cos x := by
  have := atan2_cos (sin x) (cos x)
  rwa [cos_sq_add_sin_sq, sqrt_one, one_mul] at this

theorem wrap_sin (x : ℝ) : sin (Heliostat.wrap x) = sin x := by
  have := atan2_sin (sin x) (cos x)
  rwa [cos_sq_add_sin_sq, sqrt_one, one_mul] at this

theorem wrap_mem (x : ℝ) : -π < Heliostat.wrap x ∧ Heliostat.wrap x ≤ π :=
  ⟨Complex.neg_pi_lt_arg _, Complex.arg_le_pi _⟩

theorem rotE_congr {a b : ℝ} (hc : cos a = cos b) (hs : sin a = sin b) : rotE a = rotE b := by
  simp [rotE, hc, hs]
theorem rotU_congr {a b : ℝ} (hc : cos a = cos b) (hs : sin a = sin b) : rotU a = rotU b := by
  simp [rotU, hc, hs]

/-! ### Directions under the forward kinematics -/

theorem transl_dir (e n u : ℝ) {d : Fin 4 → ℝ} (hd : d 3 = 0) : transl e n u *ᵥ d = d := by
  ext i; fin_cases i <;> simp [transl, mulVec, dotProduct, Fin.sum_univ_four, hd]

theorem forward_dir (h : Heliostat) (a b : ℝ) (d : Fin 4 → ℝ) (hd : d 3 = 0) :
    h.anglesToOrientation a b *ᵥ d = h.deviation1 *ᵥ (rotE a *ᵥ (h.deviation2 *ᵥ (rotU b *ᵥ d))) := by
  have h1 : (rotU b *ᵥ d) 3 = 0 := ((rigid_rotU b).homogeneous d).trans hd
  have h2 : (h.deviation2 *ᵥ (rotU b *ᵥ d)) 3 = 0 :=
    (((rigid_rotE _).mul (rigid_rotN _)).homogeneous _).trans h1
  have h3 : (rotE a *ᵥ (h.deviation2 *ᵥ (rotU b *ᵥ d))) 3 = 0 := ((rigid_rotE a).homogeneous _).trans h2
  have h4 : (h.deviation1 *ᵥ (rotE a *ᵥ (h.deviation2 *ᵥ (rotU b *ᵥ d)))) 3 = 0 :=
    (((rigid_rotN _).mul (rigid_rotU _)).homogeneous _).trans h3
  rw [Heliostat.anglesToOrientation]
  simp only [one_mul, ← mulVec_mulVec]
  rw [transl_dir _ _ _ hd, transl_dir _ _ _ h1]
  rw [Heliostat.deviation1, Heliostat.deviation2] at *
  simp only [← mulVec_mulVec] at *
  rw [transl_dir _ _ _ h3, transl_dir _ _ _ h4]

theorem rigid_forward (h : Heliostat) (a b : ℝ) : Rigid (h.anglesToOrientation a b) := by
  rw [Heliostat.anglesToOrientation]
  simp only [one_mul]
  exact (((rigid_transl _ _ _).mul ((((rigid_rotN _).mul (rigid_rotU _)).mul (rigid_transl _ _ _)).mul (rigid_rotE _))).mul
    ((((rigid_rotE _).mul (rigid_rotN _)).mul (rigid_transl _ _ _)).mul (rigid_rotU _))).mul (rigid_transl _ _ _)

/-- A rotation-only matrix undone by its transpose. -/
theorem transpose_cancel {M : Mat} (hM : Mᵀ * M = 1) (v : Fin 4 → ℝ) : M *ᵥ (Mᵀ *ᵥ v) = v := by
  rw [mulVec_mulVec, mul_eq_one_comm.1 hM, one_mulVec]

theorem transpose_cancel' {M : Mat} (hM : Mᵀ * M = 1) (v : Fin 4 → ℝ) : Mᵀ *ᵥ (M *ᵥ v) = v := by
  rw [mulVec_mulVec, hM, one_mulVec]

theorem orth_mul {M N : Mat} (hM : Mᵀ * M = 1) (hN : Nᵀ * N = 1) : (M * N)ᵀ * (M * N) = 1 := by
  rw [transpose_mul, Matrix.mul_assoc, ← Matrix.mul_assoc Mᵀ, hM, Matrix.one_mul, hN]

theorem orth_rotE (a : ℝ) : (rotE a)ᵀ * rotE a = 1 := by
  have h := sin_sq_add_cos_sq a
  ext i j; fin_cases i <;> fin_cases j <;>
    simp [rotE, mul_apply, Fin.sum_univ_four, one_apply] <;> linarith
theorem orth_rotN (a : ℝ) : (rotN a)ᵀ * rotN a = 1 := by
  have h := sin_sq_add_cos_sq a
  ext i j; fin_cases i <;> fin_cases j <;>
    simp [rotN, mul_apply, Fin.sum_univ_four, one_apply] <;> linarith
theorem orth_rotU (a : ℝ) : (rotU a)ᵀ * rotU a = 1 := by
  have h := sin_sq_add_cos_sq a
  ext i j; fin_cases i <;> fin_cases j <;>
    simp [rotU, mul_apply, Fin.sum_univ_four, one_apply] <;> linarith

theorem orth_dev1 (h : Heliostat) : (h.deviation1)ᵀ * h.deviation1 = 1 := orth_mul (orth_rotN _) (orth_rotU _)
theorem orth_dev2 (h : Heliostat) : (h.deviation2)ᵀ * h.deviation2 = 1 := orth_mul (orth_rotE _) (orth_rotN _)

/-! ### Inverse kinematics -/

/-- `v(θ₂)` of the derivation in the code. -/
noncomputable def vOf (h : Heliostat) (b : ℝ) : Fin 4 → ℝ := h.deviation2 *ᵥ (rotU b *ᵥ south)

theorem vOf_e (h : Heliostat) (b : ℝ) : vOf h b 0 = cos (h.rotation 3) * sin b := by
  simp [vOf, Heliostat.deviation2, rotE, rotN, rotU, south, mulVec, dotProduct, Fin.sum_univ_four, mul_apply]

theorem dev2_entries (h : Heliostat) : h.deviation2 0 0 = cos (h.rotation 3) ∧ h.deviation2 0 1 = 0 := by
  simp [Heliostat.deviation2, rotE, rotN, mul_apply, Fin.sum_univ_four]

theorem vOf_hom (h : Heliostat) (b : ℝ) : vOf h b 3 = 0 := by
  have h1 : (rotU b *ᵥ south) 3 = 0 := ((rigid_rotU b).homogeneous south).trans (by simp [south])
  exact (((rigid_rotE _).mul (rigid_rotN _)).homogeneous _).trans h1

theorem vOf_unit (h : Heliostat) (b : ℝ) : vOf h b 0 ^ 2 + vOf h b 1 ^ 2 + vOf h b 2 ^ 2 = 1 := by
  have h1 : (rotU b *ᵥ south) 3 = 0 := ((rigid_rotU b).homogeneous south).trans (by simp [south])
  have h2 := ((rigid_rotE (h.rotation 2)).mul (rigid_rotN (h.rotation 3))).inner_dir _ _ h1 h1
  have h3 := (rigid_rotU b).inner_dir south south (by simp [south]) (by simp [south])
  rw [h3] at h2
  have : inner3 (vOf h b) (vOf h b) = 1 := by rw [vOf, Heliostat.deviation2, h2]; simp [inner3, south]
  simp only [inner3] at this; linarith

theorem normal_of_angles (h : Heliostat) (a b : ℝ) :
    h.anglesToOrientation a b *ᵥ south = h.deviation1 *ᵥ (rotE a *ᵥ vOf h b) :=
  forward_dir h a b south (by simp [south])

/-- The first joint turns `v` into the half plane of the requested normal. -/
theorem firstAngle_spec (h : Heliostat) (n' : Fin 4 → ℝ) (b : ℝ) :
    let w := rotE (h.firstAngle n' b) *ᵥ vOf h b
    w 0 = vOf h b 0 ∧ w 3 = 0 ∧ w 1 ^ 2 + w 2 ^ 2 = vOf h b 1 ^ 2 + vOf h b 2 ^ 2 ∧
    w 1 * n' 1 + w 2 * n' 2 = √(vOf h b 1 ^ 2 + vOf h b 2 ^ 2) * √(n' 1 ^ 2 + n' 2 ^ 2) := by
  intro w
  set v := vOf h b with hv
  have hv' : (h.deviation2 * rotU b) *ᵥ south = v := by rw [hv, vOf, mulVec_mulVec]
  set θ := h.firstAngle n' b with hθ
  have hw : w = ![v 0, cos θ * v 1 - sin θ * v 2, sin θ * v 1 + cos θ * v 2, v 3] := by
    ext i; fin_cases i <;> simp [w, rotE, mulVec, dotProduct, Fin.sum_univ_four] <;> ring
  have hw0 : w 0 = v 0 := by rw [hw]; rfl
  have hw1 : w 1 = cos θ * v 1 - sin θ * v 2 := by rw [hw]; rfl
  have hw2 : w 2 = sin θ * v 1 + cos θ * v 2 := by rw [hw]; rfl
  have hw3 : w 3 = 0 := by rw [hw]; exact vOf_hom h b
  have hcs := sin_sq_add_cos_sq θ
  refine ⟨hw0, hw3, ?_, ?_⟩
  · rw [hw1, hw2]; linear_combination (v 1 ^ 2 + v 2 ^ 2) * hcs
  · have hc := atan2_cos (v 1 * n' 2 - v 2 * n' 1) (v 1 * n' 1 + v 2 * n' 2)
    have hs := atan2_sin (v 1 * n' 2 - v 2 * n' 1) (v 1 * n' 1 + v 2 * n' 2)
    have hθ' : θ = Heliostat.wrap (atan2 (v 1 * n' 2 - v 2 * n' 1) (v 1 * n' 1 + v 2 * n' 2)) := by
      rw [hθ, Heliostat.firstAngle, hv']
    rw [← wrap_cos, ← hθ'] at hc
    rw [← wrap_sin, ← hθ'] at hs
    have hr : √((v 1 * n' 1 + v 2 * n' 2) ^ 2 + (v 1 * n' 2 - v 2 * n' 1) ^ 2) =
        √(v 1 ^ 2 + v 2 ^ 2) * √(n' 1 ^ 2 + n' 2 ^ 2) := by
      rw [← Real.sqrt_mul (by positivity)]; congr 1; ring
    rw [hr] at hc hs
    rw [hw1, hw2]
    generalize √(v 1 ^ 2 + v 2 ^ 2) * √(n' 1 ^ 2 + n' 2 ^ 2) = r at *
    linear_combination (-cos θ) * hc + (-sin θ) * hs + r * hcs

theorem arcsin_branch (h : Heliostat) {ρ : ℝ} (h1 : -1 ≤ ρ) (h2 : ρ ≤ 1) :
    let phi := atan2 (-(h.deviation2 0 1)) (h.deviation2 0 0)
    vOf h (Heliostat.wrap (arcsin ρ - phi)) 0 = |cos (h.rotation 3)| * ρ ∧
    vOf h (Heliostat.wrap (π - arcsin ρ - phi)) 0 = |cos (h.rotation 3)| * ρ := by
  intro phi
  obtain ⟨e1, e2⟩ := dev2_entries h
  have hc := atan2_cos (-(h.deviation2 0 1)) (h.deviation2 0 0)
  have hs := atan2_sin (-(h.deviation2 0 1)) (h.deviation2 0 0)
  have hr : √((h.deviation2 0 0) ^ 2 + (-(h.deviation2 0 1)) ^ 2) = |cos (h.rotation 3)| := by
    rw [e1, e2]; simp [Real.sqrt_sq_eq_abs]
  rw [hr] at hc hs
  change |cos (h.rotation 3)| * cos phi = _ at hc
  change |cos (h.rotation 3)| * sin phi = _ at hs
  rw [e1] at hc
  rw [e2, neg_zero] at hs
  have has := sin_arcsin h1 h2
  constructor
  · rw [vOf_e, wrap_sin, sin_sub, has]
    have h3 := sin_sq_add_cos_sq phi
    generalize cos (arcsin ρ) = x
    generalize hk : |cos (h.rotation 3)| = k at *
    rw [← hc]
    linear_combination (k * ρ) * h3 + (-x * cos phi - sin phi * ρ) * hs
  · rw [vOf_e, wrap_sin, sub_sub, sin_pi_sub, sin_add, has]
    have h3 := sin_sq_add_cos_sq phi
    generalize cos (arcsin ρ) = x
    generalize hk : |cos (h.rotation 3)| = k at *
    rw [← hc]
    linear_combination (k * ρ) * h3 + (x * cos phi - sin phi * ρ) * hs

theorem clamp_near {a c ε : ℝ} (ha : 0 ≤ a) (ha1 : a ≤ 1) (hc : |c| ≤ a) (hε : 0 ≤ ε) (hε1 : ε ≤ 1) (hp : 0 < a + ε) :
    |a * Actuators.clamp (c / (a + ε)) (-1 + ε) (1 - ε) - c| ≤ ε ∧
    -1 ≤ Actuators.clamp (c / (a + ε)) (-1 + ε) (1 - ε) ∧ Actuators.clamp (c / (a + ε)) (-1 + ε) (1 - ε) ≤ 1 := by
  obtain ⟨c1, c2⟩ := abs_le.1 hc
  set q := c / (a + ε) with hq
  have hqc : q * (a + ε) = c := by rw [hq]; field_simp
  have hlo : -1 ≤ Actuators.clamp q (-1 + ε) (1 - ε) := by
    refine le_min ((by linarith : (-1:ℝ) ≤ -1 + ε).trans (le_max_right _ _)) (by linarith)
  have hhi : Actuators.clamp q (-1 + ε) (1 - ε) ≤ 1 := (min_le_right _ _).trans (by linarith)
  refine ⟨?_, hlo, hhi⟩
  have hq1 : |q| ≤ 1 := by
    rw [hq, abs_div, abs_of_pos hp, div_le_one hp]; linarith
  obtain ⟨q1, q2⟩ := abs_le.1 hq1
  rw [abs_le]
  rw [Actuators.clamp]
  rcases le_total q (-1 + ε) with h | h
  · rw [max_eq_right h]
    rcases le_total (-1 + ε) (1 - ε) with h' | h'
    · rw [min_eq_left h']
      constructor
      · nlinarith
      · have : q * (a + ε) ≤ (-1 + ε) * (a + ε) := by nlinarith
        nlinarith
    · rw [min_eq_right h']
      constructor <;> nlinarith
  · rw [max_eq_left h]
    rcases le_total q (1 - ε) with h' | h'
    · rw [min_eq_left h']
      have : a * q - c = -q * ε := by rw [← hqc]; ring
      rw [this]
      constructor <;> nlinarith
    · rw [min_eq_right h']
      constructor <;> nlinarith

/-- Distance between the reached and the requested normal in the frame of the first joint. -/
theorem close_of_halfplane {ε c ve : ℝ} {w1 w2 n1 n2 p : ℝ} (hε : 0 ≤ ε)
    (hn : c ^ 2 + n1 ^ 2 + n2 ^ 2 = 1) (hv : ve ^ 2 + (w1 ^ 2 + w2 ^ 2) = 1)
    (hp : p = √(w1 ^ 2 + w2 ^ 2)) (hd : w1 * n1 + w2 * n2 = p * √(n1 ^ 2 + n2 ^ 2)) (hcv : |ve - c| ≤ ε) :
    (ve - c) ^ 2 + (w1 - n1) ^ 2 + (w2 - n2) ^ 2 ≤ 2 * ε + ε ^ 2 := by
  set q := √(n1 ^ 2 + n2 ^ 2) with hq
  have hp2 : p ^ 2 = w1 ^ 2 + w2 ^ 2 := by rw [hp]; exact Real.sq_sqrt (by positivity)
  have hq2 : q ^ 2 = n1 ^ 2 + n2 ^ 2 := by rw [hq]; exact Real.sq_sqrt (by positivity)
  have hp0 : 0 ≤ p := by rw [hp]; exact Real.sqrt_nonneg _
  have hq0 : 0 ≤ q := by rw [hq]; exact Real.sqrt_nonneg _
  obtain ⟨d1, d2⟩ := abs_le.1 hcv
  have h1 : (w1 - n1) ^ 2 + (w2 - n2) ^ 2 = (p - q) ^ 2 := by nlinarith
  have h2 : (p - q) * (p + q) = (c - ve) * (c + ve) := by nlinarith
  have hc1 : |c| ≤ 1 := by rw [← sq_le_one_iff_abs_le_one]; nlinarith [sq_nonneg n1, sq_nonneg n2]
  have hv1 : |ve| ≤ 1 := by rw [← sq_le_one_iff_abs_le_one]; nlinarith [sq_nonneg w1, sq_nonneg w2]
  obtain ⟨a1, a2⟩ := abs_le.1 hc1
  obtain ⟨b1, b2⟩ := abs_le.1 hv1
  have h3 : (p - q) ^ 2 ≤ |(c - ve) * (c + ve)| := by
    rw [← h2, abs_mul, abs_of_nonneg (by linarith : 0 ≤ p + q)]
    have : (p - q) ^ 2 = |p - q| * |p - q| := by rw [← abs_mul, abs_of_nonneg (mul_self_nonneg _)]; ring
    rw [this]
    apply mul_le_mul_of_nonneg_left _ (abs_nonneg _)
    rw [abs_le]; constructor <;> linarith
  have h4 : |(c - ve) * (c + ve)| ≤ ε * 2 := by
    rw [abs_mul]
    apply mul_le_mul _ _ (abs_nonneg _) hε
    · rw [abs_sub_comm]; exact hcv
    · rw [abs_le]; constructor <;> linarith
  nlinarith [sq_abs (ve - c), abs_nonneg (ve - c)]

end Artist
