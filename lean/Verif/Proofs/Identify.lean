import Verif.Props.Kinematics
import Mathlib.Tactic.FinCases
import Mathlib.Tactic.LinearCombination
/-! Helpers for C116: the normal of a mirror in closed form, and what normals determine. -/
namespace Artist.Kinematics
open Matrix Real Transforms

theorem rotE_dir (a x y z : ℝ) : rotE a *ᵥ ![x, y, z, 0] = ![x, cos a * y - sin a * z, sin a * y + cos a * z, 0] := by
  funext i; fin_cases i <;> simp [rotE, Matrix.mulVec, dotProduct, Fin.sum_univ_succ] <;> ring
theorem rotN_dir (a x y z : ℝ) : rotN a *ᵥ ![x, y, z, 0] = ![cos a * x - sin a * z, y, sin a * x + cos a * z, 0] := by
  funext i; fin_cases i <;> simp [rotN, Matrix.mulVec, dotProduct, Fin.sum_univ_succ] <;> ring
theorem rotU_dir (a x y z : ℝ) : rotU a *ᵥ ![x, y, z, 0] = ![cos a * x - sin a * y, sin a * x + cos a * y, z, 0] := by
  funext i; fin_cases i <;> simp [rotU, Matrix.mulVec, dotProduct, Fin.sum_univ_succ] <;> ring
theorem transl_dir (e n u x y z : ℝ) : transl e n u *ᵥ ![x, y, z, 0] = ![x, y, z, 0] := by
  funext i; fin_cases i <;> simp [transl, Matrix.mulVec, dotProduct, Fin.sum_univ_succ]

theorem rotE_mul (x y : ℝ) : rotE x * rotE y = rotE (x + y) := by
  ext i j; fin_cases i <;> fin_cases j <;> simp [rotE, Matrix.mul_apply, Fin.sum_univ_succ, cos_add, sin_add] <;> ring

/-- The orientation depends on the angle of the first joint and the tilt of the second axis about east through their sum only. -/
theorem sum_only (h : Heliostat) (θ₁ θ₂ : ℝ) : h.anglesToOrientation θ₁ θ₂ =
    transl (h.position 0) (h.position 1) (h.position 2) * (rotN (h.rotation 0) * (rotU (h.rotation 1) *
      (transl (h.translation 0) (h.translation 1) (h.translation 2) * (rotE (θ₁ + h.rotation 2) * (rotN (h.rotation 3) *
        (transl (h.translation 3) (h.translation 4) (h.translation 5) * (rotU θ₂ * transl (h.translation 6) (h.translation 7) (h.translation 8)))))))) := by
  unfold Heliostat.anglesToOrientation
  rw [← rotE_mul]
  simp only [one_mul, Matrix.mul_assoc]

/-- The normal for tilts `a`, `d` of the first axis, angle `α` about it, tilt `b` of the second axis and angle `β` about it. -/
noncomputable def normalOf (a d α b β : ℝ) : Fin 4 → ℝ :=
  let y := -cos α * cos β - sin α * (sin b * sin β)
  let z := -sin α * cos β + cos α * (sin b * sin β)
  let x := cos b * sin β
  ![cos a * (cos d * x - sin d * y) - sin a * z, sin d * x + cos d * y, sin a * (cos d * x - sin d * y) + cos a * z, 0]

theorem normal_formula (h : Heliostat) (m : ℝ × ℝ) : h.motorToOrientation m *ᵥ ![0, 0, 1, 0] =
    normalOf (h.rotation 0) (h.rotation 1) (h.actuator1.toAngle m.1 + h.rotation 2) (h.rotation 3) (h.actuator2.toAngle m.2) := by
  unfold Heliostat.motorToOrientation Heliostat.forward Heliostat.anglesToOrientation normalOf
  rw [offset_eq]
  simp only [one_mul, ← Matrix.mulVec_mulVec, rotE_dir, rotN_dir, rotU_dir, transl_dir, cos_pi_div_two, sin_pi_div_two, cos_add, sin_add]
  congr 1
  · ring
  congr 1
  · ring
  congr 1
  · ring

theorem angle_eq {x y : ℝ} (hc : cos (x - y) = 1) : ∃ k : ℤ, x - y = 2 * π * k := by
  obtain ⟨k, hk⟩ := (cos_eq_one_iff _).1 hc
  exact ⟨k, by rw [← hk]; ring⟩

/-- Two unknowns and two independent equations. -/
theorem two_eq {p q g k p' q' : ℝ} (h1 : p * g + q * k = 0) (h2 : p' * g + q' * k = 0) (hd : p * q' - q * p' ≠ 0) : g = 0 ∧ k = 0 := by
  constructor
  · apply (mul_eq_zero.1 _).resolve_left hd
    linear_combination q' * h1 - q * h2
  · apply (mul_eq_zero.1 _).resolve_left hd
    linear_combination -p' * h1 + p * h2

/-- Three different points on a circle do not lie on a line. -/
theorem circle_det (x y α₁ α₂ α₃ : ℝ) :
    let P := fun α => cos α * x - sin α * y
    let Q := fun α => sin α * x + cos α * y
    (P α₁ - P α₂) * (Q α₁ - Q α₃) - (Q α₁ - Q α₂) * (P α₁ - P α₃) =
      4 * (x ^ 2 + y ^ 2) * (sin ((α₁ - α₂) / 2) * sin ((α₃ - α₂) / 2) * sin ((α₁ - α₃) / 2)) := by
  intro P Q
  have e1 : (P α₁ - P α₂) * (Q α₁ - Q α₃) - (Q α₁ - Q α₂) * (P α₁ - P α₃) =
      (x ^ 2 + y ^ 2) * (sin (α₁ - α₂) - sin (α₃ - α₂) * 1 + sin (α₃ - α₁)) * (-1) := by
    simp only [P, Q, sin_sub]
    linear_combination (0 : ℝ)
  rw [e1]
  obtain ⟨s, hs⟩ : ∃ s, s = (α₁ - α₂) / 2 := ⟨_, rfl⟩
  obtain ⟨t, ht⟩ : ∃ t, t = (α₃ - α₂) / 2 := ⟨_, rfl⟩
  rw [← hs, ← ht, show α₁ - α₂ = 2 * s by rw [hs]; ring, show α₃ - α₂ = 2 * t by rw [ht]; ring,
    show α₃ - α₁ = 2 * t - 2 * s by rw [hs, ht]; ring, show (α₁ - α₃) / 2 = s - t by rw [hs, ht]; ring,
    sin_sub (2 * t), sin_sub s, sin_two_mul, sin_two_mul, cos_two_mul, cos_two_mul]
  have h1 := sin_sq_add_cos_sq s
  have h2 := sin_sq_add_cos_sq t
  linear_combination (x ^ 2 + y ^ 2) * (-4 * sin t * cos t * h1 + 4 * sin s * cos s * h2)

/-- Two first axes, tilted by less than a right angle, and three directions at fixed angles from both: the axes are the same. -/
theorem same_axis {a d a' d' x y z x' : ℝ} {α₁ α₂ α₃ : ℝ} (ha : 0 < cos a) (hd : 0 < cos d) (ha' : 0 < cos a') (hd' : 0 < cos d')
    (h12 : sin ((α₁ - α₂) / 2) ≠ 0) (h32 : sin ((α₃ - α₂) / 2) ≠ 0) (h13 : sin ((α₁ - α₃) / 2) ≠ 0) (hyz : y ^ 2 + z ^ 2 ≠ 0)
    (h : ∀ α, α = α₁ ∨ α = α₂ ∨ α = α₃ →
      (cos a * (cos d * x - sin d * (cos α * y - sin α * z)) - sin a * (sin α * y + cos α * z)) * (cos a' * cos d') +
      (sin d * x + cos d * (cos α * y - sin α * z)) * sin d' +
      (sin a * (cos d * x - sin d * (cos α * y - sin α * z)) + cos a * (sin α * y + cos α * z)) * (sin a' * cos d') = x') :
    sin d = sin d' ∧ cos d = cos d' ∧ cos a = cos a' ∧ sin a = sin a' := by
  have h1 := h α₁ (Or.inl rfl)
  have h2 := h α₂ (Or.inr (Or.inl rfl))
  have h3 := h α₃ (Or.inr (Or.inr rfl))
  have hdet := circle_det y z α₁ α₂ α₃
  simp only at hdet
  have hdet' : (cos α₁ * y - sin α₁ * z - (cos α₂ * y - sin α₂ * z)) * (sin α₁ * y + cos α₁ * z - (sin α₃ * y + cos α₃ * z)) -
      (sin α₁ * y + cos α₁ * z - (sin α₂ * y + cos α₂ * z)) * (cos α₁ * y - sin α₁ * z - (cos α₃ * y - sin α₃ * z)) ≠ 0 := by
    rw [hdet]
    exact mul_ne_zero (mul_ne_zero (by norm_num) hyz) (mul_ne_zero (mul_ne_zero h12 h32) h13)
  obtain ⟨g1, g2⟩ := two_eq
    (g := -cos a * sin d * (cos a' * cos d') + cos d * sin d' - sin a * sin d * (sin a' * cos d'))
    (k := -sin a * (cos a' * cos d') + cos a * (sin a' * cos d'))
    (by linear_combination h1 - h2) (by linear_combination h1 - h3) hdet'
  have sa := sin_sq_add_cos_sq a
  have sa' := sin_sq_add_cos_sq a'
  have sd := sin_sq_add_cos_sq d
  have sd' := sin_sq_add_cos_sq d'
  have k2 : sin a * cos a' = cos a * sin a' := by
    have : cos d' * (cos a * sin a' - sin a * cos a') = 0 := by linear_combination g2
    have := (mul_eq_zero.1 this).resolve_left hd'.ne'
    linarith
  have ka : cos a = cos a' ∧ sin a = sin a' := by
    have hq : cos a ^ 2 = cos a' ^ 2 := by
      linear_combination (cos a ^ 2) * (-sa') + cos a' ^ 2 * sa + (- sin a * cos a' - cos a * sin a') * k2
    have e := (pow_left_inj₀ ha.le ha'.le two_ne_zero).1 hq
    refine ⟨e, ?_⟩
    rw [← e, mul_comm] at k2
    exact mul_left_cancel₀ ha.ne' k2
  have k1 : sin d * cos d' = cos d * sin d' := by
    rw [← ka.1, ← ka.2] at g1
    linear_combination -g1 - sin d * cos d' * sa
  have hq : cos d ^ 2 = cos d' ^ 2 := by
    linear_combination (cos d ^ 2) * (-sd') + cos d' ^ 2 * sd + (- sin d * cos d' - cos d * sin d') * k1
  have e := (pow_left_inj₀ hd.le hd'.le two_ne_zero).1 hq
  rw [← e, mul_comm] at k1
  exact ⟨mul_left_cancel₀ hd.ne' k1, e, ka.1, ka.2⟩

/-- A normal undone by the tilts of the first axis. -/
theorem undo {a d : ℝ} {x y z x' y' z' : ℝ}
    (h : (![cos a * (cos d * x - sin d * y) - sin a * z, sin d * x + cos d * y, sin a * (cos d * x - sin d * y) + cos a * z, 0] : Fin 4 → ℝ) =
      ![cos a * (cos d * x' - sin d * y') - sin a * z', sin d * x' + cos d * y', sin a * (cos d * x' - sin d * y') + cos a * z', 0]) :
    x = x' ∧ y = y' ∧ z = z' := by
  have h0 := congrFun h 0
  have h1 := congrFun h 1
  have h2 := congrFun h 2
  simp at h0 h1 h2
  have sa := sin_sq_add_cos_sq a
  have sd := sin_sq_add_cos_sq d
  refine ⟨?_, ?_, ?_⟩
  · linear_combination cos d * (cos a * h0 + sin a * h2) + sin d * h1 + (x' - x) * sd + cos d * (cos d * (x' - x) - sin d * (y' - y)) * sa
  · linear_combination -sin d * (cos a * h0 + sin a * h2) + cos d * h1 + (y' - y) * sd - sin d * (cos d * (x' - x) - sin d * (y' - y)) * sa
  · linear_combination -sin a * h0 + cos a * h2 + (z' - z) * sa

/-- A turned vector undone. -/
theorem turned {α α' X Y X' Y' : ℝ} (h1 : cos α * X - sin α * Y = cos α' * X' - sin α' * Y') (h2 : sin α * X + cos α * Y = sin α' * X' + cos α' * Y') :
    X = cos (α' - α) * X' - sin (α' - α) * Y' ∧ Y = sin (α' - α) * X' + cos (α' - α) * Y' := by
  have s := sin_sq_add_cos_sq α
  rw [cos_sub, sin_sub]
  constructor
  · linear_combination cos α * h1 + sin α * h2 - X * s
  · linear_combination -sin α * h1 + cos α * h2 - Y * s

theorem turned_cos {c X Y X' Y' ε : ℝ} (h1 : X = cos c * X' - sin c * Y') (h2 : Y = sin c * X' + cos c * Y') (e1 : X = ε * X') (e2 : Y = ε * Y')
    (hρ : X' ^ 2 + Y' ^ 2 ≠ 0) : cos c = ε := by
  have : (X' ^ 2 + Y' ^ 2) * (cos c - ε) = 0 := by linear_combination -X' * h1 - Y' * h2 + X' * e1 + Y' * e2
  have := (mul_eq_zero.1 this).resolve_left hρ
  linarith

theorem half_ne {x y : ℝ} (h : ¬ ∃ k : ℤ, x - y = 2 * π * k) : sin ((x - y) / 2) ≠ 0 := by
  intro h0
  obtain ⟨k, hk⟩ := sin_eq_zero_iff.1 h0
  exact h ⟨k, by linarith⟩

theorem tilt_eq {x y : ℝ} (hx : |x| < π / 2) (hy : |y| < π / 2) (h : sin x = sin y) : x = y := by
  obtain ⟨a, b⟩ := abs_lt.1 hx
  obtain ⟨c, d⟩ := abs_lt.1 hy
  exact injOn_sin ⟨a.le, b.le⟩ ⟨c.le, d.le⟩ h

theorem tilt_cos {x : ℝ} (hx : |x| < π / 2) : 0 < cos x := by
  obtain ⟨a, b⟩ := abs_lt.1 hx
  exact cos_pos_of_mem_Ioo ⟨a, b⟩

end Artist.Kinematics
