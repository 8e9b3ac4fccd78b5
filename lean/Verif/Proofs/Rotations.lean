import Verif.Model.Rotations
import Verif.Proofs.Kinematics
/-! Helper lemmas for C70. -/
namespace Artist.Rotations
open Matrix Real Transforms Kinematics

theorem cross_sq (a b : Fin 3 → ℝ) (ha : a ⬝ᵥ a = 1) (hb : b ⬝ᵥ b = 1) : norm3 (crossProduct a b) ^ 2 = 1 - (a ⬝ᵥ b) ^ 2 := by
  rw [norm3_sq, cross_dot_cross, ha, hb, dotProduct_comm b a]; ring

theorem dot_mem (a b : Fin 3 → ℝ) (ha : a ⬝ᵥ a = 1) (hb : b ⬝ᵥ b = 1) : -1 ≤ a ⬝ᵥ b ∧ a ⬝ᵥ b ≤ 1 := by
  have := cross_sq a b ha hb
  have h0 := sq_nonneg (norm3 (crossProduct a b))
  constructor <;> nlinarith

theorem clamp_dot (a b : Fin 3 → ℝ) (ha : a ⬝ᵥ a = 1) (hb : b ⬝ᵥ b = 1) : Actuators.clamp (a ⬝ᵥ b) (-1) 1 = a ⬝ᵥ b := by
  obtain ⟨h1, h2⟩ := dot_mem a b ha hb
  rw [Actuators.clamp]
  simp [h1, h2]

/-- The rotation about the normalised cross product by the angle between two unit vectors takes one to the other. -/
theorem rotate_cross (a b : Fin 3 → ℝ) (ha : a ⬝ᵥ a = 1) (hb : b ⬝ᵥ b = 1) (hc : 0 < norm3 (crossProduct a b)) :
    rotateAbout ((norm3 (crossProduct a b))⁻¹ • crossProduct a b) (arccos (a ⬝ᵥ b)) a = b := by
  obtain ⟨h1, h2⟩ := dot_mem a b ha hb
  have hs : sin (arccos (a ⬝ᵥ b)) = norm3 (crossProduct a b) := by
    rw [sin_arccos, ← cross_sq a b ha hb, sqrt_sq hc.le]
  have hk : ((norm3 (crossProduct a b))⁻¹ • crossProduct a b) ⬝ᵥ a = 0 := by
    rw [smul_dotProduct, dotProduct_comm, dot_self_cross, smul_zero]
  have hx : norm3 (crossProduct a b) • crossProduct ((norm3 (crossProduct a b))⁻¹ • crossProduct a b) a = crossProduct (crossProduct a b) a := by
    rw [map_smul, LinearMap.smul_apply, smul_smul, mul_inv_cancel₀ hc.ne', one_smul]
  have ht : crossProduct (crossProduct a b) a = b - (a ⬝ᵥ b) • a := by
    simp only [dotProduct, Fin.sum_univ_three] at ha ⊢
    ext i; fin_cases i <;> simp [cross_apply]
    · linear_combination (b 0) * ha
    · linear_combination (b 1) * ha
    · linear_combination (b 2) * ha
  rw [rotateAbout, cos_arccos h1 h2, hs, hk, hx, ht]
  simp

/-- Half a turn about a perpendicular axis inverts. -/
theorem rotate_pi (k a : Fin 3 → ℝ) (h : k ⬝ᵥ a = 0) : rotateAbout k π a = -a := by
  rw [rotateAbout, h]; simp

theorem rotate_zero (k a : Fin 3 → ℝ) : rotateAbout k 0 a = a := by
  rw [rotateAbout]; simp

theorem norm3_sub_sq (a b : Fin 3 → ℝ) (ha : a ⬝ᵥ a = 1) (hb : b ⬝ᵥ b = 1) : norm3 (a - b) ^ 2 = 2 - 2 * (a ⬝ᵥ b) := by
  rw [norm3_sq, sub_dotProduct, dotProduct_sub, dotProduct_sub, ha, hb, dotProduct_comm b a]; ring

/-- The vector chosen as reference in the opposite case is never parallel. -/
theorem orthogonal_ne (a : Fin 3 → ℝ) (ha : a ⬝ᵥ a = 1) :
    0 < norm3 (crossProduct a (if |a 0| < |a 1| then ![1, 0, 0] else ![0, 1, 0])) := by
  rw [norm3, sqrt_pos]
  simp only [dotProduct, Fin.sum_univ_three] at ha ⊢
  split
  · rename_i h
    have h1 : 0 < a 1 ^ 2 := by
      have : 0 < |a 1| := lt_of_le_of_lt (abs_nonneg _) h
      rw [← sq_abs]; positivity
    simp [cross_apply]
    nlinarith [mul_self_nonneg (a 2)]
  · rename_i h
    have h1 : a 1 ^ 2 ≤ a 0 ^ 2 := sq_le_sq.2 (not_lt.1 h)
    simp [cross_apply]
    nlinarith [mul_self_nonneg (a 2), mul_self_nonneg (a 0)]

theorem unit_dot {v : Fin 3 → ℝ} (h : v ≠ 0) : 0 < norm3 v ∧ ((norm3 v)⁻¹ • v) ⬝ᵥ ((norm3 v)⁻¹ • v) = 1 := by
  have : 0 < norm3 v := by
    rw [norm3, sqrt_pos]
    simp only [dotProduct, Fin.sum_univ_three]
    by_contra hn
    refine h (funext fun i => ?_)
    have p0 := mul_self_nonneg (v 0)
    have p1 := mul_self_nonneg (v 1)
    have p2 := mul_self_nonneg (v 2)
    fin_cases i <;> (simp only [Pi.zero_apply]; refine mul_self_eq_zero.1 ?_; simp; nlinarith)
  exact ⟨this, norm_dot this⟩

theorem unit_smul (c : ℝ) (hc : c ≠ 0) (x : Fin 3 → ℝ) (hp : 0 < norm3 x) :
    (norm3 (c • x))⁻¹ • (c • x) = if 0 < c then (norm3 x)⁻¹ • x else -((norm3 x)⁻¹ • x) := by
  have hn : norm3 (c • x) = |c| * norm3 x := by
    rw [norm3, smul_dotProduct, dotProduct_smul, smul_eq_mul, smul_eq_mul, ← mul_assoc, sqrt_mul (mul_self_nonneg c), sqrt_mul_self_eq_abs, norm3]
  rw [hn, smul_smul]
  split
  · rename_i h
    rw [abs_of_pos h]; congr 1; field_simp
  · rename_i h
    have h' : c < 0 := lt_of_le_of_ne (not_lt.1 h) hc
    rw [abs_of_neg h', ← neg_smul]; congr 1; field_simp

end Artist.Rotations
