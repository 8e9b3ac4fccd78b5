import Verif.Proofs.Rotations
import Verif.Props.Kinematics
/-!
# C70: rotations between two directions
-/
namespace Artist.Rotations
open Matrix Real Transforms Kinematics

/-- C70, axis and angle: for any two vectors that are not zero, rotating the direction of the first about the returned axis (a unit vector)
by the returned angle gives the direction of the second, up to `√2 · 10⁻⁶`; the angle is between 0 and π. -/
theorem C70_axis_angle (x y : Fin 3 → ℝ) (hx : x ≠ 0) (hy : y ≠ 0) :
    norm3 (angleAndAxis x y).1 = 1 ∧ 0 ≤ (angleAndAxis x y).2 ∧ (angleAndAxis x y).2 ≤ π ∧
    norm3 (rotateAbout (angleAndAxis x y).1 (angleAndAxis x y).2 ((norm3 x)⁻¹ • x) - (norm3 y)⁻¹ • y) ≤ √2 / 10 ^ 6 := by
  obtain ⟨-, ha⟩ := unit_dot hx
  obtain ⟨-, hb⟩ := unit_dot hy
  unfold angleAndAxis
  generalize (norm3 x)⁻¹ • x = a at *
  generalize (norm3 y)⁻¹ • y = b at *
  obtain ⟨d1, d2⟩ := dot_mem a b ha hb
  simp only [clamp_dot a b ha hb]
  have hcs := cross_sq a b ha hb
  have hc0 := norm3_nonneg (crossProduct a b)
  have small : ∀ v : Fin 3 → ℝ, norm3 v ^ 2 ≤ 2 * norm3 (crossProduct a b) ^ 2 → norm3 (crossProduct a b) < 1 / 10 ^ 6 →
      norm3 v ≤ √2 / 10 ^ 6 := by
    intro v h1 h2
    have h3 : norm3 v ≤ √(2 * (1 / 10 ^ 6) ^ 2) := le_sqrt_of_sq_le (h1.trans (by gcongr))
    rw [sqrt_mul (by norm_num), sqrt_sq (by norm_num)] at h3
    linarith
  split
  · rename_i h
    refine ⟨by simp [norm3, dotProduct, Fin.sum_univ_three], le_refl _, pi_pos.le, ?_⟩
    rw [rotate_zero]
    refine small _ ?_ h.1
    rw [norm3_sub_sq a b ha hb, hcs]
    nlinarith [h.2]
  · split
    · rename_i h
      have ho := orthogonal_ne a ha
      refine ⟨?_, pi_pos.le, le_refl _, ?_⟩
      · simp only []
        rw [norm3_smul _ (inv_nonneg.2 ho.le), inv_mul_cancel₀ ho.ne']
      · rw [rotate_pi _ _ (by rw [smul_dotProduct, dotProduct_comm, dot_self_cross, smul_zero])]
        refine small _ ?_ h.1
        have hneg : norm3 (-a - b) ^ 2 = 2 + 2 * (a ⬝ᵥ b) := by
          have h0 := norm3_sub_sq (-a) b (by rw [neg_dotProduct, dotProduct_neg, neg_neg, ha]) hb
          rw [h0, neg_dotProduct]; ring
        rw [hneg, hcs]
        nlinarith [h.2]
    · rename_i h1 h2
      have hpos : 0 < norm3 (crossProduct a b) := by
        rcases lt_or_ge (norm3 (crossProduct a b)) (1 / 10 ^ 6) with h | h
        · exfalso
          have e : a ⬝ᵥ b = 0 := by
            rcases lt_trichotomy (a ⬝ᵥ b) 0 with hl | hl | hl
            · exact absurd ⟨h, hl⟩ h2
            · exact hl
            · exact absurd ⟨h, hl⟩ h1
          rw [e] at hcs
          nlinarith
        · exact lt_of_lt_of_le (by norm_num) h
      refine ⟨?_, arccos_nonneg _, arccos_le_pi _, ?_⟩
      · simp only []
        rw [norm3_smul _ (inv_nonneg.2 hc0), inv_mul_cancel₀ hpos.ne']
      · rw [rotate_cross a b ha hb hpos, sub_self]
        have : norm3 0 = 0 := by simp [norm3]
        rw [this]; positivity

example : (![0, -1, 0] : Fin 3 → ℝ) ≠ 0 ∧ (![0, 0, 1] : Fin 3 → ℝ) ≠ 0 :=
  ⟨fun h => by simpa using congrFun h 1, fun h => by simpa using congrFun h 2⟩

/-- C70, axis and angle: exact whenever the directions are not nearly parallel (sine of the angle between them at least `10⁻⁶`). -/
theorem C70_axis_angle_exact (x y : Fin 3 → ℝ) (hx : x ≠ 0) (hy : y ≠ 0)
    (h : 1 / 10 ^ 6 ≤ norm3 (crossProduct ((norm3 x)⁻¹ • x) ((norm3 y)⁻¹ • y))) :
    rotateAbout (angleAndAxis x y).1 (angleAndAxis x y).2 ((norm3 x)⁻¹ • x) = (norm3 y)⁻¹ • y := by
  obtain ⟨-, ha⟩ := unit_dot hx
  obtain ⟨-, hb⟩ := unit_dot hy
  unfold angleAndAxis
  generalize (norm3 x)⁻¹ • x = a at *
  generalize (norm3 y)⁻¹ • y = b at *
  simp only [clamp_dot a b ha hb]
  rw [if_neg (fun c => absurd c.1 (not_lt.2 h)), if_neg (fun c => absurd c.1 (not_lt.2 h))]
  exact rotate_cross a b ha hb (lt_of_lt_of_le (by norm_num) h)

example : (1 : ℝ) / 10 ^ 6 ≤ norm3 (crossProduct ((norm3 ![0, -2, 0])⁻¹ • ![0, -2, 0]) ((norm3 ![0, 0, 3])⁻¹ • ![0, 0, 3])) := by
  have h1 : norm3 ![0, -2, 0] = 2 := by
    simp only [norm3, dotProduct, Fin.sum_univ_three]
    rw [show (![0, -2, 0] : Fin 3 → ℝ) 0 * ![0, -2, 0] 0 + ![0, -2, 0] 1 * ![0, -2, 0] 1 + ![0, -2, 0] 2 * ![0, -2, 0] 2 = 2 ^ 2 by simp; norm_num]
    exact sqrt_sq (by norm_num)
  have h2 : norm3 ![0, 0, 3] = 3 := by
    simp only [norm3, dotProduct, Fin.sum_univ_three]
    rw [show (![0, 0, 3] : Fin 3 → ℝ) 0 * ![0, 0, 3] 0 + ![0, 0, 3] 1 * ![0, 0, 3] 1 + ![0, 0, 3] 2 * ![0, 0, 3] 2 = 3 ^ 2 by simp; norm_num]
    exact sqrt_sq (by norm_num)
  rw [h1, h2]
  have : crossProduct ((2:ℝ)⁻¹ • (![0, -2, 0] : Fin 3 → ℝ)) ((3:ℝ)⁻¹ • (![0, 0, 3] : Fin 3 → ℝ)) = ![-1, 0, 0] := by
    simp [cross_apply]
  rw [this]
  simp [norm3, dotProduct, Fin.sum_univ_three]
  norm_num

/-- C70, axis and angle: exact also for vectors of the same or of opposite direction; the angle is then 0 or π. -/
theorem C70_axis_angle_parallel (x : Fin 3 → ℝ) (hx : x ≠ 0) (c : ℝ) (hc : c ≠ 0) :
    rotateAbout (angleAndAxis x (c • x)).1 (angleAndAxis x (c • x)).2 ((norm3 x)⁻¹ • x) = (norm3 (c • x))⁻¹ • (c • x) ∧
    (angleAndAxis x (c • x)).2 = if 0 < c then 0 else π := by
  obtain ⟨hp, ha⟩ := unit_dot hx
  unfold angleAndAxis
  have hb : (norm3 (c • x))⁻¹ • (c • x) = if 0 < c then (norm3 x)⁻¹ • x else -((norm3 x)⁻¹ • x) := unit_smul c hc x hp
  rw [hb]
  generalize (norm3 x)⁻¹ • x = a at *
  split
  · simp only [clamp_dot a a ha ha, cross_self, ha]
    have h0 : norm3 0 = 0 := by simp [norm3]
    have hk : Actuators.clamp (1 : ℝ) (-1) 1 = 1 := by rw [Actuators.clamp]; simp
    rw [if_pos (by rw [h0, hk]; norm_num)]
    exact ⟨rotate_zero _ _, rfl⟩
  · have hn : (-a) ⬝ᵥ (-a) = 1 := by rw [neg_dotProduct, dotProduct_neg, neg_neg, ha]
    have hd : a ⬝ᵥ -a = -1 := by rw [dotProduct_neg, ha]
    have hx0 : crossProduct a (-a) = 0 := by rw [map_neg, cross_self, neg_zero]
    simp only [clamp_dot a (-a) ha hn, hx0, hd]
    have h0 : norm3 0 = 0 := by simp [norm3]
    have hk : Actuators.clamp (-1 : ℝ) (-1) 1 = -1 := by rw [Actuators.clamp]; simp
    rw [if_neg (by rw [hk]; norm_num), if_pos (by rw [h0, hk]; norm_num)]
    exact ⟨rotate_pi _ _ (by rw [smul_dotProduct, dotProduct_comm, dot_self_cross, smul_zero]), rfl⟩

example : (![3, 4, 12] : Fin 3 → ℝ) ≠ 0 ∧ (-2 : ℝ) ≠ 0 := ⟨fun h => by simpa using congrFun h 0, by norm_num⟩

/-- The rotation described by a rotation vector: about its direction, by its length. -/
noncomputable def rotateByVector (w v : Fin 3 → ℝ) : Fin 3 → ℝ := rotateAbout ((norm3 w)⁻¹ • w) (norm3 w) v

/-- C70, full statement for rotation vectors: the rotation vector takes the direction of the first argument to that of the second. -/
def VectorCorrect (x y : Fin 3 → ℝ) : Prop :=
  rotateByVector (decomposeRotations x y) ((norm3 x)⁻¹ • x) = (norm3 y)⁻¹ • y

/-- C70, rotation vectors: correct for vectors of any length from `10⁻¹²` on that are not parallel (sine of the angle at least `10⁻¹²`).
Missing: opposite directions, where it is wrong (`C70_vector_opposite`). -/
theorem C70_vector_partial (x y : Fin 3 → ℝ) (hx : 1 / 10 ^ 12 ≤ norm3 x) (hy : 1 / 10 ^ 12 ≤ norm3 y)
    (h : 1 / 10 ^ 12 ≤ norm3 (crossProduct ((norm3 x)⁻¹ • x) ((norm3 y)⁻¹ • y))) : VectorCorrect x y := by
  have px : 0 < norm3 x := lt_of_lt_of_le (by norm_num) hx
  have py : 0 < norm3 y := lt_of_lt_of_le (by norm_num) hy
  have ha := norm_dot px
  have hb := norm_dot py
  unfold VectorCorrect decomposeRotations
  rw [normalizeEps_of_le hx, normalizeEps_of_le hy]
  generalize (norm3 x)⁻¹ • x = a at *
  generalize (norm3 y)⁻¹ • y = b at *
  have pc : 0 < norm3 (crossProduct a b) := lt_of_lt_of_le (by norm_num) h
  have hcs := cross_sq a b ha hb
  simp only [clamp_dot a b ha hb, normalizeEps_of_le h]
  have ht : 0 < arccos (a ⬝ᵥ b) := by
    rw [arccos_pos]
    have := (dot_mem a b ha hb).2
    rcases lt_or_eq_of_le this with h' | h'
    · exact h'
    · rw [h'] at hcs; nlinarith
  have hn : norm3 (arccos (a ⬝ᵥ b) • (norm3 (crossProduct a b))⁻¹ • crossProduct a b) = arccos (a ⬝ᵥ b) := by
    rw [norm3_smul _ ht.le, norm3_smul _ (inv_nonneg.2 pc.le), inv_mul_cancel₀ pc.ne', mul_one]
  rw [rotateByVector, hn, smul_smul, inv_mul_cancel₀ ht.ne', one_smul]
  exact rotate_cross a b ha hb pc

/-- C70, rotation vectors: correct for equal directions (the vector is zero). -/
theorem C70_vector_same (x : Fin 3 → ℝ) (c : ℝ) (hc : 0 < c) (hx : 1 / 10 ^ 12 ≤ norm3 x) (hy : 1 / 10 ^ 12 ≤ norm3 (c • x)) :
    decomposeRotations x (c • x) = 0 ∧ VectorCorrect x (c • x) := by
  have px : 0 < norm3 x := lt_of_lt_of_le (by norm_num) hx
  have ha := norm_dot px
  have hb := unit_smul c hc.ne' x px
  rw [if_pos hc] at hb
  have h0 : norm3 0 = 0 := by simp [norm3]
  have hz : decomposeRotations x (c • x) = 0 := by
    unfold decomposeRotations
    rw [normalizeEps_of_le hx, normalizeEps_of_le hy, hb]
    simp only [cross_self, normalizeEps, smul_zero]
  refine ⟨hz, ?_⟩
  rw [VectorCorrect, hz, hb, rotateByVector, h0, rotate_zero]

/-- C70, rotation vectors: for opposite directions the returned vector is zero, so nothing is rotated: the full statement is false for every
such pair. -/
theorem C70_vector_opposite (x : Fin 3 → ℝ) (c : ℝ) (hc : c < 0) (hx : 1 / 10 ^ 12 ≤ norm3 x) (hy : 1 / 10 ^ 12 ≤ norm3 (c • x)) :
    decomposeRotations x (c • x) = 0 ∧ ¬ VectorCorrect x (c • x) := by
  have px : 0 < norm3 x := lt_of_lt_of_le (by norm_num) hx
  have ha := norm_dot px
  have hb := unit_smul c hc.ne x px
  rw [if_neg (not_lt.2 hc.le)] at hb
  have h0 : norm3 0 = 0 := by simp [norm3]
  have hz : decomposeRotations x (c • x) = 0 := by
    unfold decomposeRotations
    rw [normalizeEps_of_le hx, normalizeEps_of_le hy, hb]
    simp only [map_neg, cross_self, neg_zero, normalizeEps, smul_zero]
  refine ⟨hz, ?_⟩
  rw [VectorCorrect, hz, hb, rotateByVector, h0, rotate_zero]
  intro he
  generalize (norm3 x)⁻¹ • x = a at *
  have h1 : a ⬝ᵥ a = a ⬝ᵥ -a := by rw [← he]
  rw [dotProduct_neg, ha] at h1
  norm_num at h1

/-- Up and down, of lengths 1 and 1, meet the hypotheses; up and south those of `C70_vector_partial`. -/
example : (1 : ℝ) / 10 ^ 12 ≤ norm3 ![0, 0, 1] ∧ (1 : ℝ) / 10 ^ 12 ≤ norm3 ((-1 : ℝ) • ![0, 0, 1]) ∧
    (1 : ℝ) / 10 ^ 12 ≤ norm3 (crossProduct ((norm3 ![0, 0, 1])⁻¹ • ![0, 0, 1]) ((norm3 ![0, -1, 0])⁻¹ • ![0, -1, 0])) := by
  have h1 : norm3 ![0, 0, 1] = 1 := by simp [norm3, dotProduct, Fin.sum_univ_three]
  have h2 : norm3 ![0, -1, 0] = 1 := by simp [norm3, dotProduct, Fin.sum_univ_three]
  have h3 : norm3 ((-1 : ℝ) • ![0, 0, 1]) = 1 := by simp [norm3, dotProduct, Fin.sum_univ_three]
  have h4 : norm3 (crossProduct ![0, 0, 1] ![0, -1, 0]) = 1 := by simp [norm3, dotProduct, Fin.sum_univ_three, cross_apply]
  rw [h1, h2, h3, inv_one, one_smul, one_smul, h4]
  norm_num

theorem shift_eq : initialAngleShift = -(π / 2) := by
  have h1 : norm3 ![0, -1, 0] = 1 := by simp [norm3, dotProduct, Fin.sum_univ_three]
  have h2 : norm3 ![0, 0, 1] = 1 := by simp [norm3, dotProduct, Fin.sum_univ_three]
  have hc : crossProduct ![0, -1, 0] ![0, 0, 1] = (![-1, 0, 0] : Fin 3 → ℝ) := by simp [cross_apply]
  have h3 : norm3 ![-1, 0, 0] = 1 := by simp [norm3, dotProduct, Fin.sum_univ_three]
  have hd : (![0, -1, 0] : Fin 3 → ℝ) ⬝ᵥ ![0, 0, 1] = 0 := by simp [dotProduct, Fin.sum_univ_three]
  unfold initialAngleShift angleAndAxis
  simp only [h1, h2, inv_one, one_smul, hc, h3, hd]
  rw [if_neg (by norm_num), if_neg (by norm_num)]
  have : Actuators.clamp (0 : ℝ) (-1) 1 = 0 := by rw [Actuators.clamp]; simp
  simp [this]

/-- C70, compensation for linear actuators: the shift added to the initial angle of the first actuator on loading cancels the offset that the
kinematics multiply to every orientation.  For any heliostat without deviations, with joint angle `φ` (before the shift) at the first
actuator and zero at the second, the flat upward surface is turned by exactly `φ` about the east axis, at the position of the heliostat. -/
theorem C70_compensation (h : Heliostat) (hr : h.rotation = 0) (ht : h.translation = 0) (φ : ℝ) :
    h.anglesToOrientation (φ + initialAngleShift) 0 * orientationOffset =
      transl (h.position 0) (h.position 1) (h.position 2) * rotE φ := by
  have r0 : rotN 0 = 1 := by ext i j; fin_cases i <;> fin_cases j <;> simp [rotN, one_apply]
  have r1 : rotU 0 = 1 := by ext i j; fin_cases i <;> fin_cases j <;> simp [rotU, one_apply]
  have r2 : rotE 0 = 1 := by ext i j; fin_cases i <;> fin_cases j <;> simp [rotE, one_apply]
  have r3 : transl 0 0 0 = 1 := by ext i j; fin_cases i <;> fin_cases j <;> simp [transl, one_apply]
  have r4 : rotE (φ + -(π / 2)) * rotE (π / 2) = rotE φ := by
    ext i j
    fin_cases i <;> fin_cases j <;> simp [rotE, Matrix.mul_apply, Fin.sum_univ_four, ← sub_eq_add_neg, sin_sub_pi_div_two, cos_sub_pi_div_two]
  rw [offset_eq, shift_eq, Heliostat.anglesToOrientation]
  simp only [hr, ht, Pi.zero_apply, r0, r1, r2, r3, Matrix.one_mul, Matrix.mul_one]
  rw [Matrix.mul_assoc, r4]

/-- Every heliostat has a version without deviations. -/
example (h : Heliostat) : ∃ g : Heliostat, g.rotation = 0 ∧ g.translation = 0 ∧ g.position = h.position :=
  ⟨{ h with rotation := 0, translation := 0 }, rfl, rfl, rfl⟩

end Artist.Rotations
