import Verif.Proofs.Rigid
import Mathlib.Tactic.FieldSimp
import Mathlib.Tactic.Positivity
namespace Artist
open Matrix Real Transforms

theorem norm3_sq (v : Fin 3 → ℝ) : norm3 v ^ 2 = v ⬝ᵥ v := by
  rw [norm3, Real.sq_sqrt]
  simp [dotProduct, Fin.sum_univ_three]
  nlinarith [mul_self_nonneg (v 0), mul_self_nonneg (v 1), mul_self_nonneg (v 2)]

theorem norm3_nonneg (v : Fin 3 → ℝ) : 0 ≤ norm3 v := Real.sqrt_nonneg _

theorem norm3_smul (c : ℝ) (hc : 0 ≤ c) (v : Fin 3 → ℝ) : norm3 (c • v) = c * norm3 v := by
  rw [norm3, norm3, smul_dotProduct, dotProduct_smul, smul_eq_mul, smul_eq_mul, ← mul_assoc,
    Real.sqrt_mul (mul_self_nonneg c), Real.sqrt_mul_self hc]

theorem normalizeEps_of_le {eps : ℝ} {v : Fin 3 → ℝ} (h : eps ≤ norm3 v) :
    normalizeEps eps v = (norm3 v)⁻¹ • v := by
  rw [normalizeEps, max_eq_left h]

theorem norm_dot {v : Fin 3 → ℝ} (h : 0 < norm3 v) : ((norm3 v)⁻¹ • v) ⬝ᵥ ((norm3 v)⁻¹ • v) = 1 := by
  rw [smul_dotProduct, dotProduct_smul, ← norm3_sq, smul_eq_mul, smul_eq_mul]
  field_simp

/-- columns of the canting matrix -/
theorem canting_eq (ce cn : Fin 4 → ℝ) (he : 1 / 10 ^ 12 ≤ norm3 ![ce 0, ce 1, ce 2])
    (hn : 1 / 10 ^ 8 * norm3 ![ce 0, ce 1, ce 2] ≤ norm3 (crossProduct ![ce 0, ce 1, ce 2] ![cn 0, cn 1, cn 2])) :
    ∃ e u : Fin 3 → ℝ, e = (norm3 ![ce 0, ce 1, ce 2])⁻¹ • ![ce 0, ce 1, ce 2] ∧
      u = (norm3 (crossProduct ![ce 0, ce 1, ce 2] ![cn 0, cn 1, cn 2]))⁻¹ • crossProduct ![ce 0, ce 1, ce 2] ![cn 0, cn 1, cn 2] ∧
      e ⬝ᵥ e = 1 ∧ u ⬝ᵥ u = 1 ∧ e ⬝ᵥ u = 0 ∧
      cantingMatrix ce cn = !![e 0, crossProduct u e 0, u 0, 0; e 1, crossProduct u e 1, u 1, 0;
        e 2, crossProduct u e 2, u 2, 0; 0, 0, 0, 1] := by
  generalize hc : (![ce 0, ce 1, ce 2] : Fin 3 → ℝ) = c at *
  generalize hd : (![cn 0, cn 1, cn 2] : Fin 3 → ℝ) = d at *
  have hc0 : 0 < norm3 c := lt_of_lt_of_le (by norm_num) he
  have hw0 : 0 < norm3 (crossProduct c d) := lt_of_lt_of_le (by positivity) hn
  refine ⟨_, _, rfl, rfl, norm_dot hc0, norm_dot hw0, ?_, ?_⟩
  · rw [smul_dotProduct, dotProduct_smul, dot_self_cross]; simp
  · have h1 : normalizeEps (1 / 10 ^ 12) c = (norm3 c)⁻¹ • c := normalizeEps_of_le he
    have hx : crossProduct ((norm3 c)⁻¹ • c) d = (norm3 c)⁻¹ • crossProduct c d := by
      rw [map_smul]; rfl
    have hxn : norm3 ((norm3 c)⁻¹ • crossProduct c d) = (norm3 c)⁻¹ * norm3 (crossProduct c d) :=
      norm3_smul _ (inv_nonneg.2 hc0.le) _
    have h2 : normalizeEps (1 / 10 ^ 8) (crossProduct ((norm3 c)⁻¹ • c) d) =
        (norm3 (crossProduct c d))⁻¹ • crossProduct c d := by
      rw [normalizeEps_of_le, hx, hxn, smul_smul]
      · congr 1; field_simp
      · rw [hx, hxn, inv_mul_eq_div, le_div_iff₀ hc0]; exact hn
    have h3 : norm3 (crossProduct ((norm3 (crossProduct c d))⁻¹ • crossProduct c d) ((norm3 c)⁻¹ • c)) = 1 := by
      have e1 := norm_dot hc0
      have e2 := norm_dot hw0
      have e3 : ((norm3 c)⁻¹ • c) ⬝ᵥ ((norm3 (crossProduct c d))⁻¹ • crossProduct c d) = 0 := by
        rw [smul_dotProduct, dotProduct_smul, dot_self_cross]; simp
      generalize ((norm3 c)⁻¹ • c) = x at *
      generalize (norm3 (crossProduct c d))⁻¹ • crossProduct c d = y at *
      rw [norm3, cross_dot_cross, e1, e2, dotProduct_comm y x, e3]; simp
    simp only [cantingMatrix, hc, hd, h1, h2]
    rw [normalizeEps_of_le (by rw [h3]; norm_num), h3, inv_one, one_smul]

theorem orthonormal_rigid {e u : Fin 3 → ℝ} (he : e ⬝ᵥ e = 1) (hu : u ⬝ᵥ u = 1) (heu : e ⬝ᵥ u = 0) {M : Mat}
    (hM : M = !![e 0, crossProduct u e 0, u 0, 0; e 1, crossProduct u e 1, u 1, 0;
        e 2, crossProduct u e 2, u 2, 0; 0, 0, 0, 1]) : Rigid M ∧ Mᵀ * M = 1 := by
  simp only [dotProduct, Fin.sum_univ_three] at he hu heu
  subst hM
  have hnn : crossProduct u e 0 * crossProduct u e 0 + crossProduct u e 1 * crossProduct u e 1 +
      crossProduct u e 2 * crossProduct u e 2 = 1 := by
    simp [cross_apply]
    linear_combination (u 0 * u 0 + u 1 * u 1 + u 2 * u 2) * he + hu - (e 0 * u 0 + e 1 * u 1 + e 2 * u 2) * heu
  have hen : e 0 * crossProduct u e 0 + e 1 * crossProduct u e 1 + e 2 * crossProduct u e 2 = 0 := by
    simp [cross_apply]; ring
  have hun : u 0 * crossProduct u e 0 + u 1 * crossProduct u e 1 + u 2 * crossProduct u e 2 = 0 := by
    simp [cross_apply]; ring
  refine ⟨⟨?_, ?_, ?_⟩, ?_⟩
  · ext i j; fin_cases i <;> fin_cases j <;>
      simp [linearPart, mul_apply, Fin.sum_univ_three, -cross_apply] <;> linarith
  · simp [linearPart, det_fin_three, cross_apply]
    linear_combination (u 0 * u 0 + u 1 * u 1 + u 2 * u 2) * he + hu - (e 0 * u 0 + e 1 * u 1 + e 2 * u 2) * heu
  · ext j; fin_cases j <;> rfl
  · ext i j; fin_cases i <;> fin_cases j <;>
      simp [mul_apply, Fin.sum_univ_four, one_apply, -cross_apply] <;> linarith

theorem canting_rigid (ce cn : Fin 4 → ℝ) (he : 1 / 10 ^ 12 ≤ norm3 ![ce 0, ce 1, ce 2])
    (hn : 1 / 10 ^ 8 * norm3 ![ce 0, ce 1, ce 2] ≤ norm3 (crossProduct ![ce 0, ce 1, ce 2] ![cn 0, cn 1, cn 2])) :
    Rigid (cantingMatrix ce cn) ∧ (cantingMatrix ce cn)ᵀ * cantingMatrix ce cn = 1 := by
  obtain ⟨e, u, _, _, h1, h2, h3, h4⟩ := canting_eq ce cn he hn
  exact orthonormal_rigid h1 h2 h3 h4

end Artist
