import Verif.Spec.Rigid
import Verif.Model.Transforms
import Mathlib.Tactic.Ring
import Mathlib.Tactic.LinearCombination
import Mathlib.LinearAlgebra.Matrix.NonsingularInverse
import Mathlib.Tactic.FinCases
namespace Artist
open Matrix Real Transforms

theorem linearPart_mul {M N : Mat} (hN : N 3 = ![0, 0, 0, 1]) :
    linearPart (M * N) = linearPart M * linearPart N := by
  ext i j
  have h : N 3 (Fin.castSucc j) = 0 := by
    rw [hN]; fin_cases j <;> rfl
  simp only [linearPart, submatrix_apply, mul_apply]
  rw [Fin.sum_univ_castSucc]
  have : (Fin.last 3) = (3 : Fin 4) := rfl
  rw [this, h]; simp

theorem Rigid.mul {M N : Mat} (hM : Rigid M) (hN : Rigid N) : Rigid (M * N) := by
  refine ⟨?_, ?_, ?_⟩
  · rw [linearPart_mul hN.last, transpose_mul, Matrix.mul_assoc, ← Matrix.mul_assoc _ (linearPart M),
      hM.orthogonal, Matrix.one_mul, hN.orthogonal]
  · rw [linearPart_mul hN.last, det_mul, hM.det, hN.det, one_mul]
  · ext j
    have hM0 := congrFun hM.last 0
    have hM1 := congrFun hM.last 1
    have hM2 := congrFun hM.last 2
    have hM3 := congrFun hM.last 3
    simp only [mul_apply, Fin.sum_univ_four, hM0, hM1, hM2, hM3]
    simp [hN.last]

theorem Rigid.one : Rigid (1 : Mat) := by
  refine ⟨?_, ?_, ?_⟩
  · have : linearPart (1 : Mat) = 1 := by
      ext i j; fin_cases i <;> fin_cases j <;> simp [linearPart]
    rw [this]; simp
  · have : linearPart (1 : Mat) = 1 := by
      ext i j; fin_cases i <;> fin_cases j <;> simp [linearPart]
    rw [this]; simp
  · ext j; fin_cases j <;> simp [one_apply]

theorem rigid_rotE (a : ℝ) : Rigid (rotE a) := by
  have h := sin_sq_add_cos_sq a
  refine ⟨?_, ?_, ?_⟩
  · ext i j; fin_cases i <;> fin_cases j <;>
      simp [linearPart, rotE, mul_apply, Fin.sum_univ_three] <;> linarith
  · simp [linearPart, rotE, det_fin_three]; linarith
  · ext j; fin_cases j <;> rfl

theorem rigid_rotN (a : ℝ) : Rigid (rotN a) := by
  have h := sin_sq_add_cos_sq a
  refine ⟨?_, ?_, ?_⟩
  · ext i j; fin_cases i <;> fin_cases j <;>
      simp [linearPart, rotN, mul_apply, Fin.sum_univ_three] <;> linarith
  · simp [linearPart, rotN, det_fin_three]; linarith
  · ext j; fin_cases j <;> rfl

theorem rigid_rotU (a : ℝ) : Rigid (rotU a) := by
  have h := sin_sq_add_cos_sq a
  refine ⟨?_, ?_, ?_⟩
  · ext i j; fin_cases i <;> fin_cases j <;>
      simp [linearPart, rotU, mul_apply, Fin.sum_univ_three] <;> linarith
  · simp [linearPart, rotU, det_fin_three]; linarith
  · ext j; fin_cases j <;> rfl

theorem rigid_transl (e n u : ℝ) : Rigid (transl e n u) := by
  refine ⟨?_, ?_, ?_⟩
  · ext i j; fin_cases i <;> fin_cases j <;>
      simp [linearPart, transl, mul_apply, Fin.sum_univ_three]
  · simp [linearPart, transl, det_fin_three]
  · ext j; fin_cases j <;> rfl

theorem rotDist_eq (e u : ℝ) : rotDist e u = rotE e * rotU u := by
  ext i j; fin_cases i <;> fin_cases j <;>
    simp [rotDist, rotE, rotU, mul_apply, Fin.sum_univ_four]

theorem rigid_rotDist (e u : ℝ) : Rigid (rotDist e u) := by
  rw [rotDist_eq]; exact (rigid_rotE e).mul (rigid_rotU u)

/-- The homogeneous component is kept. -/
theorem Rigid.homogeneous {M : Mat} (h : Rigid M) (v : Fin 4 → ℝ) : (M *ᵥ v) 3 = v 3 := by
  simp [mulVec, dotProduct, Fin.sum_univ_four, h.last]

theorem Rigid.inner_dir {M : Mat} (h : Rigid M) (v w : Fin 4 → ℝ) (hv : v 3 = 0) (hw : w 3 = 0) :
    inner3 (M *ᵥ v) (M *ᵥ w) = inner3 v w := by
  have key : ∀ i j : Fin 3, (∑ k, linearPart M k i * linearPart M k j) = if i = j then 1 else 0 := by
    intro i j
    have := congrFun (congrFun h.orthogonal i) j
    simpa [mul_apply, one_apply] using this
  have h00 := key 0 0
  have h01 := key 0 1
  have h02 := key 0 2
  have h11 := key 1 1
  have h12 := key 1 2
  have h22 := key 2 2
  simp [Fin.sum_univ_three, linearPart] at h00 h01 h02 h11 h12 h22
  simp only [inner3, mulVec, dotProduct, Fin.sum_univ_four, hv, hw]
  linear_combination (v 0 * w 0) * h00 + (v 0 * w 1 + v 1 * w 0) * h01 + (v 0 * w 2 + v 2 * w 0) * h02 +
    (v 1 * w 1) * h11 + (v 1 * w 2 + v 2 * w 1) * h12 + (v 2 * w 2) * h22

theorem length3_eq (v : Fin 4 → ℝ) : length3 v = √(inner3 v v) := by
  simp only [length3, inner3]; congr 1; ring

theorem Rigid.length_dir {M : Mat} (h : Rigid M) (v : Fin 4 → ℝ) (hv : v 3 = 0) :
    length3 (M *ᵥ v) = length3 v := by
  rw [length3_eq, length3_eq, h.inner_dir v v hv hv]

/-- Distances between points are kept. -/
theorem Rigid.distance {M : Mat} (h : Rigid M) (p q : Fin 4 → ℝ) (hpq : p 3 = q 3) :
    length3 (M *ᵥ p - M *ᵥ q) = length3 (p - q) := by
  rw [← mulVec_sub]; exact h.length_dir _ (by simp [hpq])

/-- Angles between the segments from a common point are kept. -/
theorem Rigid.angle {M : Mat} (h : Rigid M) (o p q : Fin 4 → ℝ) (hp : p 3 = o 3) (hq : q 3 = o 3) :
    inner3 (M *ᵥ p - M *ᵥ o) (M *ᵥ q - M *ᵥ o) = inner3 (p - o) (q - o) := by
  rw [← mulVec_sub, ← mulVec_sub]; exact h.inner_dir _ _ (by simp [hp]) (by simp [hq])

end Artist
