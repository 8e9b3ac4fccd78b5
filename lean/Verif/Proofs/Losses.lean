import Verif.Model.Losses
import Mathlib.Tactic.Linarith
import Mathlib.Tactic.Positivity
import Mathlib.Tactic.FieldSimp
import Mathlib.Tactic.Ring
import Mathlib.Algebra.Order.BigOperators.Ring.Finset
import Mathlib.Algebra.BigOperators.Field
/-! Helper lemmas for C37 and C38. -/
namespace Artist.Losses
open Finset
variable {ι : Type} [Fintype ι]

/-- Gibbs' inequality for one entry. -/
theorem gibbs_point (a b : ℝ) (ha : 0 < a) (hb : 0 < b) : a - b ≤ a * (Real.log a - Real.log b) := by
  have h := Real.log_le_sub_one_of_pos (div_pos hb ha)
  rw [Real.log_div hb.ne' ha.ne'] at h
  have h2 : a * (Real.log b - Real.log a) ≤ a * (b / a - 1) := mul_le_mul_of_nonneg_left h ha.le
  have h3 : a * (b / a - 1) = b - a := by field_simp
  linarith

theorem gibbs_strict (a b : ℝ) (ha : 0 < a) (hb : 0 < b) (h : a ≠ b) : a - b < a * (Real.log a - Real.log b) := by
  have hne : b / a ≠ 1 := by rw [ne_eq, div_eq_one_iff_eq ha.ne']; exact fun e => h e.symm
  have h := Real.log_lt_sub_one_of_pos (div_pos hb ha) hne
  rw [Real.log_div hb.ne' ha.ne'] at h
  have h2 : a * (Real.log b - Real.log a) < a * (b / a - 1) := mul_lt_mul_of_pos_left h ha
  have h3 : a * (b / a - 1) = b - a := by field_simp
  linarith

theorem klPoint_log (a b : ℝ) (hb : 0 < b) : klPoint (Real.log a) (Real.log b) = b * (Real.log b - Real.log a) := by
  unfold klPoint; rw [Real.exp_log hb]

theorem normalizeL1_nonneg (eps : ℝ) (heps : 0 < eps) (x : ι → ℝ) (hx : ∀ i, 0 ≤ x i) (i : ι) : 0 ≤ normalizeL1 eps x i :=
  div_nonneg (hx i) (le_trans heps.le (le_max_right _ _))

theorem normalizeL1_sum_le (eps : ℝ) (heps : 0 < eps) (x : ι → ℝ) (hx : ∀ i, 0 ≤ x i) : ∑ i, normalizeL1 eps x i ≤ 1 := by
  have hpos : 0 < max (∑ j, |x j|) eps := lt_of_lt_of_le heps (le_max_right _ _)
  unfold normalizeL1
  rw [← Finset.sum_div, div_le_one hpos]
  refine le_trans (le_of_eq ?_) (le_max_left _ _)
  exact Finset.sum_congr rfl (fun i _ => (abs_of_nonneg (hx i)).symm)

theorem normalizeL1_sum (eps : ℝ) (heps : 0 < eps) (x : ι → ℝ) (hx : ∀ i, 0 ≤ x i) (hs : eps ≤ ∑ i, x i) :
    (∀ i, normalizeL1 eps x i = x i / ∑ j, x j) ∧ ∑ i, normalizeL1 eps x i = 1 := by
  have habs : ∑ j, |x j| = ∑ j, x j := Finset.sum_congr rfl (fun i _ => abs_of_nonneg (hx i))
  have h1 : ∀ i, normalizeL1 eps x i = x i / ∑ j, x j := by
    intro i; unfold normalizeL1; rw [habs, max_eq_left hs]
  refine ⟨h1, ?_⟩
  rw [Finset.sum_congr rfl (fun i _ => h1 i), ← Finset.sum_div, div_self (by linarith)]

theorem norm2_sq (x : ι → ℝ) : norm2 x ^ 2 = ∑ i, x i ^ 2 :=
  Real.sq_sqrt (Finset.sum_nonneg (fun i _ => sq_nonneg (x i)))

theorem norm2_nonneg (x : ι → ℝ) : 0 ≤ norm2 x := Real.sqrt_nonneg _

theorem dot_le (x y : ι → ℝ) : |∑ i, x i * y i| ≤ norm2 x * norm2 y := by
  have h := Finset.sum_mul_sq_le_sq_mul_sq Finset.univ x y
  rw [← norm2_sq, ← norm2_sq, ← mul_pow] at h
  exact abs_le_of_sq_le_sq h (mul_nonneg (norm2_nonneg x) (norm2_nonneg y))

/-- Equality in the Cauchy–Schwarz inequality. -/
theorem dot_eq (x y : ι → ℝ) (h : ∑ i, x i * y i = norm2 x * norm2 y) : ∀ i, norm2 y * x i = norm2 x * y i := by
  have hz : ∑ i, (norm2 y * x i - norm2 x * y i) ^ 2 = 0 := by
    have e : ∀ i, (norm2 y * x i - norm2 x * y i) ^ 2 =
        norm2 y ^ 2 * x i ^ 2 + norm2 x ^ 2 * y i ^ 2 - 2 * norm2 x * norm2 y * (x i * y i) := fun i => by ring
    rw [Finset.sum_congr rfl (fun i _ => e i), Finset.sum_sub_distrib, Finset.sum_add_distrib, ← Finset.mul_sum, ← Finset.mul_sum,
      ← Finset.mul_sum, ← norm2_sq, ← norm2_sq, h]
    ring
  intro i
  have := (Finset.sum_eq_zero_iff_of_nonneg (fun i _ => sq_nonneg _)).1 hz i (Finset.mem_univ i)
  have := pow_eq_zero_iff (two_ne_zero) |>.1 this
  linarith

theorem norm2_smul (c : ℝ) (hc : 0 ≤ c) (x : ι → ℝ) : norm2 (fun i => c * x i) = c * norm2 x := by
  unfold norm2
  have : ∑ i, (c * x i) ^ 2 = c ^ 2 * ∑ i, x i ^ 2 := by
    rw [Finset.mul_sum]; exact Finset.sum_congr rfl (fun i _ => by ring)
  rw [this, Real.sqrt_mul (sq_nonneg c), Real.sqrt_sq hc]

theorem angle_dot (eps : ℝ) (p g : ι → ℝ) :
    ∑ i, normalizeL2 eps p i * normalizeL2 eps g i = (∑ i, p i * g i) / (max (norm2 p) eps * max (norm2 g) eps) := by
  unfold normalizeL2
  rw [Finset.sum_div]
  exact Finset.sum_congr rfl (fun i _ => by rw [div_mul_div_comm])

/-- The cosine is at most one. -/
theorem ratio_le (eps : ℝ) (heps : 0 < eps) (p g : ι → ℝ) :
    (∑ i, p i * g i) / (max (norm2 p) eps * max (norm2 g) eps) ≤ 1 := by
  have h1 : 0 < max (norm2 p) eps := lt_of_lt_of_le heps (le_max_right _ _)
  have h2 : 0 < max (norm2 g) eps := lt_of_lt_of_le heps (le_max_right _ _)
  rw [div_le_one (mul_pos h1 h2)]
  calc ∑ i, p i * g i ≤ |∑ i, p i * g i| := le_abs_self _
    _ ≤ norm2 p * norm2 g := dot_le p g
    _ ≤ _ := mul_le_mul (le_max_left _ _) (le_max_left _ _) (norm2_nonneg g) h1.le

/-- Exactly one means parallel. -/
theorem ratio_eq_one (eps : ℝ) (heps : 0 < eps) (p g : ι → ℝ) (hp : eps ≤ norm2 p) (hg : eps ≤ norm2 g) :
    (∑ i, p i * g i) / (max (norm2 p) eps * max (norm2 g) eps) = 1 ↔ ∃ c : ℝ, 0 < c ∧ ∀ i, g i = c * p i := by
  rw [max_eq_left hp, max_eq_left hg]
  have h1 : 0 < norm2 p := lt_of_lt_of_le heps hp
  have h2 : 0 < norm2 g := lt_of_lt_of_le heps hg
  rw [div_eq_one_iff_eq (mul_pos h1 h2).ne']
  constructor
  · intro h
    have := dot_eq p g h
    refine ⟨norm2 g / norm2 p, div_pos h2 h1, fun i => ?_⟩
    rw [div_mul_eq_mul_div, eq_div_iff h1.ne', this i]; ring
  · rintro ⟨c, hc, h⟩
    have hgc : g = fun i => c * p i := funext h
    rw [hgc, norm2_smul c hc.le]
    have : ∑ i, p i * (c * p i) = c * ∑ i, p i ^ 2 := by
      rw [Finset.mul_sum]; exact Finset.sum_congr rfl (fun i _ => by ring)
    rw [this, ← norm2_sq]; ring

end Artist.Losses
