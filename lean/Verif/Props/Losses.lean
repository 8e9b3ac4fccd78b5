import Verif.Proofs.Losses
import Mathlib.Data.Rat.Defs
import Mathlib.Algebra.Order.Ring.Rat
import Mathlib.Tactic.NormNum
import Mathlib.Tactic.FinCases
/-! Properties C37 and C38: loss functions. -/
namespace Artist.Losses
open Finset

section
variable {K : Type} [Field K] [LinearOrder K] [IsStrictOrderedRing K] {ι : Type} [Fintype ι]

/-- C37, vector loss: never negative, and zero exactly for equal vectors. -/
theorem C37_vector (p g : ι → K) : 0 ≤ vector p g ∧ (vector p g = 0 ↔ p = g) := by
  refine ⟨Finset.sum_nonneg (fun i _ => sq_nonneg _), ?_⟩
  unfold vector
  rw [Finset.sum_eq_zero_iff_of_nonneg (fun i _ => sq_nonneg _)]
  constructor
  · intro h
    funext i
    have := pow_eq_zero_iff (two_ne_zero) |>.1 (h i (Finset.mem_univ i))
    linarith
  · rintro rfl i _; simp

/-- C37, pixel loss: for a ground truth with positive total intensity never negative, and zero exactly for equal images. -/
theorem C37_pixel (p g : ι → K) (hg : 0 < ∑ i, g i) : 0 ≤ pixel p g ∧ (pixel p g = 0 ↔ p = g) := by
  obtain ⟨h1, h2⟩ := C37_vector p g
  refine ⟨div_nonneg h1 hg.le, ?_⟩
  unfold pixel
  rw [div_eq_zero_iff, or_iff_left hg.ne']
  exact h2

/-- C38: scaling both images scales the pixel loss by the same factor. -/
theorem C38_scales (p g : ι → K) (c : K) (hc : 0 < c) : pixel (fun i => c * p i) (fun i => c * g i) = c * pixel p g := by
  unfold pixel
  have h1 : ∑ i, (c * p i - c * g i) ^ 2 = c ^ 2 * ∑ i, (p i - g i) ^ 2 := by
    rw [Finset.mul_sum]; exact Finset.sum_congr rfl (fun i _ => by ring)
  rw [h1, ← Finset.mul_sum, pow_two, mul_assoc, mul_div_mul_left _ _ hc.ne', mul_div_assoc]

/-- C38 is false: for every imperfect prediction and every factor other than one the pixel loss changes. -/
theorem C38_never_invariant (p g : ι → K) (c : K) (hc : 0 < c) (h1 : c ≠ 1) (hg : 0 < ∑ i, g i) (hpg : p ≠ g) :
    pixel (fun i => c * p i) (fun i => c * g i) ≠ pixel p g := by
  rw [C38_scales p g c hc]
  intro h
  have hne : pixel p g ≠ 0 := fun h0 => hpg ((C37_pixel p g hg).2.1 h0)
  exact h1 (mul_right_cancel₀ hne (by rw [h, one_mul]))

/-- C38 for perfect predictions.  Missing from the full statement: everything else, for which it is false. -/
theorem C38_perfect_partial (g : ι → K) (c : K) (hc : 0 < c) :
    pixel (fun i => c * g i) (fun i => c * g i) = pixel g g := by
  rw [C38_scales g g c hc]; simp [pixel]
end

example : pixel ![(1 : ℚ), 2, 3] ![2, 2, 2] = 1 / 3 ∧ pixel ![(10 : ℚ), 20, 30] ![20, 20, 20] = 10 / 3 := by
  constructor <;> simp [pixel, Fin.sum_univ_succ] <;> norm_num
example : vector ![(1 : ℚ), 2] ![3, 2] = 4 := by simp [vector, Fin.sum_univ_succ]; norm_num

section
variable {ι : Type} [Fintype ι]

/-- C37, KL loss: for non-negative images and a ground truth that is not dark (sum at least `eps`) it is never negative, whatever the
prediction, including a dark one. -/
theorem C37_kl_nonneg (eps : ℝ) (heps : 0 < eps) (p g : ι → ℝ) (hp : ∀ i, 0 ≤ p i) (hg : ∀ i, 0 ≤ g i) (hs : eps ≤ ∑ i, g i) :
    0 ≤ kl eps p g := by
  have hpos : ∀ (x : ι → ℝ), (∀ i, 0 ≤ x i) → ∀ i, 0 < normalizeL1 eps x i + eps := fun x hx i => by
    have := normalizeL1_nonneg eps heps x hx i; linarith
  have h1 : ∑ i, ((normalizeL1 eps g i + eps) - (normalizeL1 eps p i + eps)) ≤ kl eps p g := by
    unfold kl
    apply Finset.sum_le_sum
    intro i _
    rw [klPoint_log _ _ (hpos g hg i)]
    exact gibbs_point _ _ (hpos g hg i) (hpos p hp i)
  have h2 : ∑ i, ((normalizeL1 eps g i + eps) - (normalizeL1 eps p i + eps)) = ∑ i, normalizeL1 eps g i - ∑ i, normalizeL1 eps p i := by
    rw [← Finset.sum_sub_distrib]; exact Finset.sum_congr rfl (fun i _ => by ring)
  rw [h2, (normalizeL1_sum eps heps g hg hs).2] at h1
  have := normalizeL1_sum_le eps heps p hp
  linarith

/-- C37, KL loss: it vanishes exactly if both images agree up to their total intensity. -/
theorem C37_kl_zero_iff (eps : ℝ) (heps : 0 < eps) (p g : ι → ℝ) (hp : ∀ i, 0 ≤ p i) (hg : ∀ i, 0 ≤ g i)
    (hsp : eps ≤ ∑ i, p i) (hsg : eps ≤ ∑ i, g i) :
    kl eps p g = 0 ↔ ∀ i, p i / ∑ j, p j = g i / ∑ j, g j := by
  obtain ⟨np, sp⟩ := normalizeL1_sum eps heps p hp hsp
  obtain ⟨ng, sg⟩ := normalizeL1_sum eps heps g hg hsg
  have hpos : ∀ (x : ι → ℝ), (∀ i, 0 ≤ x i) → ∀ i, 0 < normalizeL1 eps x i + eps := fun x hx i => by
    have := normalizeL1_nonneg eps heps x hx i; linarith
  constructor
  · intro h
    by_contra hc
    push Not at hc
    obtain ⟨i, hi⟩ := hc
    have hlt : ∑ i, ((normalizeL1 eps g i + eps) - (normalizeL1 eps p i + eps)) < kl eps p g := by
      unfold kl
      apply Finset.sum_lt_sum
      · intro j _
        rw [klPoint_log _ _ (hpos g hg j)]
        exact gibbs_point _ _ (hpos g hg j) (hpos p hp j)
      · refine ⟨i, Finset.mem_univ i, ?_⟩
        rw [klPoint_log _ _ (hpos g hg i)]
        refine gibbs_strict _ _ (hpos g hg i) (hpos p hp i) ?_
        rw [np i, ng i]
        intro he
        apply hi
        linarith
    have h2 : ∑ i, ((normalizeL1 eps g i + eps) - (normalizeL1 eps p i + eps)) = ∑ i, normalizeL1 eps g i - ∑ i, normalizeL1 eps p i := by
      rw [← Finset.sum_sub_distrib]; exact Finset.sum_congr rfl (fun i _ => by ring)
    rw [h2, sp, sg, h] at hlt
    linarith
  · intro h
    unfold kl
    apply Finset.sum_eq_zero
    intro i _
    rw [klPoint_log _ _ (hpos g hg i), np i, ng i, h i]
    ring

/-- C37, KL loss: it does not depend on the scale of either image. -/
theorem C37_kl_scale (eps : ℝ) (heps : 0 < eps) (p g : ι → ℝ) (a b : ℝ) (ha : 0 < a) (hb : 0 < b)
    (hp : ∀ i, 0 ≤ p i) (hg : ∀ i, 0 ≤ g i) (hsp : eps ≤ ∑ i, p i) (hsg : eps ≤ ∑ i, g i)
    (hap : eps ≤ a * ∑ i, p i) (hbg : eps ≤ b * ∑ i, g i) :
    kl eps (fun i => a * p i) (fun i => b * g i) = kl eps p g := by
  have key : ∀ (x : ι → ℝ) (c : ℝ), 0 < c → (∀ i, 0 ≤ x i) → eps ≤ ∑ i, x i → eps ≤ c * ∑ i, x i →
      ∀ i, normalizeL1 eps (fun i => c * x i) i = normalizeL1 eps x i := by
    intro x c hc hx h1 h2 i
    rw [(normalizeL1_sum eps heps x hx h1).1 i,
      (normalizeL1_sum eps heps (fun i => c * x i) (fun i => mul_nonneg hc.le (hx i)) (by rwa [← Finset.mul_sum])).1 i,
      ← Finset.mul_sum, mul_div_mul_left _ _ hc.ne']
  unfold kl
  exact Finset.sum_congr rfl (fun i _ => by rw [key p a ha hp hsp hap i, key g b hb hg hsg hbg i])

/-- Why the ground truth must not be dark: for a completely dark ground truth every prediction with light gets a negative loss. -/
theorem C37_kl_dark_negative (eps : ℝ) (heps : 0 < eps) (p : ι → ℝ) (hp : ∀ i, 0 ≤ p i) (i : ι) (hi : 0 < p i) :
    kl eps p (fun _ => 0) < 0 := by
  have h0 : ∀ j, normalizeL1 eps (fun _ : ι => (0:ℝ)) j = 0 := fun j => by simp [normalizeL1]
  have hle : ∀ j, klPoint (Real.log (normalizeL1 eps p j + eps)) (Real.log (normalizeL1 eps (fun _ : ι => (0:ℝ)) j + eps)) ≤ 0 := by
    intro j
    rw [h0 j, zero_add, klPoint_log _ _ heps]
    have hn := normalizeL1_nonneg eps heps p hp j
    have := Real.log_le_log heps (by linarith : eps ≤ normalizeL1 eps p j + eps)
    exact mul_nonpos_of_nonneg_of_nonpos heps.le (by linarith)
  have hlt : klPoint (Real.log (normalizeL1 eps p i + eps)) (Real.log (normalizeL1 eps (fun _ : ι => (0:ℝ)) i + eps)) < 0 := by
    rw [h0 i, zero_add, klPoint_log _ _ heps]
    have hn : 0 < normalizeL1 eps p i := div_pos hi (lt_of_lt_of_le heps (le_max_right _ _))
    have := Real.log_lt_log heps (by linarith : eps < normalizeL1 eps p i + eps)
    exact mul_neg_of_pos_of_neg heps (by linarith)
  unfold kl
  calc _ < ∑ _j : ι, (0:ℝ) := Finset.sum_lt_sum (fun j _ => hle j) ⟨i, Finset.mem_univ i, hlt⟩
    _ = 0 := by simp

/-- C37, angle loss: between 0 and π, and zero exactly for parallel vectors of the same direction (both longer than `eps`). -/
theorem C37_angle (eps : ℝ) (heps : 0 < eps) (p g : ι → ℝ) :
    0 ≤ angle eps p g ∧ angle eps p g ≤ Real.pi ∧
    (eps ≤ norm2 p → eps ≤ norm2 g → (angle eps p g = 0 ↔ ∃ c : ℝ, 0 < c ∧ ∀ i, g i = c * p i)) := by
  refine ⟨Real.arccos_nonneg _, Real.arccos_le_pi _, fun hp hg => ?_⟩
  rw [← ratio_eq_one eps heps p g hp hg]
  unfold angle
  rw [Real.arccos_eq_zero, angle_dot]
  have hle := ratio_le eps heps p g
  constructor
  · intro h
    have h2 := le_trans h (min_le_left _ _)
    rcases le_max_iff.1 h2 with h3 | h3
    · exact le_antisymm hle h3
    · linarith
  · intro h
    rw [h, max_eq_left (by norm_num), min_self]

/-- For vectors longer than `eps` the angle loss is the angle between them: its cosine is the normalised scalar product. -/
theorem C37_angle_cos (eps : ℝ) (heps : 0 < eps) (p g : ι → ℝ) (hp : eps ≤ norm2 p) (hg : eps ≤ norm2 g) :
    Real.cos (angle eps p g) * (norm2 p * norm2 g) = ∑ i, p i * g i := by
  have h1 : 0 < norm2 p := lt_of_lt_of_le heps hp
  have h2 : 0 < norm2 g := lt_of_lt_of_le heps hg
  have hle := ratio_le eps heps p g
  have hge : -1 ≤ (∑ i, p i * g i) / (max (norm2 p) eps * max (norm2 g) eps) := by
    rw [max_eq_left hp, max_eq_left hg, le_div_iff₀ (mul_pos h1 h2)]
    have := (abs_le.1 (dot_le p g)).1
    linarith
  unfold angle
  rw [angle_dot, max_eq_left hge, min_eq_left hle, Real.cos_arccos hge hle, max_eq_left hp, max_eq_left hg,
    div_mul_cancel₀ _ (mul_pos h1 h2).ne']

/-- C37, cosine loss: never negative, and zero exactly for parallel vectors of the same direction (both longer than `eps`). -/
theorem C37_cosine (eps : ℝ) (heps : 0 < eps) (p g : ι → ℝ) :
    0 ≤ cosine eps p g ∧
    (eps ≤ norm2 p → eps ≤ norm2 g → (cosine eps p g = 0 ↔ ∃ c : ℝ, 0 < c ∧ ∀ i, g i = c * p i)) := by
  have hle := ratio_le eps heps p g
  refine ⟨by unfold cosine; linarith, fun hp hg => ?_⟩
  rw [← ratio_eq_one eps heps p g hp hg]
  unfold cosine
  constructor <;> intro h <;> linarith

/-- A four-pixel image against a brighter one of other shape: hypotheses of the KL theorems are met, the loss is positive. -/
example : 0 < kl (1 / 10 ^ 12) ![1, 2, 3, 4] ![5, 5, 0, 10] := by
  have hp : ∀ i, (0:ℝ) ≤ ![1, 2, 3, 4] i := by intro i; fin_cases i <;> simp
  have hg : ∀ i, (0:ℝ) ≤ ![5, 5, 0, 10] i := by intro i; fin_cases i <;> simp
  have hsp : (1 / 10 ^ 12 : ℝ) ≤ ∑ i, ![1, 2, 3, 4] i := by simp [Fin.sum_univ_succ]; norm_num
  have hsg : (1 / 10 ^ 12 : ℝ) ≤ ∑ i, ![5, 5, 0, 10] i := by simp [Fin.sum_univ_succ]; norm_num
  refine lt_of_le_of_ne (C37_kl_nonneg _ (by norm_num) _ _ hp hg hsg) ?_
  intro h
  have := (C37_kl_zero_iff _ (by norm_num) _ _ hp hg hsp hsg).1 h.symm 0
  simp [Fin.sum_univ_succ] at this
  norm_num at this
example : kl (1 / 10 ^ 12) ![1, 2] ![0, 0] < 0 := by
  have : (![0, 0] : Fin 2 → ℝ) = fun _ => 0 := by funext i; fin_cases i <;> simp
  rw [this]
  exact C37_kl_dark_negative _ (by norm_num) _ (by intro i; fin_cases i <;> simp) 0 (by simp)
example : angle (1 / 10 ^ 12) ![1, 2, 2] ![2, 4, 4] = 0 := by
  have h1 : norm2 ![(1:ℝ), 2, 2] = 3 := by
    unfold norm2
    rw [show ∑ i, ![(1:ℝ), 2, 2] i ^ 2 = 3 ^ 2 by simp [Fin.sum_univ_succ]; norm_num, Real.sqrt_sq (by norm_num)]
  have h2 : norm2 ![(2:ℝ), 4, 4] = 6 := by
    unfold norm2
    rw [show ∑ i, ![(2:ℝ), 4, 4] i ^ 2 = 6 ^ 2 by simp [Fin.sum_univ_succ]; norm_num, Real.sqrt_sq (by norm_num)]
  exact ((C37_angle _ (by norm_num) _ _).2.2 (by rw [h1]; norm_num) (by rw [h2]; norm_num)).2
    ⟨2, by norm_num, by intro i; fin_cases i <;> simp <;> norm_num⟩
end

end Artist.Losses
