import Verif.Proofs.NurbsSurface
import Mathlib.Algebra.Order.Ring.Pow
import Mathlib.Algebra.Order.Ring.Abs
import Mathlib.Algebra.Order.BigOperators.Group.Finset
import Mathlib.Algebra.Order.BigOperators.Ring.Finset
/-!
# Helper lemmas: behaviour at the borders of the unit square, slopes of monotone nets
-/
namespace Artist.Nurbs
open Artist.BSpline
variable {K : Type} [Field K] [LinearOrder K] [IsStrictOrderedRing K]

section
variable {n p : Nat} (hp : 1 ≤ p) (hn : p < n)
include hp hn

theorem step_pos : (0 : K) < 1 / ((n - p : Nat) : K) := by
  apply one_div_pos.mpr
  exact_mod_cast (by omega : 0 < n - p)

theorem knot_first : (clampedUniform n p (p + 1) : K) = 1 / ((n - p : Nat) : K) := by
  rw [show p + 1 = 1 + p by omega, clamped_mid hn (by omega), Nat.cast_one]

theorem knot_last : (clampedUniform n p (n - 1) : K) = 1 - 1 / ((n - p : Nat) : K) := by
  have hne : ((n - p : Nat) : K) ≠ 0 := by exact_mod_cast (by omega : n - p ≠ 0)
  rw [show n - 1 = (n - p - 1) + p by omega, clamped_mid hn (by omega), Nat.cast_sub (by omega : 1 ≤ n - p),
    Nat.cast_one, sub_div, div_self hne]

/-- the first basis function in the first span -/
theorem N_first {x : K} (h0 : 0 ≤ x) (h1 : x < 1 / ((n - p : Nat) : K)) :
    N (clampedUniform n p) p 0 x = (1 - ((n - p : Nat) : K) * x) ^ p := by
  have hne : ((n - p : Nat) : K) ≠ 0 := by exact_mod_cast (by omega : n - p ≠ 0)
  have hin : InSpan (knot (uniformKnots n p : List K)) p p x := by
    refine ⟨le_rfl, ?_, ?_, ?_⟩
    · intro i j hij hj
      rw [knot_uniform hp hn (by omega), knot_uniform hp hn (by omega)]
      exact clamped_mono hn hij
    · rw [knot_uniform hp hn (by omega), clamped_low hn le_rfl]; exact h0
    · rw [knot_uniform hp hn (by omega), knot_first hp hn]; exact h1
  have key : ∀ j, j ≤ p → loc (left (uniformKnots n p) p x) (right (uniformKnots n p) p x) j 0 =
      (1 - ((n - p : Nat) : K) * x) ^ j := by
    intro j
    induction j with
    | zero => intro _; simp [loc]
    | succ j ih =>
      intro hj
      rw [loc, if_pos rfl, if_pos (Nat.zero_le j), ih (by omega), zero_add, zero_add]
      unfold left right
      rw [knot_uniform hp hn (by omega), knot_uniform hp hn (by omega), knot_first hp hn,
        clamped_low hn (by omega), sub_zero, sub_add_cancel, pow_succ]
      field_simp
  have := key p le_rfl
  rw [loc_eq_N hin p le_rfl 0 (by omega), Nat.sub_self, add_zero,
    N_congr _ _ fun i hi => knot_uniform hp hn (by omega)] at this
  exact this

/-- the last basis function in the last span -/
theorem N_last {x : K} (h0 : 1 - 1 / ((n - p : Nat) : K) ≤ x) (h1 : x < 1) :
    N (clampedUniform n p) p (n - 1) x = (1 - ((n - p : Nat) : K) * (1 - x)) ^ p := by
  have hne : ((n - p : Nat) : K) ≠ 0 := by exact_mod_cast (by omega : n - p ≠ 0)
  have hin : InSpan (knot (uniformKnots n p : List K)) (n - 1) p x := by
    refine ⟨by omega, ?_, ?_, ?_⟩
    · intro i j hij hj
      rw [knot_uniform hp hn (by omega), knot_uniform hp hn (by omega)]
      exact clamped_mono hn hij
    · rw [knot_uniform hp hn (by omega), knot_last hp hn]; exact h0
    · rw [knot_uniform hp hn (by omega), clamped_high hn (by omega)]; exact h1
  have key : ∀ j, j ≤ p → loc (left (uniformKnots n p) (n - 1) x) (right (uniformKnots n p) (n - 1) x) j j =
      (1 - ((n - p : Nat) : K) * (1 - x)) ^ j := by
    intro j
    induction j with
    | zero => intro _; simp [loc]
    | succ j ih =>
      intro hj
      rw [loc, if_neg (by omega), if_neg (by omega), add_zero, Nat.add_sub_cancel, ih (by omega)]
      unfold left right
      rw [show n - 1 + 1 - (j + 2 - (j + 1)) = n - 1 by omega, knot_uniform hp hn (by omega), knot_uniform hp hn (by omega),
        clamped_high hn (show n ≤ n - 1 + (j + 1) by omega), knot_last hp hn, pow_succ]
      have : (1 : K) - x + (x - (1 - 1 / ((n - p : Nat) : K))) = 1 / ((n - p : Nat) : K) := by ring
      rw [this]
      field_simp
      ring
  have := key p le_rfl
  rw [loc_eq_N hin p le_rfl p (by omega), show n - 1 - p + p = n - 1 by omega,
    N_congr _ _ fun i hi => knot_uniform hp hn (by omega)] at this
  exact this

theorem N_first_ge {x : K} (h0 : 0 ≤ x) (h1 : x < 1 / ((n - p : Nat) : K)) :
    1 - (p : K) * ((n - p : Nat) : K) * x ≤ N (clampedUniform n p) p 0 x := by
  rw [N_first hp hn h0 h1]
  have hpos : (0 : K) < ((n - p : Nat) : K) := by exact_mod_cast (by omega : 0 < n - p)
  rw [lt_div_iff₀ hpos] at h1
  have := one_add_mul_le_pow (a := -(((n - p : Nat) : K) * x)) (by nlinarith) p
  calc _ = 1 + (p : K) * -(((n - p : Nat) : K) * x) := by ring
    _ ≤ _ := this
    _ = _ := by rw [← sub_eq_add_neg]

theorem N_last_ge {x : K} (h0 : 1 - 1 / ((n - p : Nat) : K) ≤ x) (h1 : x < 1) :
    1 - (p : K) * ((n - p : Nat) : K) * (1 - x) ≤ N (clampedUniform n p) p (n - 1) x := by
  rw [N_last hp hn h0 h1]
  have hpos : (0 : K) < ((n - p : Nat) : K) := by exact_mod_cast (by omega : 0 < n - p)
  have h2 : (1 - x) ≤ 1 / ((n - p : Nat) : K) := by linarith
  rw [le_div_iff₀ hpos] at h2
  have := one_add_mul_le_pow (a := -(((n - p : Nat) : K) * (1 - x))) (by nlinarith) p
  calc _ = 1 + (p : K) * -(((n - p : Nat) : K) * (1 - x)) := by ring
    _ ≤ _ := this
    _ = _ := by rw [← sub_eq_add_neg]

end

/-- a convex combination that puts most of its weight on one point is close to it -/
theorem near_point {n m : Nat} (a b : Nat → K) (P : Nat → Nat → K) (i j : Nat) (hi : i < n) (hj : j < m)
    (ha : ∀ k, k < n → 0 ≤ a k) (hb : ∀ k, k < m → 0 ≤ b k)
    (sa : ∑ k ∈ Finset.range n, a k = 1) (sb : ∑ k ∈ Finset.range m, b k = 1)
    (M : K) (hM : ∀ k l, k < n → l < m → |P k l - P i j| ≤ M) (u v : K) (hu : 1 - u ≤ a i) (hv : 1 - v ≤ b j) :
    |∑ k ∈ Finset.range n, ∑ l ∈ Finset.range m, a k * b l * P k l - P i j| ≤ M * (u + v) := by
  have hM0 : 0 ≤ M := (abs_nonneg _).trans (hM i j hi hj)
  have hab : ∑ k ∈ Finset.range n, ∑ l ∈ Finset.range m, a k * b l = 1 := by
    rw [← Finset.sum_mul_sum, sa, sb, one_mul]
  have e1 : ∑ k ∈ Finset.range n, ∑ l ∈ Finset.range m, a k * b l * P k l - P i j =
      ∑ k ∈ Finset.range n, ∑ l ∈ Finset.range m, a k * b l * (P k l - P i j) := by
    conv_lhs => rw [← one_mul (P i j), ← hab]
    rw [Finset.sum_mul, ← Finset.sum_sub_distrib]
    apply Finset.sum_congr rfl
    intro k _
    rw [Finset.sum_mul, ← Finset.sum_sub_distrib]
    exact Finset.sum_congr rfl fun l _ => by ring
  rw [e1]
  have e2 : |∑ k ∈ Finset.range n, ∑ l ∈ Finset.range m, a k * b l * (P k l - P i j)| ≤
      ∑ k ∈ Finset.range n, ∑ l ∈ Finset.range m, a k * b l * (if k = i ∧ l = j then 0 else M) := by
    refine (Finset.abs_sum_le_sum_abs _ _).trans (Finset.sum_le_sum fun k hk => ?_)
    refine (Finset.abs_sum_le_sum_abs _ _).trans (Finset.sum_le_sum fun l hl => ?_)
    rw [Finset.mem_range] at hk hl
    have hn := mul_nonneg (ha k hk) (hb l hl)
    rw [abs_mul, abs_of_nonneg hn]
    apply mul_le_mul_of_nonneg_left _ hn
    split_ifs with h
    · rw [h.1, h.2, sub_self, abs_zero]
    · exact hM k l hk hl
  refine e2.trans ?_
  have e3 : ∑ k ∈ Finset.range n, ∑ l ∈ Finset.range m, a k * b l * (if k = i ∧ l = j then 0 else M) =
      M * (1 - a i * b j) := by
    have : ∀ k l, a k * b l * (if k = i ∧ l = j then 0 else M) =
        M * (a k * b l) - (if k = i then (if l = j then M * (a k * b l) else 0) else 0) := by
      intro k l
      by_cases hk : k = i <;> by_cases hl : l = j <;> simp [hk, hl] <;> ring
    rw [Finset.sum_congr rfl fun k _ => Finset.sum_congr rfl fun l _ => this k l]
    simp only [Finset.sum_sub_distrib, ← Finset.mul_sum, sb, mul_one, sa]
    have : ∑ k ∈ Finset.range n, ∑ l ∈ Finset.range m, (if k = i then (if l = j then M * (a k * b l) else 0) else 0) =
        M * (a i * b j) := by
      rw [Finset.sum_eq_single_of_mem i (Finset.mem_range.mpr hi)]
      · rw [Finset.sum_eq_single_of_mem j (Finset.mem_range.mpr hj)]
        · simp
        · intro l _ hl; simp [hl]
      · intro k _ hk; simp [hk]
    rw [this]
    ring
  rw [e3]
  apply mul_le_mul_of_nonneg_left _ hM0
  have ha1 : a i ≤ 1 := by
    rw [← sa]
    exact Finset.single_le_sum (fun k hk => ha k (Finset.mem_range.mp hk)) (Finset.mem_range.mpr hi)
  have hb1 : b j ≤ 1 := by
    rw [← sb]
    exact Finset.single_le_sum (fun k hk => hb k (Finset.mem_range.mp hk)) (Finset.mem_range.mpr hj)
  nlinarith [ha i hi, hb j hj, mul_nonneg (sub_nonneg.mpr ha1) (sub_nonneg.mpr hb1)]

/-- summation by parts for the derivative of a spline -/
theorem dloc_parts (l rt : Nat → K) (p : Nat) (f : Nat → K) :
    ∑ r ∈ Finset.range (p + 1), dloc l rt p r * f r =
      (p : K) * ∑ r ∈ Finset.range p, loc l rt (p - 1) r / (rt (r + 1) + l (p - r)) * (f (r + 1) - f r) := by
  simp only [dloc, mul_assoc, sub_mul, ← Finset.mul_sum]
  congr 1
  rw [Finset.sum_sub_distrib, Finset.sum_range_succ', Finset.sum_range_succ, if_pos rfl, if_neg (lt_irrefl p), zero_mul,
    zero_mul, add_zero, add_zero, ← Finset.sum_sub_distrib]
  apply Finset.sum_congr rfl
  intro r hr
  rw [Finset.mem_range] at hr
  rw [if_neg (by omega), if_pos hr, Nat.add_sub_cancel, show p + 1 - (r + 1) = p - r by omega]
  ring

/-- a spline over increasing control values has a slope of at least `degree * step` -/
theorem slope_ge [FloorSemiring K] {n p : Nat} (hp : 1 ≤ p) (hn : p < n) {x : K} (h0 : 0 ≤ x) (h1 : x < 1)
    (f : Nat → K) (δ : K) (hδ : 0 ≤ δ) (hf : ∀ i, f (i + 1) - f i = δ) :
    (p : K) * δ ≤ ∑ m ∈ Finset.range n, dN (clampedUniform n p) p m x * f m := by
  have hin := inSpan_uniform hp hn h0 h1
  obtain ⟨s1, s2, s3, s4⟩ := span_uniform hp hn h0 h1
  have hb := (basis_window hp hn h0 h1 f).2
  rw [← hb]
  set sp := findSpanUniform (uniformKnots n p) p x
  have e : ∑ r ∈ Finset.range (p + 1), basisDerivatives (uniformKnots n p) sp p (min 1 p) x 1 r * f (sp - p + r) =
      ∑ r ∈ Finset.range (p + 1), dloc (left (uniformKnots n p) sp x) (right (uniformKnots n p) sp x) p r * f (sp - p + r) := by
    apply Finset.sum_congr rfl
    intro r hr
    rw [Finset.mem_range] at hr
    rw [basis_one _ _ _ _ _ hp (by omega)]
  rw [e, dloc_parts _ _ p (fun r => f (sp - p + r))]
  apply mul_le_mul_of_nonneg_left _ (Nat.cast_nonneg p)
  have hs := loc_sum hin (p - 1) (by omega)
  rw [show p - 1 + 1 = p by omega] at hs
  calc δ = ∑ r ∈ Finset.range p, loc (left (uniformKnots n p) sp x) (right (uniformKnots n p) sp x) (p - 1) r * δ := by
        rw [← Finset.sum_mul, hs, one_mul]
    _ ≤ _ := by
        apply Finset.sum_le_sum
        intro r hr
        rw [Finset.mem_range] at hr
        have e2 : f (sp - p + (r + 1)) - f (sp - p + r) = δ := hf _
        rw [e2]
        apply mul_le_mul_of_nonneg_right _ hδ
        have hd := denom_pos hin (le_refl p) hr
        rw [le_div_iff₀ hd]
        have hl := loc_nonneg hin (p - 1) (by omega) r (by omega)
        have hle : right (uniformKnots n p) sp x (r + 1) + left (uniformKnots n p) sp x (p - r) ≤ 1 := by
          unfold right left
          rw [knot_uniform hp hn (by omega), knot_uniform hp hn (by omega)]
          have a1 : (clampedUniform n p (sp + (r + 1)) : K) ≤ 1 := by
            unfold clampedUniform; exact max_le zero_le_one (min_le_left _ _)
          have a2 : (0 : K) ≤ clampedUniform n p (sp + 1 - (p - r)) := by
            unfold clampedUniform; exact le_max_left _ _
          linarith
        nlinarith
end Artist.Nurbs
