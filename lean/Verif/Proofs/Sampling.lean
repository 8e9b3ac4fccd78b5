import Verif.Proofs.NurbsSurface
import Mathlib.Algebra.Polynomial.Roots
import Mathlib.LinearAlgebra.FiniteDimensional.Lemmas
/-! # Helper lemmas for C117: samples of a surface determine its control points -/
namespace Artist.BSpline

section general
variable {K : Type} [Field K] [LinearOrder K] [IsStrictOrderedRing K] {U : Nat → K} {L : Nat}

/-- a basis function vanishes outside of its own knots -/
theorem N_outside (mono : ∀ a b, a ≤ b → b ≤ L → U a ≤ U b) (x : K) :
    ∀ p i, i + p + 1 ≤ L → x < U i ∨ U (i + p + 1) ≤ x → N U p i x = 0 := by
  intro p
  induction p with
  | zero =>
    intro i _ h
    rw [N, if_neg]
    rintro ⟨h1, h2⟩
    rcases h with h | h
    · exact absurd h1 (not_le.2 h)
    · exact absurd h2 (not_lt.2 h)
  | succ p ih =>
    intro i hi h
    have h1 : N U p i x = 0 := by
      refine ih i (by omega) ?_
      rcases h with h | h
      · exact Or.inl h
      · exact Or.inr ((mono (i + p + 1) (i + (p + 1) + 1) (by omega) hi).trans h)
    have h2 : N U p (i + 1) x = 0 := by
      refine ih (i + 1) (by omega) ?_
      rcases h with h | h
      · exact Or.inl (h.trans_le (mono i (i + 1) (by omega) (by omega)))
      · exact Or.inr ((mono (i + 1 + p + 1) (i + (p + 1) + 1) (by omega) hi).trans h)
    rw [N, h1, h2]
    simp

theorem N_nonneg (mono : ∀ a b, a ≤ b → b ≤ L → U a ≤ U b) (x : K) : ∀ p i, i + p + 1 ≤ L → 0 ≤ N U p i x := by
  intro p
  induction p with
  | zero => intro i _; rw [N]; split <;> simp
  | succ p ih =>
    intro i hi
    by_cases h : x < U i ∨ U (i + (p + 1) + 1) ≤ x
    · rw [N_outside mono x (p + 1) i hi h]
    · push Not at h
      rw [N]
      refine add_nonneg (mul_nonneg (div_nonneg (by linarith) ?_) (ih i (by omega))) (mul_nonneg (div_nonneg ?_ ?_) (ih (i + 1) (by omega)))
      · linarith [mono i (i + p + 1) (by omega) (by omega)]
      · have := h.2; rw [show i + (p + 1) + 1 = i + p + 2 by omega] at this; linarith
      · linarith [mono (i + 1) (i + p + 2) (by omega) (by omega)]

/-- between its own knots a basis function is positive -/
theorem N_pos (mono : ∀ a b, a ≤ b → b ≤ L → U a ≤ U b) (x : K) :
    ∀ p i, i + p + 1 ≤ L → U i ≤ x → x < U (i + p + 1) → U i < x ∨ U (i + p) ≤ x → 0 < N U p i x := by
  intro p
  induction p with
  | zero =>
    intro i _ h1 h2 _
    rw [N, if_pos ⟨h1, h2⟩]
    exact one_pos
  | succ p ih =>
    intro i hi h1 h2 h3
    rw [show i + (p + 1) + 1 = i + p + 2 by omega] at h2
    rw [show i + (p + 1) = i + p + 1 by omega] at h3
    have n1 := N_nonneg mono x p i (by omega)
    have n2 := N_nonneg mono x p (i + 1) (by omega)
    have d1 : U i ≤ U (i + p + 1) := mono _ _ (by omega) (by omega)
    have d2 : U (i + 1) ≤ U (i + p + 2) := mono _ _ (by omega) (by omega)
    rw [N]
    by_cases h : x < U (i + p + 1)
    · have h4 : U i < x := by
        rcases h3 with h3 | h3
        · exact h3
        · exact absurd h3 (not_le.2 h)
      refine add_pos_of_pos_of_nonneg (mul_pos (div_pos (by linarith) (by linarith)) (ih i (by omega) h1 h (Or.inl h4))) ?_
      exact mul_nonneg (div_nonneg (by linarith) (by linarith)) n2
    · rw [not_lt] at h
      have h4 : U (i + 1) ≤ x := (mono (i + 1) (i + p + 1) (by omega) (by omega)).trans h
      refine add_pos_of_nonneg_of_pos (mul_nonneg (div_nonneg (by linarith) (by linarith)) n1) (mul_pos (div_pos (by linarith) (by linarith)) (ih (i + 1) (by omega) h4 ?_ (Or.inr ?_)))
      · rw [show i + 1 + p + 1 = i + p + 2 by omega]; exact h2
      · rw [show i + 1 + p = i + p + 1 by omega]; exact h

open Polynomial in
/-- inside of one span a basis function is a polynomial whose degree is at most that of the basis function -/
theorem N_poly (mono : ∀ a b, a ≤ b → b ≤ L → U a ≤ U b) {s : Nat} (hs : s + 1 ≤ L) :
    ∀ p i, i + p + 1 ≤ L → ∃ P : K[X], P.natDegree ≤ p ∧ ∀ x, U s ≤ x → x < U (s + 1) → N U p i x = P.eval x := by
  intro p
  induction p with
  | zero =>
    intro i hi
    by_cases h : i = s
    · subst h
      exact ⟨1, by simp, fun x h0 h1 => by rw [N, if_pos ⟨h0, h1⟩]; simp⟩
    · refine ⟨0, by simp, fun x h0 h1 => ?_⟩
      rw [N, if_neg, eval_zero]
      rintro ⟨h2, h3⟩
      rcases Nat.lt_or_gt_of_ne h with h | h
      · exact absurd (h3.trans_le ((mono (i + 1) s (by omega) (by omega)).trans h0)) (lt_irrefl _)
      · exact absurd (h1.trans_le ((mono (s + 1) i (by omega) (by omega)).trans h2)) (lt_irrefl _)
  | succ p ih =>
    intro i hi
    obtain ⟨P, hP, eP⟩ := ih i (by omega)
    obtain ⟨Q, hQ, eQ⟩ := ih (i + 1) (by omega)
    refine ⟨C (1 / (U (i + p + 1) - U i)) * (X - C (U i)) * P + C (1 / (U (i + p + 2) - U (i + 1))) * (C (U (i + p + 2)) - X) * Q, ?_, ?_⟩
    · refine (natDegree_add_le _ _).trans (max_le ?_ ?_)
      · refine natDegree_mul_le.trans ?_
        have : (C (1 / (U (i + p + 1) - U i)) * (X - C (U i))).natDegree ≤ 1 :=
          (natDegree_C_mul_le _ _).trans (natDegree_X_sub_C_le _)
        omega
      · refine natDegree_mul_le.trans ?_
        have : (C (1 / (U (i + p + 2) - U (i + 1))) * (C (U (i + p + 2)) - X)).natDegree ≤ 1 := by
          refine (natDegree_C_mul_le _ _).trans ?_
          rw [← natDegree_neg, neg_sub]
          exact natDegree_X_sub_C_le _
        omega
    · intro x h0 h1
      rw [N, eP x h0 h1, eQ x h0 h1]
      simp only [eval_add, eval_mul, eval_sub, eval_C, eval_X]
      ring
end general

end Artist.BSpline

namespace Artist.Nurbs
open Artist.BSpline

/-- the basis functions that are not zero on a span are linearly independent there -/
theorem independent {knots : List ℝ} {L s : Nat} (mono : ∀ a b, a ≤ b → b ≤ L → knot knots a ≤ knot knots b) (hlt : knot knots s < knot knots (s + 1)) :
    ∀ p, p ≤ s → s + p + 1 ≤ L → ∀ c : Nat → ℝ,
      (∀ x, knot knots s < x → x < knot knots (s + 1) → ∑ r ∈ Finset.range (p + 1), c r * N (knot knots) p (s - p + r) x = 0) →
      ∀ r, r ≤ p → c r = 0 := by
  intro p
  induction p with
  | zero =>
    intro _ _ c h r hr
    obtain rfl : r = 0 := by omega
    obtain ⟨x, h1, h2⟩ := exists_between hlt
    have := h x h1 h2
    rw [Finset.sum_range_one, Nat.sub_zero, Nat.add_zero, N, if_pos ⟨h1.le, h2⟩, mul_one] at this
    exact this
  | succ p ih =>
    intro hs hL c h
    set U := knot knots with hU
    have den : ∀ r, r ≤ p → 0 < U (s + r + 1) - U (s - p + r) := by
      intro r hr
      have a := mono (s - p + r) s (by omega) (by omega)
      have b := mono (s + 1) (s + r + 1) (by omega) (by omega)
      linarith
    have step := ih (by omega) (by omega) (fun r => (c (r + 1) - c r) / (U (s + r + 1) - U (s - p + r))) (by
      intro x h1 h2
      have d1 : HasDerivWithinAt (fun z => ∑ r ∈ Finset.range (p + 1 + 1), c r * N U (p + 1) (s - (p + 1) + r) z)
          (∑ r ∈ Finset.range (p + 1 + 1), c r * dN U (p + 1) (s - (p + 1) + r) x) (Set.Ici x) x := by
        refine HasDerivWithinAt.fun_sum fun r hr => ?_
        rw [Finset.mem_range] at hr
        exact (N_deriv mono x p (s - (p + 1) + r) (by omega)).const_mul _
      have d2 : HasDerivWithinAt (fun z => ∑ r ∈ Finset.range (p + 1 + 1), c r * N U (p + 1) (s - (p + 1) + r) z) 0 (Set.Ici x) x := by
        refine (hasDerivWithinAt_const x (Set.Ici x) (0 : ℝ)).congr_of_eventuallyEq ?_ (h x h1 h2)
        filter_upwards [self_mem_nhdsWithin, mem_nhdsWithin_of_mem_nhds (Iio_mem_nhds h2)] with z hz hz'
        exact h z (h1.trans_le hz) hz'
      have e := (uniqueDiffWithinAt_Ici x).eq_deriv _ d1 d2
      have z1 : N U p (s - (p + 1)) x = 0 :=
        N_support (p := p + 1) (fun a b hab hb => mono a b hab (by omega)) h1.le h2 p _ (Or.inr (by omega))
      have z2 : N U p (s + 1) x = 0 :=
        N_support (p := p + 1) (fun a b hab hb => mono a b hab (by omega)) h1.le h2 p _ (Or.inl (by omega))
      have key : ∑ r ∈ Finset.range (p + 1 + 1), c r * dN U (p + 1) (s - (p + 1) + r) x =
          ((p + 1 : ℕ) : ℝ) * ∑ r ∈ Finset.range (p + 1), (c (r + 1) - c r) / (U (s + r + 1) - U (s - p + r)) * N U p (s - p + r) x := by
        have g : ∀ r ∈ Finset.range (p + 1 + 1), c r * dN U (p + 1) (s - (p + 1) + r) x =
            ((p + 1 : ℕ) : ℝ) * (c r * (N U p (s - (p + 1) + r) x / (U (s + r) - U (s - (p + 1) + r)))) -
            ((p + 1 : ℕ) : ℝ) * (c r * (N U p (s - p + r) x / (U (s + r + 1) - U (s - p + r)))) := by
          intro r _
          rw [dN, show s - (p + 1) + r + p + 1 = s + r by omega, show s - (p + 1) + r + p + 2 = s + r + 1 by omega,
            show s - (p + 1) + r + 1 = s - p + r by omega]
          ring
        rw [Finset.sum_congr rfl g, Finset.sum_sub_distrib, ← Finset.mul_sum, ← Finset.mul_sum, ← mul_sub]
        congr 1
        rw [Finset.sum_range_succ' (fun r => c r * (N U p (s - (p + 1) + r) x / (U (s + r) - U (s - (p + 1) + r)))),
          Finset.sum_range_succ (fun r => c r * (N U p (s - p + r) x / (U (s + r + 1) - U (s - p + r))))]
        rw [Nat.add_zero (s - (p + 1)), z1, show s - p + (p + 1) = s + 1 by omega, z2]
        simp only [zero_div, mul_zero, add_zero]
        rw [← Finset.sum_sub_distrib]
        refine Finset.sum_congr rfl fun r _ => ?_
        rw [show s - (p + 1) + (r + 1) = s - p + r by omega, show s + (r + 1) = s + r + 1 by omega]
        ring
      rw [key] at e
      rcases mul_eq_zero.1 e with e | e
      · exact absurd e (by positivity)
      · exact e)
    have eqs : ∀ r, r ≤ p + 1 → c r = c 0 := by
      intro r
      induction r with
      | zero => intro _; rfl
      | succ r ihr =>
        intro hr
        have a := step r (by omega)
        rcases div_eq_zero_iff.1 a with a | a
        · rw [sub_eq_zero.1 a, ihr (by omega)]
        · exact absurd a (den r (by omega)).ne'
    obtain ⟨x, h1, h2⟩ := exists_between hlt
    have hin : InSpan (knot knots) s (p + 1) x := ⟨hs, fun a b hab hb => mono a b hab (by omega), h1.le, h2⟩
    have one := loc_sum hin (p + 1) le_rfl
    rw [Finset.sum_congr rfl fun r hr => loc_eq_N hin (p + 1) le_rfl r (by rw [Finset.mem_range] at hr; omega)] at one
    have hx := h x h1 h2
    rw [Finset.sum_congr rfl fun r hr => by rw [eqs r (by rw [Finset.mem_range] at hr; omega)], ← Finset.mul_sum, one, mul_one] at hx
    intro r hr
    rw [eqs r hr, hx]

open Polynomial in
/-- as many points of a span as the degree plus one suffice -/
theorem independent_points {knots : List ℝ} {L s p : Nat} (mono : ∀ a b, a ≤ b → b ≤ L → knot knots a ≤ knot knots b) (hlt : knot knots s < knot knots (s + 1))
    (hs : p ≤ s) (hL : s + p + 1 ≤ L) (c : Nat → ℝ) (pts : Finset ℝ) (hc : p + 1 ≤ pts.card) (hp : ∀ x ∈ pts, knot knots s ≤ x ∧ x < knot knots (s + 1))
    (h : ∀ x ∈ pts, ∑ r ∈ Finset.range (p + 1), c r * N (knot knots) p (s - p + r) x = 0) : ∀ r, r ≤ p → c r = 0 := by
  have hex : ∀ r, ∃ P : ℝ[X], r ≤ p → P.natDegree ≤ p ∧ ∀ x, knot knots s ≤ x → x < knot knots (s + 1) → N (knot knots) p (s - p + r) x = P.eval x := by
    intro r
    by_cases hr : r ≤ p
    · obtain ⟨P, a, b⟩ := N_poly mono (s := s) (by omega) p (s - p + r) (by omega)
      exact ⟨P, fun _ => ⟨a, b⟩⟩
    · exact ⟨0, fun h => absurd h hr⟩
  choose P hP using hex
  have ev : ∀ x, knot knots s ≤ x → x < knot knots (s + 1) →
      ∑ r ∈ Finset.range (p + 1), c r * N (knot knots) p (s - p + r) x = (∑ r ∈ Finset.range (p + 1), C (c r) * P r).eval x := by
    intro x h0 h1
    rw [eval_finset_sum]
    refine Finset.sum_congr rfl fun r hr => ?_
    rw [Finset.mem_range] at hr
    rw [(hP r (by omega)).2 x h0 h1, eval_mul, eval_C]
  have zero : (∑ r ∈ Finset.range (p + 1), C (c r) * P r) = 0 := by
    refine eq_zero_of_natDegree_lt_card_of_eval_eq_zero' _ pts (fun x hx => ?_) ?_
    · rw [← ev x (hp x hx).1 (hp x hx).2, h x hx]
    · refine lt_of_le_of_lt (natDegree_sum_le_of_forall_le _ _ (n := p) fun r hr => ?_) hc
      rw [Finset.mem_range] at hr
      exact (natDegree_C_mul_le _ _).trans (hP r (by omega)).1
  refine independent mono hlt p hs hL c fun x h0 h1 => ?_
  rw [ev x h0.le h1, zero, eval_zero]

/-- enough points in every span of a clamped uniform knot vector determine the coefficients -/
theorem determined {n p : Nat} (hp : 1 ≤ p) (hn : p < n) (c : Nat → ℝ) (pts : Set ℝ)
    (dense : ∀ s, p ≤ s → s < n → ∃ F : Finset ℝ, p + 1 ≤ F.card ∧ ∀ x ∈ F, x ∈ pts ∧ clampedUniform n p s ≤ x ∧ x < clampedUniform n p (s + 1))
    (h : ∀ x ∈ pts, ∑ i ∈ Finset.range n, N (clampedUniform n p) p i x * c i = 0) : ∀ i, i < n → c i = 0 := by
  intro i hi
  obtain ⟨s, hs, hsn, h1, h2⟩ : ∃ s, p ≤ s ∧ s < n ∧ s - p ≤ i ∧ i ≤ s := ⟨max p i, by omega, by omega, by omega, by omega⟩
  obtain ⟨F, hF, hx⟩ := dense s hs hsn
  have kn : ∀ a, a ≤ n + p → knot (uniformKnots n p : List ℝ) a = clampedUniform n p a := fun a ha => knot_uniform hp hn ha
  have key := independent_points (knots := uniformKnots n p) (L := n + p) (s := s) (p := p)
    (fun a b hab hb => by rw [kn a (by omega), kn b hb]; exact clamped_mono hn hab)
    (by
      obtain ⟨x, hxF⟩ := Finset.card_pos.1 (show 0 < F.card by omega)
      rw [kn s (by omega), kn (s + 1) (by omega)]
      exact (hx x hxF).2.1.trans_lt (hx x hxF).2.2)
    hs (by omega) (fun r => c (s - p + r)) F hF
    (fun x hxF => by rw [kn s (by omega), kn (s + 1) (by omega)]; exact (hx x hxF).2)
    (fun x hxF => by
      obtain ⟨a1, a2, a3⟩ := hx x hxF
      rw [← h x a1, window_sum hs hsn]
      · refine Finset.sum_congr rfl fun r hr => ?_
        rw [Finset.mem_range] at hr
        rw [mul_comm, N_congr _ _ fun j hj => kn j (by omega)]
      · intro m hm hm'
        rw [N_support (p := n + p - s) (fun a b hab _ => clamped_mono hn hab) a2 a3 p m (by omega), zero_mul])
  have := key (i - (s - p)) (by omega)
  rwa [show s - p + (i - (s - p)) = i by omega] at this

/-- the same for a product of two directions -/
theorem determined2 {n m p q : Nat} (hp : 1 ≤ p) (hn : p < n) (hq : 1 ≤ q) (hm : q < m) (P : Nat → Nat → ℝ) (xs ys : Set ℝ)
    (dx : ∀ s, p ≤ s → s < n → ∃ F : Finset ℝ, p + 1 ≤ F.card ∧ ∀ x ∈ F, x ∈ xs ∧ clampedUniform n p s ≤ x ∧ x < clampedUniform n p (s + 1))
    (dy : ∀ s, q ≤ s → s < m → ∃ F : Finset ℝ, q + 1 ≤ F.card ∧ ∀ y ∈ F, y ∈ ys ∧ clampedUniform m q s ≤ y ∧ y < clampedUniform m q (s + 1))
    (h : ∀ x ∈ xs, ∀ y ∈ ys, surface (clampedUniform n p) (clampedUniform m q) p q n m P x y = 0) : ∀ i j, i < n → j < m → P i j = 0 := by
  intro i j hi hj
  refine determined hp hn (fun i => P i j) xs dx (fun x hx => ?_) i hi
  refine determined hq hm (fun j => ∑ i ∈ Finset.range n, N (clampedUniform n p) p i x * P i j) ys dy (fun y hy => ?_) j hj
  rw [← h x hx y hy]
  unfold surface
  rw [Finset.sum_comm]
  refine Finset.sum_congr rfl fun k _ => ?_
  rw [Finset.mul_sum]
  exact Finset.sum_congr rfl fun l _ => by ring

/-- an evaluation grid that is fine enough has enough points in every span -/
theorem grid_dense {n p ne : Nat} (hn : p < n) (eps : ℝ) (h0 : 0 ≤ eps) (h1 : eps < 1 / 2) (hne : 2 ≤ ne)
    (fine : ((p : ℝ) + 1) * ((1 - 2 * eps) / ((ne : ℝ) - 1)) ≤ 1 / ((n : ℝ) - p) - 2 * eps) (s : Nat) (hs : p ≤ s) (hsn : s < n) :
    ∃ F : Finset ℝ, p + 1 ≤ F.card ∧ ∀ x ∈ F, (∃ k < ne, x = linspace eps (1 - eps) ne k) ∧ clampedUniform n p s ≤ x ∧ x < clampedUniform n p (s + 1) := by
  have hN : (0 : ℝ) < (ne : ℝ) - 1 := by
    have : (2 : ℝ) ≤ ne := by exact_mod_cast hne
    linarith
  have hnp : (0 : ℝ) < (n : ℝ) - p := by rw [sub_pos]; exact_mod_cast hn
  set δ := (1 - 2 * eps) / ((ne : ℝ) - 1) with hδ
  have hδ0 : 0 < δ := div_pos (by linarith) hN
  have hδN : ((ne : ℝ) - 1) * δ = 1 - 2 * eps := by rw [hδ]; field_simp
  have lin : ∀ k, linspace eps (1 - eps) ne k = eps + k * δ := by
    intro k
    unfold linspace
    rw [Nat.cast_sub (by omega), Nat.cast_one, hδ]
    ring
  obtain ⟨t, rfl⟩ : ∃ t, s = t + p := ⟨s - p, by omega⟩
  have ks : (clampedUniform n p (t + p) : ℝ) = (t : ℝ) / ((n : ℝ) - p) := by
    rw [clamped_mid hn (by omega), Nat.cast_sub hn.le]
  have ks1 : (clampedUniform n p (t + p + 1) : ℝ) = (t : ℝ) / ((n : ℝ) - p) + 1 / ((n : ℝ) - p) := by
    rw [show t + p + 1 = t + 1 + p by omega, clamped_mid hn (by omega), Nat.cast_sub hn.le]
    push_cast
    ring
  have top : (clampedUniform n p (t + p + 1) : ℝ) ≤ 1 := by
    have := clamped_mono (K := ℝ) hn (show t + p + 1 ≤ n by omega)
    rwa [clamped_high (K := ℝ) hn le_rfl] at this
  have bot : 0 ≤ (clampedUniform n p (t + p) : ℝ) := by rw [ks]; positivity
  set A := (clampedUniform n p (t + p) : ℝ) with hA
  have hB : (clampedUniform n p (t + p + 1) : ℝ) = A + 1 / ((n : ℝ) - p) := by rw [ks1, ks]
  rw [hB] at top ⊢
  set k0 := ⌈(max A eps - eps) / δ⌉₊ with hk0
  have c1 : max A eps ≤ eps + k0 * δ := by
    have := Nat.le_ceil ((max A eps - eps) / δ)
    rw [div_le_iff₀ hδ0] at this
    linarith
  have c2 : eps + k0 * δ < max A eps + δ := by
    have := Nat.ceil_lt_add_one (a := (max A eps - eps) / δ) (div_nonneg (by linarith [le_max_right A eps]) hδ0.le)
    have h2 : (k0 : ℝ) * δ < ((max A eps - eps) / δ + 1) * δ := mul_lt_mul_of_pos_right this hδ0
    rw [add_mul, div_mul_cancel₀ _ hδ0.ne', one_mul] at h2
    linarith
  have hmax : max A eps ≤ A + eps := max_le (by linarith) (by linarith)
  refine ⟨(Finset.range (p + 1)).image fun r => eps + ((k0 + r : ℕ) : ℝ) * δ, ?_, ?_⟩
  · rw [Finset.card_image_of_injective _ ?_, Finset.card_range]
    intro a b hab
    simp only at hab
    have : ((k0 + a : ℕ) : ℝ) = ((k0 + b : ℕ) : ℝ) := mul_right_cancel₀ hδ0.ne' (by linarith)
    have : k0 + a = k0 + b := by exact_mod_cast this
    omega
  · intro x hx
    rw [Finset.mem_image] at hx
    obtain ⟨r, hr, rfl⟩ := hx
    rw [Finset.mem_range] at hr
    have hr0 : (0 : ℝ) ≤ r * δ := by positivity
    have hrp : (r : ℝ) * δ ≤ p * δ := mul_le_mul_of_nonneg_right (by exact_mod_cast (by omega : r ≤ p)) hδ0.le
    rw [Nat.cast_add, add_mul]
    have up : eps + (k0 * δ + r * δ) < A + 1 / ((n : ℝ) - p) - eps := by
      rw [add_mul, one_mul] at fine
      linarith
    refine ⟨⟨k0 + r, ?_, by rw [lin]; push_cast; ring⟩, ?_, by linarith⟩
    · have h3 : ((k0 + r : ℕ) : ℝ) * δ < ((ne : ℝ) - 1) * δ := by
        rw [hδN]; push_cast; linarith
      have h4 := lt_of_mul_lt_mul_right h3 hδ0.le
      have h5 : ((k0 + r : ℕ) : ℝ) < ne := by linarith
      exact_mod_cast h5
    · linarith [le_max_left A eps]

/-- fewer conditions than unknowns leave something undetermined -/
theorem hidden {n k : Nat} (h : k < n) (f : Nat → Nat → ℝ) : ∃ c : Nat → ℝ, (∃ i < n, c i ≠ 0) ∧ ∀ a < k, ∑ i ∈ Finset.range n, f a i * c i = 0 := by
  let M : (Fin n → ℝ) →ₗ[ℝ] (Fin k → ℝ) :=
    { toFun := fun v a => ∑ i : Fin n, f a i * v i
      map_add' := fun v w => by ext a; simp [mul_add, Finset.sum_add_distrib]
      map_smul' := fun r v => by ext a; simp [Finset.mul_sum, mul_left_comm] }
  have hk : LinearMap.ker M ≠ ⊥ := LinearMap.ker_ne_bot_of_finrank_lt (by simpa using h)
  obtain ⟨v, hv, hv0⟩ := Submodule.exists_mem_ne_zero_of_ne_bot hk
  refine ⟨fun i => if hi : i < n then v ⟨i, hi⟩ else 0, ?_, ?_⟩
  · by_contra hcon
    push Not at hcon
    apply hv0
    ext i
    have := hcon i i.2
    simpa using this
  · intro a ha
    have := congrFun (LinearMap.mem_ker.1 hv) ⟨a, ha⟩
    rw [Finset.sum_range]
    simpa [M] using this

end Artist.Nurbs
