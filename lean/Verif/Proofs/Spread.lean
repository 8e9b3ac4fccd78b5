import Verif.Props.Nurbs
import Mathlib.Analysis.Calculus.Deriv.Slope
import Mathlib.Algebra.BigOperators.Field
/-! Helper lemmas for C122: weighted sums of basis functions. -/
namespace Artist.BSpline
variable {K : Type} [Field K] [LinearOrder K] [IsStrictOrderedRing K]

/-- sum of the knots strictly inside the support of a basis function -/
def inner (U : Nat → K) (q m : Nat) : K := ∑ k ∈ Finset.range q, U (m + 1 + k)

/-- one step of the recursion, summed up -/
theorem window_step {U : Nat → K} {i : Nat} {x : K} (mono : Monotone U) (h0 : U i ≤ x) (h1 : x < U (i + 1)) (q : Nat) (hq : q + 1 ≤ i) (f : Nat → K) :
    ∑ m ∈ Finset.Ico (i - (q + 1)) (i + 1), N U (q + 1) m x * f m =
      ∑ m ∈ Finset.Ico (i - q) (i + 1), N U q m x * (((x - U m) * f m + (U (m + q + 1) - x) * f (m - 1)) / (U (m + q + 1) - U m)) := by
  have out1 : N U q (i - (q + 1)) x = 0 := N_support (p := i + q + 5) (fun a b hab _ => mono hab) h0 h1 q _ (Or.inr (by omega))
  have out2 : N U q (i + 1) x = 0 := N_support (p := i + q + 5) (fun a b hab _ => mono hab) h0 h1 q _ (Or.inl (by omega))
  have split : ∀ m, N U (q + 1) m x * f m = N U q m x * ((x - U m) / (U (m + q + 1) - U m) * f m) +
      N U q (m + 1) x * ((U (m + 1 + q + 1) - x) / (U (m + 1 + q + 1) - U (m + 1)) * f m) := by
    intro m
    rw [N, show m + 1 + q + 1 = m + q + 2 by omega]
    ring
  simp only [split]
  rw [Finset.sum_add_distrib]
  have a : ∑ m ∈ Finset.Ico (i - (q + 1)) (i + 1), N U q m x * ((x - U m) / (U (m + q + 1) - U m) * f m) =
      ∑ m ∈ Finset.Ico (i - q) (i + 1), N U q m x * ((x - U m) / (U (m + q + 1) - U m) * f m) := by
    rw [← Finset.sum_Ioo_add_eq_sum_Ico (a := i - (q + 1)) (b := i + 1) (by omega), out1, zero_mul, add_zero]
    congr 1
    ext m; simp only [Finset.mem_Ioo, Finset.mem_Ico]; omega
  have b : ∑ m ∈ Finset.Ico (i - (q + 1)) (i + 1), N U q (m + 1) x * ((U (m + 1 + q + 1) - x) / (U (m + 1 + q + 1) - U (m + 1)) * f m) =
      ∑ m ∈ Finset.Ico (i - q) (i + 1), N U q m x * ((U (m + q + 1) - x) / (U (m + q + 1) - U m) * f (m - 1)) := by
    rw [Finset.sum_Ico_succ_top (by omega), out2, zero_mul, add_zero]
    rw [Finset.sum_Ico_eq_sum_range, Finset.sum_Ico_eq_sum_range, show i + 1 - (i - q) = i - (i - (q + 1)) by omega]
    refine Finset.sum_congr rfl fun k _ => ?_
    rw [show i - (q + 1) + k + 1 = i - q + k by omega, show i - q + k - 1 = i - (q + 1) + k by omega]
  rw [a, b, ← Finset.sum_add_distrib]
  refine Finset.sum_congr rfl fun m _ => ?_
  ring

/-- basis functions sum to one, and the means of the inner knots have the parameter as weighted mean -/
theorem window_sums {U : Nat → K} {i : Nat} {x : K} (mono : Monotone U) (h0 : U i ≤ x) (h1 : x < U (i + 1)) (q : Nat) : q ≤ i →
    ∑ m ∈ Finset.Ico (i - q) (i + 1), N U q m x = 1 ∧ ∑ m ∈ Finset.Ico (i - q) (i + 1), N U q m x * inner U q m = q * x := by
  induction q with
  | zero =>
    intro _
    have e : Finset.Ico (i - 0) (i + 1) = {i} := by ext m; simp only [Finset.mem_Ico, Finset.mem_singleton]; omega
    rw [e, Finset.sum_singleton, Finset.sum_singleton, show N U 0 i x = 1 from if_pos ⟨h0, h1⟩]
    simp [inner]
  | succ q ih =>
    intro hq
    obtain ⟨s1, s2⟩ := ih (by omega)
    have pos : ∀ m ∈ Finset.Ico (i - q) (i + 1), 0 < U (m + q + 1) - U m := by
      intro m hm
      rw [Finset.mem_Ico] at hm
      have a : U m ≤ U i := mono (by omega)
      have b : U (i + 1) ≤ U (m + q + 1) := mono (by omega)
      linarith
    constructor
    · have := window_step mono h0 h1 q hq (fun _ => 1)
      simp only [mul_one] at this
      rw [this, ← s1]
      refine Finset.sum_congr rfl fun m hm => ?_
      have p := pos m hm
      rw [show x - U m + (U (m + q + 1) - x) = U (m + q + 1) - U m by ring, div_self p.ne', mul_one]
    · rw [window_step mono h0 h1 q hq (inner U (q + 1))]
      have e : ∀ m ∈ Finset.Ico (i - q) (i + 1), N U q m x * (((x - U m) * inner U (q + 1) m + (U (m + q + 1) - x) * inner U (q + 1) (m - 1)) / (U (m + q + 1) - U m)) =
          N U q m x * x + N U q m x * inner U q m := by
        intro m hm
        have p := pos m hm
        rw [Finset.mem_Ico] at hm
        have a : inner U (q + 1) m = inner U q m + U (m + q + 1) := by
          unfold inner
          rw [Finset.sum_range_succ, show m + 1 + q = m + q + 1 by omega]
        have b : inner U (q + 1) (m - 1) = U m + inner U q m := by
          unfold inner
          rw [Finset.sum_range_succ', add_comm, show m - 1 + 1 + 0 = m by omega]
          congr 1
          refine Finset.sum_congr rfl fun k _ => ?_
          congr 1
          omega
        rw [a, b, ← mul_add]
        congr 1
        rw [div_eq_iff p.ne']
        ring
      rw [Finset.sum_congr rfl e, Finset.sum_add_distrib, ← Finset.sum_mul, s1, s2]
      push_cast
      ring

end Artist.BSpline

namespace Artist.Spread
open Artist Nurbs BSpline Filter Topology
variable {n p : Nat}

section
variable {K : Type} [Field K] [LinearOrder K] [IsStrictOrderedRing K] [FloorSemiring K]

/-- the parameter as weighted mean of the inner knots -/
theorem sum_inner (hp : 1 ≤ p) (hn : p < n) {x : K} (h0 : 0 ≤ x) (h1 : x < 1) :
    ∑ m ∈ Finset.range n, N (clampedUniform n p) p m x * inner (clampedUniform n p) p m = p * x := by
  obtain ⟨s1, s2, s3, s4⟩ := span_uniform hp hn h0 h1
  set sp := findSpanUniform (uniformKnots n p) p x
  have mono : Monotone (clampedUniform n p : Nat → K) := fun _ _ h => clamped_mono hn h
  rw [← (window_sums mono s3 s4 p s1).2]
  symm
  apply Finset.sum_subset
  · intro m hm
    rw [Finset.mem_Ico] at hm
    rw [Finset.mem_range]
    omega
  · intro m hm hm'
    rw [Finset.mem_range] at hm
    rw [Finset.mem_Ico] at hm'
    rw [N_support (p := n + p) (fun a b hab _ => mono hab) s3 s4 p m (by omega), zero_mul]

end

/-- where a flat, evenly spaced row of control points is at a parameter, zero and one being the ends -/
noncomputable def line (n p : Nat) (x : ℝ) : ℝ := ∑ m ∈ Finset.range n, N (clampedUniform n p) p m x * ((m : ℝ) / ((n - 1 : Nat) : ℝ))

theorem planar_line (nu nv p q : Nat) (de dn : ℝ) {x y : ℝ} (h : Valid (planarNet nu nv de dn) p q x y) :
    ∃ pt cr, evaluate (planarNet nu nv de dn) p q x y = .ok (pt, cr) ∧ pt 0 = -de + 2 * de * line nu p x ∧ pt 1 = -dn + 2 * dn * line nv q y := by
  obtain ⟨d, hd, h1, -⟩ := evaluate_spec h
  have su := (N_nonneg_sum h.p_pos h.nu h.x0 h.x1).2.1
  have sv := (N_nonneg_sum h.q_pos h.nv h.y0 h.y1).2.1
  refine ⟨_, _, hd, ?_, ?_⟩
  · have := h1 0
    rw [show (0 : Fin 4) = (0 : Fin 3).castSucc from rfl, this]
    unfold surface
    have e : ∀ i ∈ Finset.range nu, ∑ j ∈ Finset.range nv, N (clampedUniform nu p) p i x * N (clampedUniform nv q) q j y * (planarNet nu nv de dn).at' i j 0 =
        N (clampedUniform nu p) p i x * -de + 2 * de * (N (clampedUniform nu p) p i x * ((i : ℝ) / ((nu - 1 : Nat) : ℝ))) := by
      intro i _
      have : ∀ j, N (clampedUniform nu p) p i x * N (clampedUniform nv q) q j y * (planarNet nu nv de dn).at' i j 0 =
          N (clampedUniform nu p) p i x * (-de + 2 * de * ((i : ℝ) / ((nu - 1 : Nat) : ℝ))) * N (clampedUniform nv q) q j y := by
        intro j
        simp only [planarNet, linspace, Matrix.cons_val]
        ring
      simp only [this]
      rw [← Finset.mul_sum, show (∑ j ∈ Finset.range nv, N (clampedUniform nv q) q j y) = 1 from sv]
      ring
    refine Eq.trans (Finset.sum_congr rfl e) ?_
    change (∑ i ∈ Finset.range nu, _) = _
    rw [ Finset.sum_add_distrib, ← Finset.sum_mul, ← Finset.mul_sum, show (∑ i ∈ Finset.range nu, N (clampedUniform nu p) p i x) = 1 from su]
    unfold line
    ring
  · have := h1 1
    rw [show (1 : Fin 4) = (1 : Fin 3).castSucc from rfl, this]
    unfold surface
    have e : ∀ i ∈ Finset.range nu, ∑ j ∈ Finset.range nv, N (clampedUniform nu p) p i x * N (clampedUniform nv q) q j y * (planarNet nu nv de dn).at' i j 1 =
        N (clampedUniform nu p) p i x * (-dn + 2 * dn * line nv q y) := by
      intro i _
      have : ∀ j, N (clampedUniform nu p) p i x * N (clampedUniform nv q) q j y * (planarNet nu nv de dn).at' i j 1 =
          N (clampedUniform nu p) p i x * (N (clampedUniform nv q) q j y * -dn + 2 * dn * (N (clampedUniform nv q) q j y * ((j : ℝ) / ((nv - 1 : Nat) : ℝ)))) := by
        intro j
        simp only [planarNet, linspace, Matrix.cons_val]
        ring
      simp only [this]
      rw [← Finset.mul_sum, Finset.sum_add_distrib, ← Finset.sum_mul, ← Finset.mul_sum, show (∑ j ∈ Finset.range nv, N (clampedUniform nv q) q j y) = 1 from sv]
      unfold line
      ring
    refine Eq.trans (Finset.sum_congr rfl e) ?_
    change (∑ i ∈ Finset.range nu, _) = _
    rw [ ← Finset.sum_mul, show (∑ i ∈ Finset.range nu, N (clampedUniform nu p) p i x) = 1 from su]
    ring

theorem line_even (hp : 1 ≤ p) (hn : p < n) (h : p = 1 ∨ n = p + 1) {x : ℝ} (h0 : 0 ≤ x) (h1 : x < 1) : line n p x = x := by
  have s := sum_inner hp hn h0 h1
  have hp0 : (0 : ℝ) < p := by exact_mod_cast hp
  have e : ∀ m ∈ Finset.range n, N (clampedUniform n p) p m x * ((m : ℝ) / ((n - 1 : Nat) : ℝ)) = N (clampedUniform n p) p m x * inner (clampedUniform n p) p m / p := by
    intro m hm
    rw [Finset.mem_range] at hm
    rw [mul_div_assoc]
    congr 1
    rcases h with rfl | rfl
    · have := clamped_mid (K := ℝ) hn (k := m) (by omega)
      simp [inner, this]
    · rw [Nat.add_sub_cancel, div_left_inj' hp0.ne']
      unfold inner
      have v : ∀ k ∈ Finset.range p, (clampedUniform (p + 1) p (m + 1 + k) : ℝ) = if p ≤ m + k then 1 else 0 := by
        intro k _
        split_ifs with hk
        · exact clamped_high hn (by omega)
        · exact clamped_low hn (by omega)
      rw [Finset.sum_congr rfl v, ← Finset.sum_filter, Finset.sum_const, nsmul_eq_mul, mul_one]
      have : (Finset.range p).filter (fun k => p ≤ m + k) = Finset.Ico (p - m) p := by
        ext k; simp only [Finset.mem_filter, Finset.mem_range, Finset.mem_Ico]; omega
      rw [this, Nat.card_Ico, show p - (p - m) = m by omega]
  unfold line
  rw [Finset.sum_congr rfl e, ← Finset.sum_div, s, mul_div_cancel_left₀ _ hp0.ne']

theorem line_middle (hp : 1 ≤ p) (hn : p < n) {x : ℝ} (h0 : ((p : ℝ) - 1) / ((n : ℝ) - p) ≤ x) (h1 : x < ((n : ℝ) - 2 * p + 1) / ((n : ℝ) - p)) :
    line n p x = (((n : ℝ) - p) * x + ((p : ℝ) - 1) / 2) / ((n : ℝ) - 1) := by
  have hp0 : (1 : ℝ) ≤ p := by exact_mod_cast hp
  have hnp : (0 : ℝ) < (n : ℝ) - p := by rw [sub_pos]; exact_mod_cast hn
  have x0 : 0 ≤ x := le_trans (div_nonneg (by linarith) hnp.le) h0
  have x1 : x < 1 := lt_of_lt_of_le h1 (by rw [div_le_one hnp]; linarith)
  obtain ⟨s1, s2, s3, s4⟩ := span_uniform hp hn x0 x1
  set sp := findSpanUniform (uniformKnots n p) p x with hsp
  have mono : Monotone (clampedUniform n p : Nat → ℝ) := fun _ _ h => clamped_mono hn h
  have value : ∀ k, k ≤ n - p → (clampedUniform n p (k + p) : ℝ) = (k : ℝ) / ((n : ℝ) - p) := by
    intro k hk
    rw [clamped_mid hn hk, Nat.cast_sub hn.le]
  -- the span is in the middle
  have lo : 2 * p - 1 ≤ sp := by
    by_contra hc
    have e : (clampedUniform n p (sp + 1) : ℝ) = ((sp + 1 - p : ℕ) : ℝ) / ((n : ℝ) - p) := by
      rw [← value _ (by omega), show sp + 1 - p + p = sp + 1 by omega]
    rw [e] at s4
    have : ((sp + 1 - p : ℕ) : ℝ) ≤ (p : ℝ) - 1 := by
      have : sp + 1 - p + 1 ≤ p := by omega
      have : ((sp + 1 - p : ℕ) : ℝ) + 1 ≤ p := by exact_mod_cast this
      linarith
    have := div_le_div_of_nonneg_right this hnp.le
    linarith
  have hi : sp ≤ n - p := by
    by_contra hc
    have e : (clampedUniform n p sp : ℝ) = ((sp - p : ℕ) : ℝ) / ((n : ℝ) - p) := by
      rw [← value _ (by omega), show sp - p + p = sp by omega]
    rw [e] at s3
    have : (n : ℝ) - 2 * p + 1 ≤ ((sp - p : ℕ) : ℝ) := by
      have : n + 1 ≤ sp - p + 2 * p := by omega
      have : (n : ℝ) + 1 ≤ ((sp - p : ℕ) : ℝ) + 2 * p := by exact_mod_cast this
      linarith
    have := div_le_div_of_nonneg_right this hnp.le
    linarith
  have su := (N_nonneg_sum hp hn x0 x1).2.1
  have s := sum_inner hp hn x0 x1
  have hn1 : ((n - 1 : ℕ) : ℝ) = (n : ℝ) - 1 := by rw [Nat.cast_sub (by omega)]; simp
  have hn1' : (0 : ℝ) < (n : ℝ) - 1 := by linarith
  have e : ∀ m ∈ Finset.range n, N (clampedUniform n p) p m x * ((m : ℝ) / ((n - 1 : Nat) : ℝ)) =
      ((n : ℝ) - p) / ((n : ℝ) - 1) * (N (clampedUniform n p) p m x * inner (clampedUniform n p) p m / p) + ((p : ℝ) - 1) / 2 / ((n : ℝ) - 1) * N (clampedUniform n p) p m x := by
    intro m hm
    rw [Finset.mem_range] at hm
    by_cases hw : m < sp - p ∨ sp < m
    · rw [N_support (p := n + p) (fun a b hab _ => mono hab) s3 s4 p m (by omega)]
      simp
    · have v : inner (clampedUniform n p) p m = (p : ℝ) * ((m : ℝ) - ((p : ℝ) - 1) / 2) / ((n : ℝ) - p) := by
        unfold inner
        have : ∀ k ∈ Finset.range p, (clampedUniform n p (m + 1 + k) : ℝ) = (((m : ℝ) + 1 - p) + k) / ((n : ℝ) - p) := by
          intro k hk
          rw [Finset.mem_range] at hk
          have := value (m + 1 + k - p) (by omega)
          rw [show m + 1 + k - p + p = m + 1 + k by omega] at this
          rw [this, Nat.cast_sub (by omega)]
          push_cast
          ring
        rw [Finset.sum_congr rfl this, ← Finset.sum_div, Finset.sum_add_distrib, Finset.sum_const, Finset.card_range, nsmul_eq_mul]
        have g : (∑ k ∈ Finset.range p, (k : ℝ)) = (p : ℝ) * ((p : ℝ) - 1) / 2 := by
          have := Finset.sum_range_id_mul_two p
          have : ((∑ k ∈ Finset.range p, k : ℕ) : ℝ) * 2 = (p : ℝ) * ((p - 1 : ℕ) : ℝ) := by exact_mod_cast this
          rw [Nat.cast_sub hp] at this
          push_cast at this
          linarith
        rw [g]
        congr 1
        ring
      rw [v, hn1]
      field_simp
      ring
  unfold line
  rw [Finset.sum_congr rfl e, Finset.sum_add_distrib, ← Finset.mul_sum, ← Finset.mul_sum, ← Finset.sum_div, s, su]
  field_simp

/-- basis functions at the left end -/
theorem N_at_zero (hn : p < n) (q : Nat) : q ≤ p → ∀ m, N (clampedUniform n p) q m (0 : ℝ) = if m + q = p then 1 else 0 := by
  have k1 : (0 : ℝ) < clampedUniform n p (p + 1) := by
    have hnp : (0 : ℝ) < ((n - p : ℕ) : ℝ) := by exact_mod_cast (by omega : 0 < n - p)
    rw [show p + 1 = 1 + p by omega, clamped_mid hn (by omega)]
    simp only [Nat.cast_one]
    exact one_div_pos.2 hnp
  have low : ∀ i, i ≤ p → (clampedUniform n p i : ℝ) = 0 := fun i h => clamped_low hn h
  induction q with
  | zero =>
    intro _ m
    show (if _ then _ else _) = _
    by_cases h : m = p
    · subst h
      rw [if_pos ⟨(low m le_rfl).le, k1⟩, if_pos (by omega)]
    · rw [if_neg, if_neg (by omega)]
      rintro ⟨a, b⟩
      rcases Nat.lt_or_ge m p with hm | hm
      · rw [low (m + 1) (by omega)] at b; exact lt_irrefl _ b
      · have : (clampedUniform n p (p + 1) : ℝ) ≤ clampedUniform n p m := clamped_mono hn (by omega)
        linarith
  | succ q ih =>
    intro hq m
    rw [N, ih (by omega), ih (by omega)]
    by_cases h : m + (q + 1) = p
    · have pos := k1.ne'
      rw [if_neg (by omega), if_pos (by omega), if_pos h, show m + q + 2 = p + 1 by omega, low (m + 1) (by omega)]
      simp [pos]
    · rw [if_neg h, if_neg (show ¬ m + 1 + q = p by omega), mul_zero, add_zero]
      split_ifs with h'
      · rw [low m (by omega)]; simp
      · simp

theorem line_slope (hp : 1 ≤ p) (hn : p < n) : HasDerivWithinAt (line n p) ((p : ℝ) * ((n : ℝ) - p) / ((n : ℝ) - 1)) (Set.Ici 0) 0 := by
  have hn1 : ((n - 1 : ℕ) : ℝ) = (n : ℝ) - 1 := by rw [Nat.cast_sub (by omega)]; simp
  have hnp : (0 : ℝ) < (n : ℝ) - p := by rw [sub_pos]; exact_mod_cast hn
  have d : HasDerivWithinAt (line n p) (∑ m ∈ Finset.range n, dN (clampedUniform n p) p m 0 * ((m : ℝ) / ((n - 1 : Nat) : ℝ))) (Set.Ici 0) 0 := by
    unfold line
    apply HasDerivWithinAt.fun_sum
    intro m _
    exact (clamped_deriv hp hn m 0).mul_const _
  refine d.congr_deriv ?_
  obtain ⟨q, rfl⟩ : ∃ q, p = q + 1 := ⟨p - 1, by omega⟩
  rw [Finset.sum_eq_single_of_mem 1 (Finset.mem_range.2 (by omega))]
  · rw [dN, N_at_zero hn q (by omega), N_at_zero hn q (by omega), if_pos (by omega), if_neg (by omega), clamped_low hn (show 1 ≤ q + 1 by omega),
      show 1 + q + 1 = 1 + (q + 1) by omega, clamped_mid hn (by omega), hn1, Nat.cast_sub hn.le]
    simp only [Nat.cast_one]
    push_cast at hnp ⊢
    field_simp
    ring
  · intro m _ hm
    rw [dN, N_at_zero hn q (by omega), N_at_zero hn q (by omega), if_neg (by omega)]
    by_cases h0 : m = 0
    · subst h0; simp
    · rw [if_neg (by omega)]; simp

theorem line_zero (hp : 1 ≤ p) (hn : p < n) : line n p 0 = 0 := by
  unfold line
  refine Finset.sum_eq_zero fun m _ => ?_
  rw [N_at_zero hn p le_rfl]
  split_ifs with h
  · rw [show m = 0 by omega]; simp
  · simp

theorem line_border (hp : 1 ≤ p) (hn : p < n) : Tendsto (fun x => line n p x / x) (𝓝[>] 0) (𝓝 ((p : ℝ) * ((n : ℝ) - p) / ((n : ℝ) - 1))) := by
  have := (line_slope hp hn).Ioi_of_Ici
  rw [hasDerivWithinAt_iff_tendsto_slope' (by simp)] at this
  refine this.congr fun x => ?_
  rw [slope_def_field, line_zero hp hn]
  simp

end Artist.Spread
