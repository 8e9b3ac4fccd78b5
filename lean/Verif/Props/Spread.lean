import Verif.Proofs.Spread
/-! C122: how the surface points of flat facets are spread. -/
namespace Artist.Spread
open Artist Nurbs BSpline Filter Topology

/-- C122, where it holds: with degree one, or with just one more control point than the degree, the surface points of a flat facet are spread evenly: the point with the parameters `x` and `y`
has the share `x` of the facet on its west and the share `y` on its south.  (The full claim, for all numbers of control points and all degrees, is false: `C122_border`, `C122_middle`.) -/
theorem C122_even_partial (nu nv p q : Nat) (de dn x y : ℝ) (h : Valid (planarNet nu nv de dn) p q x y) (hu : p = 1 ∨ nu = p + 1) (hv : q = 1 ∨ nv = q + 1) :
    ∃ pt cr, evaluate (planarNet nu nv de dn) p q x y = .ok (pt, cr) ∧ pt 0 = -de + 2 * de * x ∧ pt 1 = -dn + 2 * dn * y := by
  obtain ⟨pt, cr, h1, h2, h3⟩ := planar_line nu nv p q de dn h
  rw [line_even h.p_pos (show p < nu from h.nu) hu h.x0 h.x1] at h2
  rw [line_even h.q_pos (show q < nv from h.nv) hv h.y0 h.y1] at h3
  exact ⟨pt, cr, h1, h2, h3⟩

/-- C122: near the border of the facet the points are too sparse: the strip on the west of the points with parameter `x` tends to be `p (n - p) / (n - 1)` times as wide as its share `x` of the
points, and this factor exceeds one for all degrees from two and all `n` from `p + 2`.  In a corner the factors of both directions multiply. -/
theorem C122_border (nu nv p q : Nat) (de dn : ℝ) (hde : 0 < de) (hdn : 0 < dn) (hp : 1 ≤ p) (hq : 1 ≤ q) (hnu : p < nu) (hnv : q < nv) :
    ∃ east north : ℝ → ℝ, (∀ x y, 0 ≤ x → x < 1 → 0 ≤ y → y < 1 → ∃ pt cr, evaluate (planarNet nu nv de dn) p q x y = .ok (pt, cr) ∧ pt 0 = east x ∧ pt 1 = north y) ∧
      Tendsto (fun x => (east x + de) / (2 * de) / x) (𝓝[>] 0) (𝓝 ((p : ℝ) * ((nu : ℝ) - p) / ((nu : ℝ) - 1))) ∧
      Tendsto (fun y => (north y + dn) / (2 * dn) / y) (𝓝[>] 0) (𝓝 ((q : ℝ) * ((nv : ℝ) - q) / ((nv : ℝ) - 1))) ∧
      (1 < (p : ℝ) * ((nu : ℝ) - p) / ((nu : ℝ) - 1) ↔ 2 ≤ p ∧ p + 2 ≤ nu) ∧ (1 < (q : ℝ) * ((nv : ℝ) - q) / ((nv : ℝ) - 1) ↔ 2 ≤ q ∧ q + 2 ≤ nv) := by
  have factor : ∀ p n : ℕ, 1 ≤ p → p < n → (1 < (p : ℝ) * ((n : ℝ) - p) / ((n : ℝ) - 1) ↔ 2 ≤ p ∧ p + 2 ≤ n) := by
    intro p n hp hn
    have h1 : (0 : ℝ) < (n : ℝ) - 1 := by
      have : (1 : ℝ) < n := by exact_mod_cast (by omega : 1 < n)
      linarith
    rw [lt_div_iff₀ h1, one_mul]
    have e : (p : ℝ) * ((n : ℝ) - p) - ((n : ℝ) - 1) = ((p : ℝ) - 1) * ((n : ℝ) - p - 1) := by ring
    rw [← sub_pos, e]
    have a : (0 : ℝ) ≤ (p : ℝ) - 1 := by
      have : (1 : ℝ) ≤ p := by exact_mod_cast hp
      linarith
    have b : (0 : ℝ) ≤ (n : ℝ) - p - 1 := by
      have : (p : ℝ) + 1 ≤ n := by exact_mod_cast hn
      linarith
    constructor
    · intro h
      have h1 : (0 : ℝ) < (p : ℝ) - 1 := lt_of_le_of_ne a fun h0 => by rw [← h0, zero_mul] at h; exact lt_irrefl _ h
      have h2 : (0 : ℝ) < (n : ℝ) - p - 1 := lt_of_le_of_ne b fun h0 => by rw [← h0, mul_zero] at h; exact lt_irrefl _ h
      have c1 : (1 : ℝ) < p := by linarith
      have c2 : (p : ℝ) + 1 < n := by linarith
      have c1 : 1 < p := by exact_mod_cast c1
      have c2 : p + 1 < n := by exact_mod_cast c2
      omega
    · rintro ⟨h1, h2⟩
      have c1 : (2 : ℝ) ≤ p := by exact_mod_cast h1
      have c2 : (p : ℝ) + 2 ≤ n := by exact_mod_cast h2
      exact mul_pos (by linarith) (by linarith)
  refine ⟨fun x => -de + 2 * de * line nu p x, fun y => -dn + 2 * dn * line nv q y, ?_, ?_, ?_, factor p nu hp hnu, factor q nv hq hnv⟩
  · intro x y x0 x1 y0 y1
    exact planar_line nu nv p q de dn ⟨hp, hq, hnu, hnv, x0, x1, y0, y1⟩
  · refine (line_border hp hnu).congr fun x => ?_
    have : -de + 2 * de * line nu p x + de = 2 * de * line nu p x := by ring
    rw [this, mul_div_cancel_left₀ _ (by linarith)]
  · refine (line_border hq hnv).congr fun x => ?_
    have : -dn + 2 * dn * line nv q x + dn = 2 * dn * line nv q x := by ring
    rw [this, mul_div_cancel_left₀ _ (by linarith)]

/-- C122: and in the middle of the facet they are too dense: there they are evenly spaced, with a step that is `(n - p) / (n - 1)` times the step of an even spread. -/
theorem C122_middle (nu nv p q : Nat) (de dn x y : ℝ) (h : Valid (planarNet nu nv de dn) p q x y) (h0 : ((p : ℝ) - 1) / ((nu : ℝ) - p) ≤ x)
    (h1 : x < ((nu : ℝ) - 2 * p + 1) / ((nu : ℝ) - p)) :
    ∃ pt cr, evaluate (planarNet nu nv de dn) p q x y = .ok (pt, cr) ∧ pt 0 = 2 * de * (((nu : ℝ) - p) / ((nu : ℝ) - 1)) * (x - 1 / 2) := by
  obtain ⟨pt, cr, e1, e2, -⟩ := planar_line nu nv p q de dn h
  refine ⟨pt, cr, e1, ?_⟩
  rw [e2, line_middle h.p_pos (show p < nu from h.nu) h0 h1]
  have : (1 : ℝ) < nu := by exact_mod_cast (show 1 < nu from lt_of_le_of_lt h.p_pos h.nu)
  have : (nu : ℝ) - 1 ≠ 0 := by linarith
  field_simp
  ring

/-- C122: what would spread the points evenly for all degrees and all numbers of control points: placing every control point at the mean of the `p` inner knots of its basis function instead of
placing the control points at equal distances.  Then the coordinate is a linear function of the parameter. -/
theorem C122_knots (net : Net ℝ) (p q : Nat) (x y a b : ℝ) (h : Valid net p q x y) (c : Fin 3)
    (hc : ∀ i < net.nu, ∀ j < net.nv, net.at' i j c = a + b * ((∑ k ∈ Finset.range p, clampedUniform net.nu p (i + 1 + k)) / p)) :
    ∃ pt cr, evaluate net p q x y = .ok (pt, cr) ∧ pt c.castSucc = a + b * x := by
  obtain ⟨d, hd, h1, -⟩ := evaluate_spec h
  refine ⟨_, _, hd, ?_⟩
  have su := (N_nonneg_sum h.p_pos h.nu h.x0 h.x1).2.1
  have sv := (N_nonneg_sum h.q_pos h.nv h.y0 h.y1).2.1
  have hp0 : (p : ℝ) ≠ 0 := by exact_mod_cast (by have := h.p_pos; omega : p ≠ 0)
  rw [h1]
  unfold surface
  have e : ∀ i ∈ Finset.range net.nu, ∑ j ∈ Finset.range net.nv, N (clampedUniform net.nu p) p i x * N (clampedUniform net.nv q) q j y * net.at' i j c =
      N (clampedUniform net.nu p) p i x * a + b / p * (N (clampedUniform net.nu p) p i x * inner (clampedUniform net.nu p) p i) := by
    intro i hi
    have : ∀ j ∈ Finset.range net.nv, N (clampedUniform net.nu p) p i x * N (clampedUniform net.nv q) q j y * net.at' i j c =
        N (clampedUniform net.nu p) p i x * (a + b * (inner (clampedUniform net.nu p) p i / p)) * N (clampedUniform net.nv q) q j y := by
      intro j hj
      rw [hc i (Finset.mem_range.1 hi) j (Finset.mem_range.1 hj)]
      unfold inner
      ring
    rw [Finset.sum_congr rfl this, ← Finset.mul_sum, sv]
    ring
  rw [Finset.sum_congr rfl e, Finset.sum_add_distrib, ← Finset.sum_mul, ← Finset.mul_sum, su, sum_inner h.p_pos h.nu h.x0 h.x1]
  field_simp

/-- C122 is false for the settings of the surface generator (10 × 10 control points, degree three): close to a corner, patches hold less than a fifth of the points that are due to their area. -/
theorem C122_default_refuted : ∃ δ > 0, ∀ x y : ℝ, 0 < x → x < δ → 0 < y → y < δ →
    ∃ pt cr, evaluate (planarNet 10 10 1 1 : Net ℝ) 3 3 x y = .ok (pt, cr) ∧ 5 * (x * y) < (pt 0 + 1) / 2 * ((pt 1 + 1) / 2) := by
  obtain ⟨east, north, h1, h2, h3, -⟩ := C122_border 10 10 3 3 1 1 one_pos one_pos (by norm_num) (by norm_num) (by norm_num) (by norm_num)
  have l : (9 / 4 : ℝ) < ((3 : ℕ) : ℝ) * (((10 : ℕ) : ℝ) - ((3 : ℕ) : ℝ)) / (((10 : ℕ) : ℝ) - 1) := by norm_num
  have e1 := h2.eventually (eventually_gt_nhds l)
  have e2 := h3.eventually (eventually_gt_nhds l)
  rw [eventually_nhdsWithin_iff, Metric.eventually_nhds_iff] at e1 e2
  obtain ⟨d1, p1, f1⟩ := e1
  obtain ⟨d2, p2, f2⟩ := e2
  refine ⟨min 1 (min d1 d2), by positivity, ?_⟩
  intro x y x0 xd y0 yd
  rw [lt_min_iff, lt_min_iff] at xd yd
  obtain ⟨pt, cr, g1, g2, g3⟩ := h1 x y x0.le xd.1 y0.le yd.1
  refine ⟨pt, cr, g1, ?_⟩
  have a := f1 (y := x) (by rw [Real.dist_eq, sub_zero, abs_of_pos x0]; exact xd.2.1) x0
  have b := f2 (y := y) (by rw [Real.dist_eq, sub_zero, abs_of_pos y0]; exact yd.2.2) y0
  rw [lt_div_iff₀ x0, ← g2] at a
  rw [lt_div_iff₀ y0, ← g3] at b
  have xy := mul_pos x0 y0
  have : 9 / 4 * x * (9 / 4 * y) ≤ (pt 0 + 1) / (2 * 1) * ((pt 1 + 1) / (2 * 1)) := mul_le_mul a.le b.le (by positivity) (by linarith [mul_pos (show (0 : ℝ) < 9 / 4 by norm_num) x0])
  rw [mul_one] at this
  linarith

/-- degree three with four control points: even -/
example : ∃ pt cr, evaluate (planarNet 4 4 (8 / 5) (6 / 5) : Net ℝ) 3 3 (1 / 7) (1 / 3) = .ok (pt, cr) ∧ pt 0 = -(8 / 5) + 2 * (8 / 5) * (1 / 7) ∧ pt 1 = -(6 / 5) + 2 * (6 / 5) * (1 / 3) :=
  C122_even_partial 4 4 3 3 _ _ _ _ ⟨by norm_num, by norm_num, by norm_num [planarNet], by norm_num [planarNet], by norm_num, by norm_num, by norm_num, by norm_num⟩ (Or.inr rfl) (Or.inr rfl)

/-- the settings of the surface generator: in the middle a parameter of 0.6 is not one tenth of the width away from the centre, but 7/90 of it -/
example : ∃ pt cr, evaluate (planarNet 10 10 1 1 : Net ℝ) 3 3 (3 / 5) (1 / 3) = .ok (pt, cr) ∧ pt 0 = 2 * (7 / 90) := by
  obtain ⟨pt, cr, h1, h2⟩ := C122_middle 10 10 3 3 1 1 (3 / 5) (1 / 3) ⟨by norm_num, by norm_num, by norm_num [planarNet], by norm_num [planarNet], by norm_num, by norm_num, by norm_num,
    by norm_num⟩ (by norm_num) (by norm_num)
  refine ⟨pt, cr, h1, ?_⟩
  rw [h2]
  norm_num

/-- the limits of `C122_border` for the settings of the surface generator -/
example : ((3 : ℕ) : ℝ) * (((10 : ℕ) : ℝ) - ((3 : ℕ) : ℝ)) / (((10 : ℕ) : ℝ) - 1) = 7 / 3 := by norm_num

/-- control points at the means of the inner knots, degree two, five control points -/
example : ∃ pt cr, evaluate (⟨5, 5, fun i j => ![-1 + 2 * ((∑ k ∈ Finset.range 2, clampedUniform 5 2 (i + 1 + k)) / 2), j, 0]⟩ : Net ℝ) 2 2 (1 / 10) (1 / 2) = .ok (pt, cr) ∧
    pt 0 = -1 + 2 * (1 / 10) :=
  C122_knots _ 2 2 (1 / 10) (1 / 2) (-1) 2 ⟨by norm_num, by norm_num, by norm_num, by norm_num, by norm_num, by norm_num, by norm_num, by norm_num⟩ 0 fun i _ j _ => by simp

end Artist.Spread
