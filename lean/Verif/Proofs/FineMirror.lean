import Verif.Spec.FineMirror
import Verif.Proofs.SurfaceImage
import Verif.Proofs.Resolution
import Mathlib.MeasureTheory.Integral.DominatedConvergence
/-! Helper lemmas for C121. -/
namespace Artist.FineMirror
open Artist Nurbs Surfaces BSpline Transforms MotorImage Filter Topology MeasureTheory

/-! ### Basis functions are continuous -/

theorem N_zero_left {U : Nat → ℝ} {i : Nat} {x : ℝ} (h : x < U i) : ∀ᶠ y in 𝓝 x, N U 0 i y = 0 := by
  filter_upwards [eventually_lt_nhds h] with y hy
  exact if_neg fun hh => by linarith [hh.1]

theorem N_zero_right {U : Nat → ℝ} {i : Nat} {x : ℝ} (h : U (i + 1) < x) : ∀ᶠ y in 𝓝 x, N U 0 i y = 0 := by
  filter_upwards [eventually_gt_nhds h] with y hy
  exact if_neg fun hh => by linarith [hh.2]

theorem N_zero_in {U : Nat → ℝ} {i : Nat} {x : ℝ} (h : U i < x) (h' : x < U (i + 1)) : ∀ᶠ y in 𝓝 x, N U 0 i y = 1 := by
  filter_upwards [eventually_gt_nhds h, eventually_lt_nhds h'] with y hy hy'
  exact if_pos ⟨hy.le, hy'⟩

theorem N_zero_continuous {U : Nat → ℝ} {i : Nat} {x : ℝ} (h : x ≠ U i) (h' : x ≠ U (i + 1)) : ContinuousAt (N U 0 i) x := by
  rcases lt_or_gt_of_ne h with a | a
  · exact (continuousAt_const (y := (0 : ℝ))).congr (by filter_upwards [N_zero_left a] with y hy; rw [hy])
  rcases lt_or_gt_of_ne h' with b | b
  · exact (continuousAt_const (y := (1 : ℝ))).congr (by filter_upwards [N_zero_in a b] with y hy; rw [hy])
  · exact (continuousAt_const (y := (0 : ℝ))).congr (by filter_upwards [N_zero_right b] with y hy; rw [hy])

theorem N_one_continuous {U : Nat → ℝ} (mono : Monotone U) {x : ℝ} (simple : ∀ i, U i = U (i + 1) → U i ≠ x) (i : Nat) : ContinuousAt (N U 1 i) x := by
  have e : N U 1 i = fun y => (y - U i) / (U (i + 1) - U i) * N U 0 i y + (U (i + 2) - y) / (U (i + 2) - U (i + 1)) * N U 0 (i + 1) y := by
    funext y; rfl
  by_cases ha : x = U i
  · -- on the left knot: both sides zero
    have h1 : U i < U (i + 1) := lt_of_le_of_ne (mono (by omega)) fun h => simple i h ha.symm
    have lim : ContinuousAt (fun y => max 0 ((y - U i) / (U (i + 1) - U i))) x := by fun_prop
    refine lim.congr ?_
    have hx1 : x < U (i + 1) := by rw [ha]; exact h1
    filter_upwards [eventually_lt_nhds hx1] with y hy
    rw [e]
    have z : N U 0 (i + 1) y = 0 := if_neg fun hh => by linarith [hh.1]
    simp only [z, mul_zero, add_zero]
    by_cases hyi : U i ≤ y
    · rw [show N U 0 i y = 1 from if_pos ⟨hyi, hy⟩, mul_one, max_eq_right (div_nonneg (by linarith) (by linarith))]
    · rw [show N U 0 i y = 0 from if_neg fun hh => hyi hh.1, mul_zero, max_eq_left (div_nonpos_of_nonpos_of_nonneg (by linarith) (by linarith))]
  by_cases hb : x = U (i + 1)
  · have h1 : U i < U (i + 1) := lt_of_le_of_ne (mono (by omega)) fun h => simple i h (by rw [h]; exact hb.symm)
    have h2 : U (i + 1) < U (i + 2) := lt_of_le_of_ne (mono (by omega)) fun h => simple (i + 1) h hb.symm
    have lim : ContinuousAt (fun y => min ((y - U i) / (U (i + 1) - U i)) ((U (i + 2) - y) / (U (i + 2) - U (i + 1)))) x := by fun_prop
    refine lim.congr ?_
    have a1 : U i < x := by rw [hb]; exact h1
    have a2 : x < U (i + 2) := by rw [hb]; exact h2
    filter_upwards [eventually_gt_nhds a1, eventually_lt_nhds a2] with y hy1 hy2
    rw [e]
    by_cases hyi : U (i + 1) ≤ y
    · have q1 : N U 0 i y = 0 := if_neg fun hh => by linarith [hh.2]
      have q2 : N U 0 (i + 1) y = 1 := if_pos ⟨hyi, hy2⟩
      simp only [q1, q2, mul_zero, mul_one, zero_add]
      refine min_eq_right (le_trans (b := 1) ?_ ?_)
      · rw [div_le_one (by linarith)]; linarith
      · rw [one_le_div (by linarith)]; linarith
    · have q1 : N U 0 i y = 1 := if_pos ⟨hy1.le, by linarith⟩
      have q2 : N U 0 (i + 1) y = 0 := if_neg fun hh => hyi hh.1
      simp only [q1, q2, mul_zero, mul_one, add_zero]
      refine min_eq_left (le_trans (b := 1) ?_ ?_)
      · rw [div_le_one (by linarith)]; linarith
      · rw [one_le_div (by linarith)]; linarith
  by_cases hc : x = U (i + 2)
  · have h2 : U (i + 1) < U (i + 2) := lt_of_le_of_ne (mono (by omega)) fun h => simple (i + 1) h (by rw [h]; exact hc.symm)
    have lim : ContinuousAt (fun y => max 0 ((U (i + 2) - y) / (U (i + 2) - U (i + 1)))) x := by fun_prop
    refine lim.congr ?_
    have hx1 : U (i + 1) < x := by rw [hc]; exact h2
    filter_upwards [eventually_gt_nhds hx1] with y hy
    rw [e]
    have z : N U 0 i y = 0 := if_neg fun hh => by linarith [hh.2]
    simp only [z, mul_zero, zero_add]
    by_cases hyi : y < U (i + 2)
    · rw [show N U 0 (i + 1) y = 1 from if_pos ⟨hy.le, hyi⟩, mul_one, max_eq_right (div_nonneg (by linarith) (by linarith))]
    · rw [show N U 0 (i + 1) y = 0 from if_neg fun hh => hyi hh.2, mul_zero, max_eq_left (div_nonpos_of_nonpos_of_nonneg (by linarith) (by linarith))]
  · rw [e]
    have c1 := N_zero_continuous ha hb
    have c2 := N_zero_continuous hb hc
    fun_prop

theorem N_continuous {U : Nat → ℝ} (mono : Monotone U) {x : ℝ} (simple : ∀ i, U i = U (i + 1) → U i ≠ x) (p : Nat) :
    ∀ i, ContinuousAt (N U (p + 1) i) x := by
  induction p with
  | zero => exact N_one_continuous mono simple
  | succ p ih =>
    intro i
    have e : N U (p + 1 + 1) i = fun y => (y - U i) / (U (i + (p + 1) + 1) - U i) * N U (p + 1) i y +
        (U (i + (p + 1) + 2) - y) / (U (i + (p + 1) + 2) - U (i + 1)) * N U (p + 1) (i + 1) y := by
      funext y; rfl
    rw [e]
    have c1 := ih i
    have c2 := ih (i + 1)
    fun_prop

theorem dN_continuous {U : Nat → ℝ} (mono : Monotone U) {x : ℝ} (simple : ∀ i, U i = U (i + 1) → U i ≠ x) (p i : Nat) :
    ContinuousAt (dN U (p + 2) i) x := by
  have e : dN U (p + 2) i = fun y => ((p + 1 + 1 : ℕ) : ℝ) * (N U (p + 1) i y / (U (i + (p + 1) + 1) - U i) -
      N U (p + 1) (i + 1) y / (U (i + (p + 1) + 2) - U (i + 1))) := by
    funext y; rfl
  rw [e]
  have c1 := N_continuous mono simple p i
  have c2 := N_continuous mono simple p (i + 1)
  fun_prop

/-- the knots inside the interval are simple -/
theorem clamped_simple {n p : Nat} (hn : p < n) {x : ℝ} (h0 : 0 < x) (h1 : x < 1) (i : Nat)
    (h : (clampedUniform n p i : ℝ) = clampedUniform n p (i + 1)) : (clampedUniform n p i : ℝ) ≠ x := by
  intro hx
  unfold clampedUniform at h hx
  have h2 : (0 : ℝ) < (n : ℝ) - p := by rw [sub_pos]; exact_mod_cast hn
  have lt : ((i : ℝ) - p) / ((n : ℝ) - p) < (((i + 1 : ℕ) : ℝ) - p) / ((n : ℝ) - p) := by
    rw [div_lt_div_iff_of_pos_right h2]; push_cast; linarith
  have a1 : ((i : ℝ) - p) / ((n : ℝ) - p) = x := by
    rcases le_total 1 (((i : ℝ) - p) / ((n : ℝ) - p)) with q | q
    · rw [min_eq_left q, max_eq_right zero_le_one] at hx; linarith
    · rw [min_eq_right q] at hx
      rcases le_total 0 (((i : ℝ) - p) / ((n : ℝ) - p)) with q' | q'
      · rwa [max_eq_right q'] at hx
      · rw [max_eq_left q'] at hx; linarith
  rw [hx] at h
  rw [a1] at lt
  rcases le_total 1 ((((i + 1 : ℕ) : ℝ) - p) / ((n : ℝ) - p)) with q | q
  · rw [min_eq_left q, max_eq_right zero_le_one] at h; linarith
  · rw [min_eq_right q, max_eq_right (by linarith)] at h; linarith

/-! ### Mirrors are continuous -/

theorem evaluate_continuous (net : Net ℝ) (p q : Nat) (hp : 1 ≤ p) (hq : 1 ≤ q) (hn : p < net.nu) (hm : q < net.nv) :
    ∃ (pt : ℝ × ℝ → H ℝ) (cr : ℝ × ℝ → Fin 3 → ℝ), (∀ z : ℝ × ℝ, 0 < z.1 → z.1 < 1 → 0 < z.2 → z.2 < 1 → evaluate net p q z.1 z.2 = .ok (pt z, cr z)) ∧
      (∀ z : ℝ × ℝ, 0 < z.1 → z.1 < 1 → 0 < z.2 → z.2 < 1 → (∀ i, ContinuousAt (fun z => pt z i) z) ∧ (2 ≤ p → 2 ≤ q → ∀ i, ContinuousAt (fun z => cr z i) z)) := by
  classical
  have spec := fun (z : ℝ × ℝ) (a : 0 < z.1) (b : z.1 < 1) (c : 0 < z.2) (d : z.2 < 1) => evaluate_spec (net := net) (p := p) (q := q) (x := z.1) (y := z.2)
    ⟨hp, hq, hn, hm, a.le, b, c.le, d⟩
  choose d hd h1 h2 h3 h4 using spec
  let D : ℝ × ℝ → Nat → Nat → H ℝ := fun z => if h : 0 < z.1 ∧ z.1 < 1 ∧ 0 < z.2 ∧ z.2 < 1 then d z h.1 h.2.1 h.2.2.1 h.2.2.2 else fun _ _ _ => 0
  have hD : ∀ z a b c e, D z = d z a b c e := fun z a b c e => dif_pos ⟨a, b, c, e⟩
  refine ⟨fun z => pointOf (D z), fun z => crossOf (D z), fun z a b c e => by beta_reduce; rw [hD z a b c e]; exact hd z a b c e, ?_⟩
  intro z a b c e
  have near : ∀ᶠ w : ℝ × ℝ in 𝓝 z, 0 < w.1 ∧ w.1 < 1 ∧ 0 < w.2 ∧ w.2 < 1 := by
    have f1 : Tendsto (fun w : ℝ × ℝ => w.1) (𝓝 z) (𝓝 z.1) := continuous_fst.continuousAt
    have f2 : Tendsto (fun w : ℝ × ℝ => w.2) (𝓝 z) (𝓝 z.2) := continuous_snd.continuousAt
    filter_upwards [f1.eventually (eventually_gt_nhds a), f1.eventually (eventually_lt_nhds b), f2.eventually (eventually_gt_nhds c),
      f2.eventually (eventually_lt_nhds e)] with w w1 w2 w3 w4
    exact ⟨w1, w2, w3, w4⟩
  have mu : Monotone (clampedUniform net.nu p : Nat → ℝ) := fun _ _ h => clamped_mono hn h
  have mv : Monotone (clampedUniform net.nv q : Nat → ℝ) := fun _ _ h => clamped_mono hm h
  have cu : ∀ i, ContinuousAt (fun w : ℝ × ℝ => N (clampedUniform net.nu p) p i w.1) z := fun i => by
    obtain ⟨k, rfl⟩ : ∃ k, p = k + 1 := ⟨p - 1, by omega⟩
    exact (N_continuous mu (clamped_simple hn a b) k i).comp continuous_fst.continuousAt
  have cv : ∀ i, ContinuousAt (fun w : ℝ × ℝ => N (clampedUniform net.nv q) q i w.2) z := fun i => by
    obtain ⟨k, rfl⟩ : ∃ k, q = k + 1 := ⟨q - 1, by omega⟩
    exact (N_continuous mv (clamped_simple hm c e) k i).comp continuous_snd.continuousAt
  have C := closed_continuous z
  refine ⟨?_, ?_⟩
  · have pts : ∀ k : Fin 3, ContinuousAt (fun w => pointOf (D w) k.castSucc) z := by
      intro k
      have : ContinuousAt (fun w : ℝ × ℝ => surface (clampedUniform net.nu p) (clampedUniform net.nv q) p q net.nu net.nv (fun i j => net.at' i j k) w.1 w.2) z := by
        unfold surface
        exact C.sum _ _ fun i _ => C.sum _ _ fun j _ => C.mul _ _ (C.mul _ _ (cu i) (cv j)) (C.const _)
      refine this.congr ?_
      filter_upwards [near] with w hw
      rw [hD w hw.1 hw.2.1 hw.2.2.1 hw.2.2.2, h1]
    intro i
    fin_cases i
    · exact pts 0
    · exact pts 1
    · exact pts 2
    · refine (continuousAt_const (y := (1 : ℝ))).congr ?_
      filter_upwards [near] with w hw
      exact (by rw [hD w hw.1 hw.2.1 hw.2.2.1 hw.2.2.2, h2] : (1 : ℝ) = pointOf (D w) 3)
  · intro hp2 hq2
    have du : ∀ i, ContinuousAt (fun w : ℝ × ℝ => dN (clampedUniform net.nu p) p i w.1) z := fun i => by
      obtain ⟨k, rfl⟩ : ∃ k, p = k + 2 := ⟨p - 2, by omega⟩
      exact (dN_continuous mu (clamped_simple hn a b) k i).comp continuous_fst.continuousAt
    have dv : ∀ i, ContinuousAt (fun w : ℝ × ℝ => dN (clampedUniform net.nv q) q i w.2) z := fun i => by
      obtain ⟨k, rfl⟩ : ∃ k, q = k + 2 := ⟨q - 2, by omega⟩
      exact (dN_continuous mv (clamped_simple hm c e) k i).comp continuous_snd.continuousAt
    have s3 : ∀ k : Fin 3, ContinuousAt (fun w => D w 1 0 k.castSucc) z := by
      intro k
      refine ContinuousAt.congr (f := fun w : ℝ × ℝ => ∑ i ∈ Finset.range net.nu, ∑ j ∈ Finset.range net.nv,
        dN (clampedUniform net.nu p) p i w.1 * N (clampedUniform net.nv q) q j w.2 * net.at' i j k) ?_ ?_
      · exact C.sum _ _ fun i _ => C.sum _ _ fun j _ => C.mul _ _ (C.mul _ _ (du i) (cv j)) (C.const _)
      · filter_upwards [near] with w hw
        rw [hD w hw.1 hw.2.1 hw.2.2.1 hw.2.2.2, h3]
    have s4 : ∀ k : Fin 3, ContinuousAt (fun w => D w 0 1 k.castSucc) z := by
      intro k
      refine ContinuousAt.congr (f := fun w : ℝ × ℝ => ∑ i ∈ Finset.range net.nu, ∑ j ∈ Finset.range net.nv,
        N (clampedUniform net.nu p) p i w.1 * dN (clampedUniform net.nv q) q j w.2 * net.at' i j k) ?_ ?_
      · exact C.sum _ _ fun i _ => C.sum _ _ fun j _ => C.mul _ _ (C.mul _ _ (cu i) (dv j)) (C.const _)
      · filter_upwards [near] with w hw
        rw [hD w hw.1 hw.2.1 hw.2.2.1 hw.2.2.2, h4]
    have cr : ∀ a b c e : Fin 3, ContinuousAt (fun w => D w 1 0 a.castSucc * D w 0 1 b.castSucc - D w 1 0 c.castSucc * D w 0 1 e.castSucc) z := fun a b c e =>
      C.sub _ _ (C.mul _ _ (s3 a) (s4 b)) (C.mul _ _ (s3 c) (s4 e))
    intro i
    fin_cases i
    · exact cr 1 2 2 1
    · exact cr 2 0 0 2
    · exact cr 0 1 1 0

theorem mirror_ok (f : Facet) (p q : Nat) (hp : 1 ≤ p) (hq : 1 ≤ q) (hn : p < f.net.nu) (hm : q < f.net.nv) (x y : ℝ) (x0 : 0 < x) (x1 : x < 1) (y0 : 0 < y) (y1 : y < 1) :
    sampleAt p q true f (x, y) = .ok (mirrorAt p q f x y) := by
  obtain ⟨pt, cr, he, -⟩ := evaluate_continuous f.net p q hp hq hn hm
  unfold mirrorAt sampleAt
  rw [show evaluate f.net p q (x, y).1 (x, y).2 = _ from he (x, y) x0 x1 y0 y1]

theorem mirror_continuous (f : Facet) (p q : Nat) (hp : 1 ≤ p) (hq : 1 ≤ q) (hn : p < f.net.nu) (hm : q < f.net.nv) (z : ℝ × ℝ) (x0 : 0 < z.1) (x1 : z.1 < 1) (y0 : 0 < z.2)
    (y1 : z.2 < 1) : (∀ i, ContinuousAt (fun w : ℝ × ℝ => (mirrorAt p q f w.1 w.2).1 i) z) ∧
      (2 ≤ p → 2 ≤ q → ∀ i, ContinuousAt (fun w : ℝ × ℝ => (mirrorAt p q f w.1 w.2).2 i) z) := by
  obtain ⟨pt, cr, he, hc⟩ := evaluate_continuous f.net p q hp hq hn hm
  have near : ∀ᶠ w : ℝ × ℝ in 𝓝 z, mirrorAt p q f w.1 w.2 = place f (pt w, unitNormal (cr w)) := by
    have f1 : Tendsto (fun w : ℝ × ℝ => w.1) (𝓝 z) (𝓝 z.1) := continuous_fst.continuousAt
    have f2 : Tendsto (fun w : ℝ × ℝ => w.2) (𝓝 z) (𝓝 z.2) := continuous_snd.continuousAt
    filter_upwards [f1.eventually (eventually_gt_nhds x0), f1.eventually (eventually_lt_nhds x1), f2.eventually (eventually_gt_nhds y0),
      f2.eventually (eventually_lt_nhds y1)] with w w1 w2 w3 w4
    unfold mirrorAt sampleAt
    rw [show evaluate f.net p q (w.1, w.2).1 (w.1, w.2).2 = _ from he w w1 w2 w3 w4]
    rfl
  obtain ⟨h1, h2⟩ := hc z x0 x1 y0 y1
  have C := closed_continuous z
  refine ⟨fun i => ?_, fun hp2 hq2 i => ?_⟩
  · refine ContinuousAt.congr (f := fun w => performCanting f.cantE f.cantN (pt w) false i + f.translation i) ?_ ?_
    · exact C.add _ _ (SurfaceImage.canting_closed C _ _ _ h1 i) (C.const _)
    · filter_upwards [near] with w hw
      rw [hw]; rfl
  · refine ContinuousAt.congr (f := fun w => performCanting f.cantE f.cantN (unitNormal (cr w)) false i) ?_ ?_
    · exact SurfaceImage.canting_closed C _ _ _ (SurfaceImage.unitNormal_continuous z cr (h2 hp2 hq2)) i
    · filter_upwards [near] with w hw
      rw [hw]; rfl

/-! ### Means over a grid tend to integrals -/

theorem linspace_cell {a b : ℝ} (hab : a ≤ b) {n i : Nat} (hi : i < n) :
    a + i * ((b - a) / n) ≤ linspace a b n i ∧ linspace a b n i ≤ a + (i + 1 : ℕ) * ((b - a) / n) := by
  have hn : (0 : ℝ) < n := by exact_mod_cast (by omega : 0 < n)
  unfold linspace
  rcases Nat.eq_or_lt_of_le (show 1 ≤ n by omega) with h | h
  · subst h
    obtain rfl : i = 0 := by omega
    simp
    exact hab
  · have c : ((n - 1 : ℕ) : ℝ) = n - 1 := by rw [Nat.cast_sub (by omega)]; simp
    have hn1 : (0 : ℝ) < (n : ℝ) - 1 := by
      have : (1 : ℝ) < n := by exact_mod_cast h
      linarith
    have hi' : (i : ℝ) + 1 ≤ n := by exact_mod_cast hi
    have i0 : (0 : ℝ) ≤ i := Nat.cast_nonneg i
    have hd : 0 ≤ b - a := by linarith
    rw [c]
    constructor
    · have : (i : ℝ) * ((b - a) / n) ≤ (b - a) * i / (n - 1) := by
        rw [mul_div_assoc', div_le_div_iff₀ hn hn1]
        nlinarith [mul_nonneg i0 hd]
      linarith
    · have : (b - a) * i / (n - 1) ≤ ((i + 1 : ℕ) : ℝ) * ((b - a) / n) := by
        rw [mul_div_assoc', div_le_div_iff₀ hn1 hn]
        push_cast
        nlinarith [mul_nonneg hd (by linarith : (0 : ℝ) ≤ n - (i + 1))]
      linarith

theorem mean_line {a b : ℝ} (hab : a < b) (f : ℝ → ℝ) (hf : Continuous f) (n : Nat) (hn : 0 < n) (ω : ℝ)
    (hω : ∀ s ∈ Set.Icc a b, ∀ t ∈ Set.Icc a b, |s - t| ≤ (b - a) / n → |f s - f t| ≤ ω) :
    |((List.range n).map fun i => f (linspace a b n i)).sum / n - (∫ x in a..b, f x) / (b - a)| ≤ ω := by
  have hn' : (0 : ℝ) < n := by exact_mod_cast hn
  have hd : 0 < b - a := by linarith
  set h := (b - a) / n with hh
  have h0 : 0 < h := div_pos hd hn'
  have nh : (n : ℝ) * h = b - a := by rw [hh]; field_simp
  have split : ∑ i ∈ Finset.range n, ∫ x in (a + i * h)..(a + (i + 1 : ℕ) * h), f x = ∫ x in a..b, f x := by
    have := intervalIntegral.sum_integral_adjacent_intervals (f := f) (μ := volume) (a := fun i : ℕ => a + i * h) (n := n)
      (fun k _ => hf.intervalIntegrable _ _)
    rw [this]
    congr 1
    · simp
    · rw [nh]; ring
  have cell : ∀ i ∈ Finset.range n, |h * f (linspace a b n i) - ∫ x in (a + i * h)..(a + (i + 1 : ℕ) * h), f x| ≤ ω * h := by
    intro i hi
    have hi := Finset.mem_range.1 hi
    obtain ⟨c1, c2⟩ := linspace_cell hab.le hi
    rw [← hh] at c1 c2
    have w : a + ((i + 1 : ℕ) : ℝ) * h - (a + i * h) = h := by push_cast; ring
    have e : h * f (linspace a b n i) - ∫ x in (a + i * h)..(a + (i + 1 : ℕ) * h), f x =
        ∫ x in (a + i * h)..(a + (i + 1 : ℕ) * h), (f (linspace a b n i) - f x) := by
      rw [intervalIntegral.integral_sub intervalIntegrable_const (hf.intervalIntegrable _ _), intervalIntegral.integral_const, w, smul_eq_mul]
    rw [e]
    have lo : 0 ≤ (i : ℝ) * h := mul_nonneg (Nat.cast_nonneg _) h0.le
    have hi2 : (i : ℝ) + 1 ≤ n := by exact_mod_cast hi
    have up : a + ((i + 1 : ℕ) : ℝ) * h ≤ b := by
      have : ((i + 1 : ℕ) : ℝ) * h ≤ n * h := mul_le_mul_of_nonneg_right (by push_cast; exact hi2) h0.le
      linarith
    have := intervalIntegral.norm_integral_le_of_norm_le_const (a := a + i * h) (b := a + (i + 1 : ℕ) * h) (f := fun x => f (linspace a b n i) - f x) (C := ω) (by
      intro x hx
      rw [Set.uIoc_of_le (by linarith)] at hx
      rw [Real.norm_eq_abs]
      refine hω _ ⟨by linarith, by linarith⟩ _ ⟨by linarith [hx.1], by linarith [hx.2]⟩ ?_
      rw [abs_le]
      constructor <;> linarith [hx.1, hx.2])
    rw [Real.norm_eq_abs, w, abs_of_pos h0] at this
    exact this
  have total : |h * ∑ i ∈ Finset.range n, f (linspace a b n i) - ∫ x in a..b, f x| ≤ ω * (b - a) := by
    rw [← split, Finset.mul_sum, ← Finset.sum_sub_distrib]
    refine (Finset.abs_sum_le_sum_abs _ _).trans ((Finset.sum_le_sum cell).trans ?_)
    rw [Finset.sum_const, Finset.card_range, nsmul_eq_mul, ← nh]
    exact le_of_eq (by ring)
  have ls : ((List.range n).map fun i => f (linspace a b n i)).sum = ∑ i ∈ Finset.range n, f (linspace a b n i) := by
    rw [Finset.sum_range, ← List.sum_ofFn]
    congr 1
    apply List.ext_getElem <;> simp
  rw [ls]
  have e : (∑ i ∈ Finset.range n, f (linspace a b n i)) / n - (∫ x in a..b, f x) / (b - a) =
      (h * ∑ i ∈ Finset.range n, f (linspace a b n i) - ∫ x in a..b, f x) / (b - a) := by
    rw [hh]; field_simp
  rw [e, abs_div, abs_of_pos hd, div_le_iff₀ hd]
  exact total

theorem grid_sum (g : ℝ × ℝ → ℝ) (ne nn : Nat) (eps : ℝ) : ((evaluationGrid ne nn eps).map g).sum =
    ((List.range ne).map fun i => ((List.range nn).map fun j => g (linspace eps (1 - eps) ne i, linspace eps (1 - eps) nn j)).sum).sum := by
  unfold evaluationGrid
  rw [List.map_flatMap, List.flatMap_def, List.sum_flatten, List.map_map, List.map_map]
  congr 1
  apply List.map_congr_left
  intro i _
  simp only [Function.comp, List.map_map]
  rfl

theorem mean_square {eps : ℝ} (he : eps < 1 - eps) (F : ℝ × ℝ → ℝ) (hF : ContinuousOn F (Set.Icc eps (1 - eps) ×ˢ Set.Icc eps (1 - eps))) (ne nn : ℕ → ℕ)
    (h1 : Tendsto ne atTop atTop) (h2 : Tendsto nn atTop atTop) :
    Tendsto (fun k => ((evaluationGrid (ne k) (nn k) eps).map F).sum / ((ne k : ℝ) * nn k)) atTop
      (𝓝 ((∫ x in eps..1 - eps, ∫ y in eps..1 - eps, F (x, y)) / (1 - 2 * eps) ^ 2)) := by
  -- a continuous function on the whole plane with the same values
  let G : ℝ × ℝ → ℝ := fun z => F (Set.projIcc eps (1 - eps) he.le z.1, Set.projIcc eps (1 - eps) he.le z.2)
  have hG : Continuous G := by
    refine hF.comp_continuous (f := fun z : ℝ × ℝ => ((Set.projIcc eps (1 - eps) he.le z.1 : ℝ), (Set.projIcc eps (1 - eps) he.le z.2 : ℝ))) ?_ ?_
    · exact (continuous_subtype_val.comp (continuous_projIcc.comp continuous_fst)).prodMk (continuous_subtype_val.comp (continuous_projIcc.comp continuous_snd))
    · exact fun z => ⟨Subtype.prop _, Subtype.prop _⟩
  have same : ∀ x ∈ Set.Icc eps (1 - eps), ∀ y ∈ Set.Icc eps (1 - eps), G (x, y) = F (x, y) := by
    intro x hx y hy
    show F _ = F _
    rw [Set.projIcc_of_mem _ hx, Set.projIcc_of_mem _ hy]
  have onGrid : ∀ n i, i < n → linspace eps (1 - eps) n i ∈ Set.Icc eps (1 - eps) := by
    intro n i hi
    obtain ⟨a, b⟩ := linspace_cell he.le hi
    have hn : (0 : ℝ) < n := by exact_mod_cast (by omega : 0 < n)
    have hd : 0 ≤ (1 - eps - eps) / n := div_nonneg (by linarith) hn.le
    refine ⟨?_, ?_⟩
    · have := mul_nonneg (Nat.cast_nonneg (α := ℝ) i) hd
      linarith
    · have : ((i + 1 : ℕ) : ℝ) * ((1 - eps - eps) / n) ≤ n * ((1 - eps - eps) / n) := mul_le_mul_of_nonneg_right (by exact_mod_cast hi) hd
      rw [mul_div_cancel₀ _ hn.ne'] at this
      linarith
  have eS : ∀ a b, ((evaluationGrid a b eps).map F).sum = ((evaluationGrid a b eps).map G).sum := by
    intro a b
    rw [grid_sum, grid_sum]
    congr 1
    refine List.map_congr_left fun i hi => ?_
    congr 1
    refine List.map_congr_left fun j hj => ?_
    exact (same _ (onGrid a i (List.mem_range.1 hi)) _ (onGrid b j (List.mem_range.1 hj))).symm
  have eI : (∫ x in eps..1 - eps, ∫ y in eps..1 - eps, F (x, y)) = ∫ x in eps..1 - eps, ∫ y in eps..1 - eps, G (x, y) := by
    refine intervalIntegral.integral_congr fun x hx => ?_
    rw [Set.uIcc_of_le he.le] at hx
    refine intervalIntegral.integral_congr fun y hy => ?_
    rw [Set.uIcc_of_le he.le] at hy
    exact (same x hx y hy).symm
  simp only [eS]
  rw [eI]
  -- the inner integral
  let I : ℝ → ℝ := fun x => ∫ y in eps..1 - eps, G (x, y)
  have hI : Continuous I := intervalIntegral.continuous_parametric_intervalIntegral_of_continuous' (f := fun x y => G (x, y)) hG _ _
  have hd : 0 < 1 - eps - eps := by linarith
  have uc : UniformContinuousOn G (Set.Icc eps (1 - eps) ×ˢ Set.Icc eps (1 - eps)) :=
    (isCompact_Icc.prod isCompact_Icc).uniformContinuousOn_of_continuous hG.continuousOn
  rw [Metric.uniformContinuousOn_iff] at uc
  rw [Metric.tendsto_atTop]
  intro ε hε
  obtain ⟨δ, hδ, hu⟩ := uc (ε / 4) (by linarith)
  have small : ∀ n : ℕ → ℕ, Tendsto n atTop atTop → ∀ᶠ k in atTop, 0 < n k ∧ (1 - eps - eps) / n k < δ := by
    intro n hn
    have : Tendsto (fun k => (1 - eps - eps) / (n k : ℝ)) atTop (𝓝 0) := tendsto_const_nhds.div_atTop (tendsto_natCast_atTop_atTop.comp hn)
    filter_upwards [hn.eventually (eventually_gt_atTop 0), this.eventually (eventually_lt_nhds hδ)] with k a b
    exact ⟨a, b⟩
  obtain ⟨K, hK⟩ := (eventually_atTop.1 ((small ne h1).and (small nn h2)))
  refine ⟨K, fun k hk => ?_⟩
  obtain ⟨⟨n1, m1⟩, n2, m2⟩ := hK k hk
  have mod : ∀ x ∈ Set.Icc eps (1 - eps), ∀ y ∈ Set.Icc eps (1 - eps), ∀ x' ∈ Set.Icc eps (1 - eps), ∀ y' ∈ Set.Icc eps (1 - eps),
      |x - x'| < δ → |y - y'| < δ → |G (x, y) - G (x', y')| ≤ ε / 4 := by
    intro x hx y hy x' hx' y' hy' a b
    have := hu (x, y) ⟨hx, hy⟩ (x', y') ⟨hx', hy'⟩ (by rw [Prod.dist_eq, Real.dist_eq, Real.dist_eq]; exact max_lt a b)
    rw [Real.dist_eq] at this
    exact this.le
  -- inner sums
  have inner : ∀ x ∈ Set.Icc eps (1 - eps), |((List.range (nn k)).map fun j => G (x, linspace eps (1 - eps) (nn k) j)).sum / nn k - I x / (1 - eps - eps)| ≤ ε / 4 := by
    intro x hx
    refine mean_line he (fun y => G (x, y)) (by fun_prop) (nn k) n2 _ fun s hs t ht hst => ?_
    exact mod x hx s hs x hx t ht (by simpa using hδ) (hst.trans_lt m2)
  have outer : |((List.range (ne k)).map fun i => I (linspace eps (1 - eps) (ne k) i)).sum / ne k - (∫ x in eps..1 - eps, I x) / (1 - eps - eps)| ≤
      ε / 4 * (1 - eps - eps) := by
    refine mean_line he I hI (ne k) n1 _ fun s hs t ht hst => ?_
    have e : I s - I t = ∫ y in eps..1 - eps, (G (s, y) - G (t, y)) := by
      rw [intervalIntegral.integral_sub] <;> exact Continuous.intervalIntegrable (by fun_prop) _ _
    rw [e]
    have := intervalIntegral.norm_integral_le_of_norm_le_const (a := eps) (b := 1 - eps) (f := fun y => G (s, y) - G (t, y)) (C := ε / 4) (by
      intro y hy
      rw [Set.uIoc_of_le he.le] at hy
      rw [Real.norm_eq_abs]
      exact mod s hs y ⟨hy.1.le, hy.2⟩ t ht y ⟨hy.1.le, hy.2⟩ (hst.trans_lt m1) (by simpa using hδ))
    rw [Real.norm_eq_abs, abs_of_pos hd] at this
    exact this
  have k1 : (0 : ℝ) < ne k := by exact_mod_cast n1
  have k2 : (0 : ℝ) < nn k := by exact_mod_cast n2
  have ls : ∀ (n : Nat) (f : Nat → ℝ), ((List.range n).map f).sum = ∑ i ∈ Finset.range n, f i := by
    intro n f
    rw [Finset.sum_range, ← List.sum_ofFn]
    congr 1
    apply List.ext_getElem <;> simp
  rw [Real.dist_eq, grid_sum]
  have first : |((List.range (ne k)).map fun i => ((List.range (nn k)).map fun j => G (linspace eps (1 - eps) (ne k) i, linspace eps (1 - eps) (nn k) j)).sum).sum /
      ((ne k : ℝ) * nn k) - ((List.range (ne k)).map fun i => I (linspace eps (1 - eps) (ne k) i)).sum / ne k / (1 - eps - eps)| ≤ ε / 4 := by
    have e : ((List.range (ne k)).map fun i => ((List.range (nn k)).map fun j => G (linspace eps (1 - eps) (ne k) i, linspace eps (1 - eps) (nn k) j)).sum).sum /
        ((ne k : ℝ) * nn k) - ((List.range (ne k)).map fun i => I (linspace eps (1 - eps) (ne k) i)).sum / ne k / (1 - eps - eps) =
        (∑ i ∈ Finset.range (ne k), (((List.range (nn k)).map fun j => G (linspace eps (1 - eps) (ne k) i, linspace eps (1 - eps) (nn k) j)).sum / nn k -
          I (linspace eps (1 - eps) (ne k) i) / (1 - eps - eps))) / ne k := by
      rw [ls (ne k), ls (ne k), Finset.sum_sub_distrib, ← Finset.sum_div, ← Finset.sum_div]
      field_simp
    rw [e, abs_div, abs_of_pos k1, div_le_iff₀ k1]
    refine (Finset.abs_sum_le_sum_abs _ _).trans ((Finset.sum_le_sum fun i hi => inner _ (onGrid _ i (Finset.mem_range.1 hi))).trans ?_)
    rw [Finset.sum_const, Finset.card_range, nsmul_eq_mul]
    exact le_of_eq (by ring)
  have second : |((List.range (ne k)).map fun i => I (linspace eps (1 - eps) (ne k) i)).sum / ne k / (1 - eps - eps) -
      (∫ x in eps..1 - eps, I x) / (1 - 2 * eps) ^ 2| ≤ ε / 4 := by
    have e : ((List.range (ne k)).map fun i => I (linspace eps (1 - eps) (ne k) i)).sum / ne k / (1 - eps - eps) - (∫ x in eps..1 - eps, I x) / (1 - 2 * eps) ^ 2 =
        (((List.range (ne k)).map fun i => I (linspace eps (1 - eps) (ne k) i)).sum / ne k - (∫ x in eps..1 - eps, I x) / (1 - eps - eps)) / (1 - eps - eps) := by
      rw [show 1 - 2 * eps = 1 - eps - eps by ring, sub_div, div_div (∫ x in eps..1 - eps, I x), sq]
    rw [e, abs_div, abs_of_pos hd, div_le_iff₀ hd]
    exact outer
  rw [abs_le] at first second
  rw [abs_lt]
  constructor <;> linarith [first.1, first.2, second.1, second.2]

/-! ### What rays bring to a pixel -/
open Intersect Flux Splat Resolution Moved

theorem brings_eq {W H : Nat} (hW : 2 ≤ W) (hH : 2 ≤ H) (m ext refl : ℝ) (t : Plane ℝ) (hw : 0 < t.width) (hh : 0 < t.height) {r c : Nat} (hr : r < H) (hc : c < W) (ray : V3 ℝ × V3 ℝ) :
    contrib W H (H - 1 - r) c (hitOf W H m ext refl (.planar t) (fun _ => 0) ray) = brings W H m ext refl t r c ray := by
  rw [contrib_planar m ext refl t (by omega) _ _ _ hc]
  have iff := (inside_iff_lands W H hW hH m ext refl t hw hh (fun _ => 0) ray).1
  unfold brings
  by_cases hl : Lands t ray
  · obtain ⟨-, h1, h2, h3, -, -⟩ := landing W H hW hH m ext refl t hw hh (fun _ => 0) ray hl
    rw [if_pos (iff.2 hl), h1, h2]
    have cast : ((H - 1 - r : ℕ) : ℝ) = (H : ℝ) - 1 - r := by rw [Nat.cast_sub (by omega), Nat.cast_sub (by omega)]; simp
    rw [cast, ← h3]
    congr 2
    unfold tent
    rw [← abs_neg]
    congr 3
    ring
  · rw [if_neg fun h => hl (iff.1 h)]
    unfold arriving
    rw [if_neg hl, zero_mul]

theorem pixel_brings {W H : Nat} (hW : 2 ≤ W) (hH : 2 ≤ H) (m ext refl : ℝ) (t : Plane ℝ) (hw : 0 < t.width) (hh : 0 < t.height) {r c : Nat} (hr : r < H) (hc : c < W)
    (rays : List (V3 ℝ × V3 ℝ)) (bitmap : List (List ℝ)) (factors : ℝ × ℝ × ℝ)
    (htr : traceSample W H m ext refl (.planar t) (fun _ => 0) rays = .ok (bitmap, factors)) :
    pixel bitmap r c = (rays.map (brings W H m ext refl t r c)).sum := by
  unfold traceSample at htr
  obtain ⟨img, h1, -, -, h2⟩ := splat_spec W H (by omega) (by omega) (rays.map (hitOf W H m ext refl (.planar t) fun _ => 0))
  simp only [h1, Except.ok.injEq, Prod.mk.injEq] at htr
  have := h2 (H - 1 - r) c (by omega) hc
  rw [show H - 1 - (H - 1 - r) = r by omega, List.map_map] at this
  rw [← htr.1, this]
  congr 1
  exact List.map_congr_left fun ray _ => brings_eq hW hH m ext refl t hw hh hr hc ray

theorem brings_scale (W H : Nat) (m ext refl : ℝ) (t : Plane ℝ) (r c : Nat) (k : ℝ) (ray : V3 ℝ × V3 ℝ) :
    brings W H (m / k) ext refl t r c ray = brings W H m ext refl t r c ray / k := by
  unfold brings arriving
  split_ifs <;> ring

theorem ray_from_continuous (incident : Fin 4 → ℝ) (M : Mat) (d : ℝ × ℝ) (s : ℝ × ℝ → Sample) (z : ℝ × ℝ) (h1 : ∀ i, ContinuousAt (fun w => (s w).1 i) z)
    (h2 : ∀ i, ContinuousAt (fun w => (s w).2 i) z) :
    ((ContinuousAt (fun w => (rayFrom incident M d (s w)).1.e) z) ∧ (ContinuousAt (fun w => (rayFrom incident M d (s w)).1.n) z) ∧
      ContinuousAt (fun w => (rayFrom incident M d (s w)).1.u) z) ∧
    ((ContinuousAt (fun w => (rayFrom incident M d (s w)).2.e) z) ∧ (ContinuousAt (fun w => (rayFrom incident M d (s w)).2.n) z) ∧
      ContinuousAt (fun w => (rayFrom incident M d (s w)).2.u) z) := by
  have C := closed_continuous z
  have o : ∀ i j, ContinuousAt (fun _ : ℝ × ℝ => M i j) z := fun i j => continuousAt_const
  have hp := C.mulVec (fun _ => M) _ o h1
  have hn := C.mulVec (fun _ => M) _ o h2
  have hd : ∀ i, ContinuousAt (fun w => (reflect incident (M.mulVec (s w).2)) i) z := by
    intro i
    unfold reflect
    simp only [Pi.sub_apply, Pi.smul_apply, smul_eq_mul, dotProduct, Fin.sum_univ_four]
    refine C.sub _ _ (C.const _) (C.mul _ _ (C.mul _ _ (C.const 2) ?_) (hn i))
    exact C.add _ _ (C.add _ _ (C.add _ _ (C.mul _ _ (C.const _) (hn _)) (C.mul _ _ (C.const _) (hn _))) (C.mul _ _ (C.const _) (hn _))) (C.mul _ _ (C.const _) (hn _))
  have hv := C.mulVec (fun _ => rotDist d.1 d.2) _ (fun _ _ => C.const _) hd
  exact ⟨⟨hp 0, hp 1, hp 2⟩, ⟨hv 0, hv 1, hv 2⟩⟩

/-- the rays, scattering by scattering and point by point -/
theorem rays_from (incident : Fin 4 → ℝ) (M : Mat) (ds : List (ℝ × ℝ)) (mirror : List Sample) :
    raysOf incident (placed M mirror) (ds.map (List.replicate mirror.length)) = ds.flatMap fun d => mirror.map (rayFrom incident M d) := by
  unfold raysOf placed
  rw [List.flatMap_map]
  congr 1
  funext d
  rw [List.zipWith_map_left]
  induction mirror with
  | nil => rfl
  | cons a l ih =>
    rw [List.length_cons, List.replicate_succ, List.zipWith_cons_cons, List.map_cons, ih]
    rfl

theorem grid_mem {ne nn : Nat} {eps : ℝ} (he : eps < 1 - eps) {z : ℝ × ℝ} (hz : z ∈ evaluationGrid ne nn eps) : z.1 ∈ Set.Icc eps (1 - eps) ∧ z.2 ∈ Set.Icc eps (1 - eps) := by
  have onGrid : ∀ n i, i < n → linspace eps (1 - eps) n i ∈ Set.Icc eps (1 - eps) := by
    intro n i hi
    obtain ⟨a, b⟩ := linspace_cell he.le hi
    have hn : (0 : ℝ) < n := by exact_mod_cast (by omega : 0 < n)
    have hd : 0 ≤ (1 - eps - eps) / n := div_nonneg (by linarith) hn.le
    refine ⟨?_, ?_⟩
    · have := mul_nonneg (Nat.cast_nonneg (α := ℝ) i) hd
      linarith
    · have : ((i + 1 : ℕ) : ℝ) * ((1 - eps - eps) / n) ≤ n * ((1 - eps - eps) / n) := mul_le_mul_of_nonneg_right (by exact_mod_cast hi) hd
      rw [mul_div_cancel₀ _ hn.ne'] at this
      linarith
  unfold evaluationGrid at hz
  obtain ⟨a, ha, hz⟩ := List.mem_flatMap.1 hz
  obtain ⟨b, hb, rfl⟩ := List.mem_map.1 hz
  obtain ⟨i, hi, rfl⟩ := List.mem_map.1 ha
  obtain ⟨j, hj, rfl⟩ := List.mem_map.1 hb
  exact ⟨onGrid _ _ (List.mem_range.1 hi), onGrid _ _ (List.mem_range.1 hj)⟩

theorem grid_length (ne nn : Nat) (eps : ℝ) : (evaluationGrid ne nn eps).length = ne * nn := by
  unfold evaluationGrid
  simp only [List.length_flatMap, List.length_map, List.length_range, List.map_const', List.sum_replicate, smul_eq_mul]

theorem gridEps_pos : 0 < gridEps ∧ gridEps < 1 - gridEps := by unfold gridEps; constructor <;> norm_num

/-- the samples of a mirror -/
theorem sample_all (p q : Nat) (hp : 1 ≤ p) (hq : 1 ≤ q) (facets : List Facet) (hs : ∀ f ∈ facets, p < f.net.nu ∧ q < f.net.nv) (ne nn : Nat) :
    sampleAll p q true (evaluationGrid ne nn gridEps) facets = .ok (facets.flatMap fun f => (evaluationGrid ne nn gridEps).map fun z => mirrorAt p q f z.1 z.2) := by
  unfold sampleAll
  rw [SurfaceImage.mapM_ok (h := fun a : Facet × (ℝ × ℝ) => mirrorAt p q a.1 a.2.1 a.2.2) _ ?_]
  · rw [List.map_flatMap]
    congr 2
    funext f
    rw [List.map_map]
    rfl
  · intro a ha
    obtain ⟨f, hf, ha⟩ := List.mem_flatMap.1 ha
    obtain ⟨z, hz, rfl⟩ := List.mem_map.1 ha
    obtain ⟨e0, -⟩ := gridEps_pos
    obtain ⟨⟨a1, a2⟩, b1, b2⟩ := grid_mem gridEps_pos.2 hz
    exact mirror_ok f p q hp hq (hs f hf).1 (hs f hf).2 z.1 z.2 (by linarith) (by linarith) (by linarith) (by linarith)

theorem tendsto_list_sum' {α : Type} (f : α → ℕ → ℝ) (g : α → ℝ) : ∀ l : List α, (∀ a ∈ l, Tendsto (f a) atTop (𝓝 (g a))) →
    Tendsto (fun k => (l.map fun a => f a k).sum) atTop (𝓝 (l.map g).sum)
  | [], _ => by simp
  | a :: l, h => by
    simp only [List.map_cons, List.sum_cons]
    exact (h a List.mem_cons_self).add (tendsto_list_sum' f g l fun b hb => h b (List.mem_cons_of_mem _ hb))

theorem sum_div_list {α : Type} (f : α → ℝ) (k : ℝ) : ∀ l : List α, (l.map fun a => f a / k).sum = (l.map f).sum / k
  | [] => by simp
  | a :: l => by simp only [List.map_cons, List.sum_cons, sum_div_list f k l, add_div]

theorem sum_flat {α β : Type} (f : α → List β) (g : β → ℝ) : ∀ l : List α, ((l.flatMap f).map g).sum = (l.map fun a => ((f a).map g).sum).sum
  | [] => rfl
  | a :: l => by rw [List.flatMap_cons, List.map_append, List.sum_append, sum_flat f g l, List.map_cons, List.sum_cons]

end Artist.FineMirror
