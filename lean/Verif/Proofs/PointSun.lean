import Verif.Spec.PointSun
import Verif.Proofs.ManyRays
import Verif.Proofs.CylinderImage
import Verif.Proofs.MotorImage
import Mathlib.Probability.Distributions.Gaussian.Real
/-! Helper lemmas for C125. -/
namespace Artist.PointSun
open Artist Intersect Flux Splat ManyRays Transforms MeasureTheory ProbabilityTheory Filter Topology

theorem direction_continuous (incident normal : Fin 4 → ℝ) :
    (Continuous fun d : ℝ × ℝ => (direction incident normal d.1 d.2).e) ∧ (Continuous fun d : ℝ × ℝ => (direction incident normal d.1 d.2).n) ∧
      Continuous fun d : ℝ × ℝ => (direction incident normal d.1 d.2).u := by
  unfold direction rotDist
  refine ⟨?_, ?_, ?_⟩ <;>
  · simp only [Matrix.mulVec, dotProduct, Fin.sum_univ_four]
    simp
    fun_prop

theorem planar_continuous (W H : Nat) (hW : 2 ≤ W) (hH : 2 ≤ H) (extinction reflectivity : ℝ) (t : Plane ℝ) (hw : 0 < t.width) (hh : 0 < t.height) (blocked : V3 ℝ × V3 ℝ → ℝ)
    (o : V3 ℝ) (incident normal : Fin 4 → ℝ) (hb : ContinuousAt (fun d : ℝ × ℝ => blocked (o, direction incident normal d.1 d.2)) (0, 0))
    (he : ¬ MotorImage.HitsEdge t (o, direction incident normal 0 0)) (r c : Nat) (hc : c < W) :
    ContinuousAt (fun d : ℝ × ℝ => contrib W H r c (hitOf W H 1 extinction reflectivity (.planar t) blocked (o, direction incident normal d.1 d.2))) (0, 0) := by
  obtain ⟨c1, c2, c3⟩ := direction_continuous incident normal
  exact MotorImage.ray_continuous 1 extinction reflectivity t hw hh hW hH (fun _ => blocked) r c hc (fun d : ℝ × ℝ => (o, direction incident normal d.1 d.2)) (0, 0) he hb
    continuousAt_const continuousAt_const continuousAt_const c1.continuousAt c2.continuousAt c3.continuousAt

theorem cylinder_continuous (W H : Nat) (hW : 2 ≤ W) (hH : 2 ≤ H) (extinction reflectivity : ℝ) (cyl : Cylinder) (hf : cyl.Framed) (hr : 0 < cyl.radius) (hh : 0 < cyl.height)
    (ho : 0 < cyl.opening) (blocked : V3 ℝ × V3 ℝ → ℝ)
    (o : V3 ℝ) (incident normal : Fin 4 → ℝ) (hb : ContinuousAt (fun d : ℝ × ℝ => blocked (o, direction incident normal d.1 d.2)) (0, 0))
    (he : CylinderImage.Clear cyl (o, direction incident normal 0 0)) (r c : Nat) (hc : c < W) :
    ContinuousAt (fun d : ℝ × ℝ => contrib W H r c (hitOf W H 1 extinction reflectivity (.cylinder cyl) blocked (o, direction incident normal d.1 d.2))) (0, 0) := by
  obtain ⟨c1, c2, c3⟩ := direction_continuous incident normal
  have := CylinderImage.fine_ray (W := W) (H := H) 1 extinction reflectivity cyl (CylinderImage.rich_continuous ((0, 0) : ℝ × ℝ)) hf hr hh ho hW hH
    (fun d : ℝ × ℝ => (o, direction incident normal d.1 d.2)) (fun _ => blocked) ⟨continuousAt_const, continuousAt_const, continuousAt_const⟩
    ⟨c1.continuousAt, c2.continuousAt, c3.continuousAt⟩ hb he
  exact CylinderImage.contrib_fine this r c hc

/-- What a ray brings is continuous in its distortions at zero. -/
theorem unit_continuous (s : Scene) (hs : s.Regular) (he : NoEdge s) (r c : Nat) (hc : c < s.W) (j : Fin s.points) :
    ContinuousAt (fun d : ℝ × ℝ => unit s r c (ray s j d)) (0, 0) := by
  have key := he (s.surface.get j) (List.get_mem _ _)
  have ht := hs.target
  unfold unit ray
  generalize s.surface.get j = q at *
  unfold rayWith at key
  rcases ht' : s.target with t | cyl
  · rw [ht'] at ht key
    exact planar_continuous s.W s.H hs.width hs.height _ _ t ht.1 ht.2.1 s.blocked q.1 s.incident q.2 key.1 key.2 _ c hc
  · rw [ht'] at ht key
    exact cylinder_continuous s.W s.H hs.width hs.height _ _ cyl ht.1 key.2.1 ht.2.1 ht.2.2 s.blocked q.1 s.incident q.2 key.1 key.2.2 _ c hc

theorem one_continuous (s : Scene) (hs : s.Regular) (he : NoEdge s) (r c : Nat) (hr : r < s.H) (hc : c < s.W) : ContinuousAt (one s r c) (fun _ => (0, 0)) := by
  have hW : 0 < s.W := by have := hs.width; omega
  have hH : 0 < s.H := by have := hs.height; omega
  have e : one s r c = fun x : Fin s.points → ℝ × ℝ => rayMagnitude (some s.dni) s.cantE s.cantN s.points 1 * ∑ j, unit s r c (ray s j (x j)) := by
    funext x
    unfold one
    rw [image_sum s hW hH r c hr hc, Finset.range_one, Finset.sum_singleton]
  rw [e]
  refine continuousAt_const.mul (tendsto_finset_sum _ fun j _ => ?_)
  have h := unit_continuous s hs he r c hc j
  exact h.comp_of_eq (f := fun x : Fin s.points → ℝ × ℝ => x j) (continuous_apply j).continuousAt rfl

variable {Ω : Type} [MeasurableSpace Ω] {μ : Measure Ω} [IsProbabilityMeasure μ]

/-- a bounded function that is continuous at zero, averaged over rows of small distortions -/
theorem average_near {n : Nat} (f : (Fin n → ℝ × ℝ) → ℝ) (hf : Measurable f) (B : ℝ) (hB : ∀ x, 0 ≤ f x ∧ f x ≤ B) (hc : ContinuousAt f fun _ => (0, 0))
    (D : Nat → Nat → Ω → Fin n → ℝ × ℝ) (hD : ∀ k i j, AEMeasurable (fun ω => D k i ω j) μ) (hn : Narrowing μ n D) (ε : ℝ) (hε : 0 < ε) :
    ∀ᶠ k in atTop, ∀ i, ∫ ω, |f (D k i ω) - f fun _ => (0, 0)| ∂μ ≤ ε := by
  have B0 : 0 ≤ B := (hB fun _ => (0, 0)).1.trans (hB fun _ => (0, 0)).2
  obtain ⟨δ, hδ, hfδ⟩ := Metric.continuousAt_iff.1 hc (ε / 2) (by linarith)
  have hη : 0 < ε / (2 * ((n + 1) * (B + 1))) := by positivity
  filter_upwards [hn δ hδ _ hη] with k hk i
  have meas : AEMeasurable (fun ω => D k i ω) μ := aemeasurable_pi_lambda _ fun j => hD k i j
  -- large distortions
  let S : Fin n → Set Ω := fun j => {ω | δ ≤ |(D k i ω j).1| ∨ δ ≤ |(D k i ω j).2|}
  have hS : ∀ j, NullMeasurableSet (S j) μ := by
    intro j
    have : MeasurableSet {x : ℝ × ℝ | δ ≤ |x.1| ∨ δ ≤ |x.2|} :=
      (measurableSet_le measurable_const (measurable_fst.abs)).union (measurableSet_le measurable_const (measurable_snd.abs))
    exact (hD k i j).nullMeasurableSet_preimage this
  have point : ∀ ω, |f (D k i ω) - f fun _ => (0, 0)| ≤ ε / 2 + ∑ j, (S j).indicator (fun _ => B) ω := by
    intro ω
    have nn : ∀ j, 0 ≤ (S j).indicator (fun _ => B) ω := fun j => Set.indicator_nonneg (fun _ _ => B0) ω
    by_cases h : ∃ j, ω ∈ S j
    · obtain ⟨j, hj⟩ := h
      have h1 : B ≤ ∑ j, (S j).indicator (fun _ => B) ω := by
        have := Finset.single_le_sum (f := fun j => (S j).indicator (fun _ => B) ω) (fun j _ => nn j) (Finset.mem_univ j)
        simp only [Set.indicator_of_mem hj] at this
        exact this
      have h2 : |f (D k i ω) - f fun _ => (0, 0)| ≤ B := by
        rw [abs_le]
        have a := hB (D k i ω)
        have b := hB fun _ => (0, 0)
        constructor <;> linarith
      linarith
    · push Not at h
      have hd : dist (D k i ω) (fun _ => (0, 0)) < δ := by
        rw [dist_pi_lt_iff hδ]
        intro j
        have := h j
        simp only [S, Set.mem_setOf_eq, not_or, not_le] at this
        rw [Prod.dist_eq, max_lt_iff]
        simp only [Real.dist_eq, sub_zero]
        exact this
      have := hfδ hd
      rw [Real.dist_eq] at this
      have := Finset.sum_nonneg (s := Finset.univ) fun j _ => nn j
      linarith
  have hi : ∀ j, Integrable ((S j).indicator fun _ => B) μ := fun j => (integrable_const B).indicator₀ (hS j)
  have fi : Integrable (fun ω => |f (D k i ω) - f fun _ => (0, 0)|) μ := by
    have := (bounded_memLp (hf.comp_aemeasurable meas) (fun ω => hB (D k i ω)) 1).integrable le_rfl
    exact (this.sub (integrable_const _)).abs
  have hsum : Integrable (fun ω => ∑ j, (S j).indicator (fun _ => B) ω) μ := integrable_finset_sum _ fun j _ => hi j
  have hall : Integrable (fun ω => ε / 2 + ∑ j, (S j).indicator (fun _ => B) ω) μ := (integrable_const _).add hsum
  refine (integral_mono fi hall point).trans ?_
  rw [integral_add (integrable_const _) hsum, integral_finset_sum _ fun j _ => hi j]
  have each : ∀ j, ∫ ω, (S j).indicator (fun _ => B) ω ∂μ ≤ B * (ε / (2 * ((n + 1) * (B + 1)))) := by
    intro j
    rw [integral_indicator₀ (hS j), setIntegral_const, smul_eq_mul, mul_comm]
    refine mul_le_mul_of_nonneg_left ?_ B0
    have := ENNReal.toReal_mono ENNReal.ofReal_ne_top (hk i j)
    rw [ENNReal.toReal_ofReal hη.le] at this
    exact this
  have tot : ∑ j : Fin n, ∫ ω, (S j).indicator (fun _ => B) ω ∂μ ≤ n * (B * (ε / (2 * ((n + 1) * (B + 1))))) := by
    refine (Finset.sum_le_sum fun j _ => each j).trans ?_
    simp
  have small : n * (B * (ε / (2 * ((n + 1) * (B + 1))))) ≤ ε / 2 := by
    have : n * (B * (ε / (2 * ((n + 1) * (B + 1))))) = ε / 2 * ((n / (n + 1)) * (B / (B + 1))) := by
      field_simp
    rw [this]
    have q1 : (n : ℝ) / (n + 1) ≤ 1 := by rw [div_le_one (by positivity)]; linarith
    have q2 : B / (B + 1) ≤ 1 := by rw [div_le_one (by positivity)]; linarith
    have q3 : 0 ≤ B / (B + 1) := by positivity
    have : (n : ℝ) / (n + 1) * (B / (B + 1)) ≤ 1 := mul_le_one₀ q1 q3 q2
    nlinarith
  simp only [integral_const, probReal_univ, smul_eq_mul, one_mul]
  linarith

/-- normal distributions -/
theorem gaussian_tail (m : ℝ) (v : NNReal) (δ : ℝ) (hδ : 0 < δ) : gaussianReal m v {x | δ ≤ |x|} ≤ ENNReal.ofReal ((v + m ^ 2) / δ ^ 2) := by
  have int : Integrable (fun x : ℝ => x ^ 2) (gaussianReal m v) := (memLp_id_gaussianReal' 2 (by simp)).integrable_sq
  have val : ∫ x, x ^ 2 ∂gaussianReal m v = v + m ^ 2 := by
    have := variance_eq_sub (memLp_id_gaussianReal' (μ := m) (v := v) 2 (by simp))
    rw [variance_id_gaussianReal, show ∫ x, id x ∂gaussianReal m v = m from integral_id_gaussianReal] at this
    have e : ∫ x, (id ^ 2 : ℝ → ℝ) x ∂gaussianReal m v = ∫ x, x ^ 2 ∂gaussianReal m v := rfl
    rw [e] at this
    linarith
  have mk := mul_meas_ge_le_integral_of_nonneg (μ := gaussianReal m v) (f := fun x : ℝ => x ^ 2) (Eventually.of_forall fun x => sq_nonneg x) int (δ ^ 2)
  rw [val] at mk
  have same : {x : ℝ | δ ^ 2 ≤ x ^ 2} = {x | δ ≤ |x|} := by
    ext x
    simp only [Set.mem_setOf_eq]
    rw [sq_le_sq, abs_of_pos hδ]
  rw [same] at mk
  have : (gaussianReal m v {x | δ ≤ |x|}).toReal ≤ (v + m ^ 2) / δ ^ 2 := by
    rw [le_div_iff₀ (by positivity), mul_comm]
    exact mk
  rw [← ENNReal.ofReal_toReal (measure_ne_top (gaussianReal m v) {x | δ ≤ |x|})]
  exact ENNReal.ofReal_le_ofReal this

end Artist.PointSun
