import Verif.Proofs.PointSun
import Verif.Props.ManyRays
import Verif.Props.MotorImage
/-! C125: the narrower the sun, the sharper the image. -/
namespace Artist.PointSun
open Artist Intersect Flux Splat ManyRays MeasureTheory ProbabilityTheory Filter Topology

variable {Ω : Type} [MeasurableSpace Ω] {μ : Measure Ω} [IsProbabilityMeasure μ]

/-- C125: if the distortions become smaller and smaller, then the mean distance between a pixel of the image and that of the image of a point sun tends to zero, for both kinds of targets,
with any numbers of rays, and whether or not the distortions are independent; no undistorted ray may meet an edge. -/
theorem C125_image (s : Scene) (hs : s.Regular) (he : NoEdge s) (D : Nat → Nat → Ω → Fin s.points → ℝ × ℝ) (hD : ∀ k i j, AEMeasurable (fun ω => D k i ω j) μ)
    (hn : Narrowing μ s.points D) (N : Nat → Nat) (hN : ∀ k, 0 < N k) (r c : Nat) (hr : r < s.H) (hc : c < s.W) :
    Tendsto (fun k => ∫ ω, |s.image r c (N k) (fun i => D k i ω) - sharp s r c| ∂μ) atTop (𝓝 0) := by
  rw [Metric.tendsto_nhds]
  intro ε hε
  have near := average_near (one s r c) (one_measurable s hs r c hr hc) s.power (one_bounds s hs r c hr hc) (one_continuous s hs he r c hr hc) D hD hn (ε / 2) (by linarith)
  filter_upwards [near] with k hk
  have meas : ∀ i, AEMeasurable (fun ω => D k i ω) μ := fun i => aemeasurable_pi_lambda _ fun j => hD k i j
  have fi : ∀ i, Integrable (fun ω => |one s r c (D k i ω) - sharp s r c|) μ := by
    intro i
    have := (bounded_memLp ((one_measurable s hs r c hr hc).comp_aemeasurable (meas i)) (fun ω => one_bounds s hs r c hr hc (D k i ω)) 1).integrable le_rfl
    exact (this.sub (integrable_const _)).abs
  have pos : (0 : ℝ) < N k := by exact_mod_cast hN k
  have point : ∀ ω, |s.image r c (N k) (fun i => D k i ω) - sharp s r c| ≤ (∑ i ∈ Finset.range (N k), |one s r c (D k i ω) - sharp s r c|) / N k := by
    intro ω
    rw [image_mean s hs r c hr hc]
    have : (∑ i ∈ Finset.range (N k), one s r c (D k i ω)) / N k - sharp s r c = (∑ i ∈ Finset.range (N k), (one s r c (D k i ω) - sharp s r c)) / N k := by
      rw [Finset.sum_sub_distrib, Finset.sum_const, Finset.card_range, nsmul_eq_mul]
      field_simp
    rw [this, abs_div, abs_of_pos pos]
    exact div_le_div_of_nonneg_right (Finset.abs_sum_le_sum_abs _ _) pos.le
  have total : ∫ ω, |s.image r c (N k) (fun i => D k i ω) - sharp s r c| ∂μ ≤ ε / 2 := by
    have hsum : Integrable (fun ω => (∑ i ∈ Finset.range (N k), |one s r c (D k i ω) - sharp s r c|) / N k) μ := (integrable_finset_sum _ fun i _ => fi i).div_const _
    refine (integral_mono_of_nonneg (Eventually.of_forall fun ω => abs_nonneg _) hsum (Eventually.of_forall point)).trans ?_
    rw [integral_div, integral_finset_sum _ fun i _ => fi i, div_le_iff₀ pos]
    refine (Finset.sum_le_sum fun i _ => hk i).trans ?_
    rw [Finset.sum_const, Finset.card_range, nsmul_eq_mul, mul_comm]
  rw [Real.dist_eq, sub_zero, abs_of_nonneg (integral_nonneg fun ω => abs_nonneg _)]
  linarith

/-- C125: hence the expected image tends to that of a point sun. -/
theorem C125_expected (s : Scene) (hs : s.Regular) (he : NoEdge s) (D : Nat → Nat → Ω → Fin s.points → ℝ × ℝ) (hD : ∀ k i j, AEMeasurable (fun ω => D k i ω j) μ)
    (hn : Narrowing μ s.points D) (N : Nat → Nat) (hN : ∀ k, 0 < N k) (r c : Nat) (hr : r < s.H) (hc : c < s.W) :
    Tendsto (fun k => ∫ ω, s.image r c (N k) (fun i => D k i ω) ∂μ) atTop (𝓝 (sharp s r c)) := by
  rw [tendsto_iff_dist_tendsto_zero]
  refine squeeze_zero (fun k => dist_nonneg) (fun k => ?_) (C125_image s hs he D hD hn N hN r c hr hc)
  have int : Integrable (fun ω => s.image r c (N k) (fun i => D k i ω)) μ := by
    simp only [image_mean s hs r c hr hc]
    refine (integrable_finset_sum _ fun i _ => ?_).div_const _
    exact (bounded_memLp ((one_measurable s hs r c hr hc).comp_aemeasurable (aemeasurable_pi_lambda _ fun j => hD k i j)) (fun ω => one_bounds s hs r c hr hc (D k i ω)) 1).integrable le_rfl
  have : ∫ ω, s.image r c (N k) (fun i => D k i ω) ∂μ - sharp s r c = ∫ ω, (s.image r c (N k) (fun i => D k i ω) - sharp s r c) ∂μ := by
    rw [integral_sub int (integrable_const _)]
    simp
  rw [Real.dist_eq, this]
  exact abs_integral_le_integral_abs

/-- C125: and a pixel is hardly ever far from that of a point sun. -/
theorem C125_probability (s : Scene) (hs : s.Regular) (he : NoEdge s) (D : Nat → Nat → Ω → Fin s.points → ℝ × ℝ) (hD : ∀ k i j, AEMeasurable (fun ω => D k i ω j) μ)
    (hn : Narrowing μ s.points D) (N : Nat → Nat) (hN : ∀ k, 0 < N k) (r c : Nat) (hr : r < s.H) (hc : c < s.W) (ε : ℝ) (hε : 0 < ε) :
    Tendsto (fun k => (μ {ω | ε ≤ |s.image r c (N k) (fun i => D k i ω) - sharp s r c|}).toReal) atTop (𝓝 0) := by
  have lim := (C125_image s hs he D hD hn N hN r c hr hc).div_const ε
  rw [zero_div] at lim
  refine squeeze_zero (fun k => ENNReal.toReal_nonneg) (fun k => ?_) lim
  have int : Integrable (fun ω => |s.image r c (N k) (fun i => D k i ω) - sharp s r c|) μ := by
    simp only [image_mean s hs r c hr hc]
    refine (((integrable_finset_sum _ fun i _ => ?_).div_const _).sub (integrable_const _)).abs
    exact (bounded_memLp ((one_measurable s hs r c hr hc).comp_aemeasurable (aemeasurable_pi_lambda _ fun j => hD k i j)) (fun ω => one_bounds s hs r c hr hc (D k i ω)) 1).integrable le_rfl
  have mk := mul_meas_ge_le_integral_of_nonneg (μ := μ) (Eventually.of_forall fun ω => abs_nonneg (s.image r c (N k) (fun i => D k i ω) - sharp s r c)) int ε
  rw [le_div_iff₀ hε, mul_comm]
  exact mk

/-- C125: the normal distributions that the sun of the package draws from become narrow when mean and variance tend to zero. -/
theorem C125_sun (points : Nat) (mean : Nat → ℝ) (variance : Nat → NNReal) (hm : Tendsto mean atTop (𝓝 0)) (hv : Tendsto (fun k => (variance k : ℝ)) atTop (𝓝 0))
    (D : Nat → Nat → Ω → Fin points → ℝ × ℝ) (hD : ∀ k i j, AEMeasurable (fun ω => D k i ω j) μ ∧
      μ.map (fun ω => D k i ω j) = (gaussianReal (mean k) (variance k)).prod (gaussianReal (mean k) (variance k))) : Narrowing μ points D := by
  intro δ hδ η hη
  have lim : Tendsto (fun k => 2 * (((variance k : ℝ) + mean k ^ 2) / δ ^ 2)) atTop (𝓝 0) := by
    have := ((hv.add (hm.pow 2)).div_const (δ ^ 2)).const_mul 2
    simpa using this
  filter_upwards [lim.eventually_lt_const hη] with k hk i j
  have ms : MeasurableSet {x : ℝ | δ ≤ |x|} := measurableSet_le measurable_const measurable_id.abs
  have h1 : μ {ω | δ ≤ |(D k i ω j).1|} ≤ ENNReal.ofReal (((variance k : ℝ) + mean k ^ 2) / δ ^ 2) := by
    have e : {ω | δ ≤ |(D k i ω j).1|} = (fun ω => D k i ω j) ⁻¹' ({x | δ ≤ |x|} ×ˢ Set.univ) := by ext ω; simp
    rw [e, ← Measure.map_apply_of_aemeasurable (hD k i j).1 (ms.prod MeasurableSet.univ), (hD k i j).2, Measure.prod_prod, measure_univ, mul_one]
    exact gaussian_tail _ _ δ hδ
  have h2 : μ {ω | δ ≤ |(D k i ω j).2|} ≤ ENNReal.ofReal (((variance k : ℝ) + mean k ^ 2) / δ ^ 2) := by
    have e : {ω | δ ≤ |(D k i ω j).2|} = (fun ω => D k i ω j) ⁻¹' (Set.univ ×ˢ {x | δ ≤ |x|}) := by ext ω; simp
    rw [e, ← Measure.map_apply_of_aemeasurable (hD k i j).1 (MeasurableSet.univ.prod ms), (hD k i j).2, Measure.prod_prod, measure_univ, one_mul]
    exact gaussian_tail _ _ δ hδ
  refine (measure_union_le _ _).trans ((add_le_add h1 h2).trans ?_)
  rw [← ENNReal.ofReal_add (by positivity) (by positivity)]
  exact ENNReal.ofReal_le_ofReal (by linarith)

/-- a surface point whose undistorted ray meets the eastern edge of the target -/
noncomputable def edgeScene : Scene where
  W := 2
  H := 2
  dni := 1000
  cantE := ![1, 0, 0, 0]
  cantN := ![0, 1, 0, 0]
  extinction := 0
  reflectivity := 1
  target := .planar ⟨⟨-1, -10, 0⟩, ⟨0, 1, 0⟩, 2, 2⟩
  blocked := fun _ => 0
  incident := ![0, 1, 0, 0]
  surface := [(⟨0, 0, 0⟩, ![0, -1, 0, 0])]

/-- C125: at the edge it is different: ever smaller distortions that push a ray over the edge leave the target dark, while with a point sun it is lit. -/
theorem C125_edge : edgeScene.Regular ∧ (∃ p ∈ edgeScene.surface, MotorImage.HitsEdge ⟨⟨-1, -10, 0⟩, ⟨0, 1, 0⟩, 2, 2⟩ (rayWith edgeScene p (0, 0))) ∧
    (Narrowing (Measure.dirac ()) edgeScene.points fun k _ _ _ => (0, 1 / ((k : ℝ) + 1))) ∧
    (∀ k N : Nat, edgeScene.image 0 0 N (fun _ _ => (0, 1 / ((k : ℝ) + 1))) = 0) ∧ 0 < sharp edgeScene 0 0 := by
  have dir : ∀ u : ℝ, direction ![0, 1, 0, 0] ![0, -1, 0, 0] 0 u = ⟨Real.sin u, -Real.cos u, 0⟩ := by
    intro u
    unfold direction Transforms.rotDist reflect
    ext <;> simp [Matrix.mulVec, dotProduct, Fin.sum_univ_four] <;> ring
  have unitv : ∀ (j : Fin edgeScene.points) (u : ℝ), unit edgeScene 0 0 (ray edgeScene j (0, u)) =
      contrib 2 2 1 0 (hitOf 2 2 1 0 1 (.planar ⟨⟨-1, -10, 0⟩, ⟨0, 1, 0⟩, 2, 2⟩) (fun _ => 0) (⟨0, 0, 0⟩, ⟨Real.sin u, -Real.cos u, 0⟩)) := by
    intro j u
    rw [← dir u]
    have : (edgeScene.surface.get j) = (⟨0, 0, 0⟩, ![0, -1, 0, 0]) := List.mem_singleton.1 (List.get_mem edgeScene.surface j)
    unfold unit ray
    rw [this]
    rfl
  refine ⟨?_, ?_, ?_, ?_, ?_⟩
  · constructor
    · simp [edgeScene]
    · simp [edgeScene]
    · norm_num [edgeScene]
    · norm_num [edgeScene]
    · norm_num [edgeScene]
    · simp only [edgeScene]; norm_num [Target.Valid, V3.normSq, V3.dot]
    · intro ray; simp [edgeScene]
    · exact measurable_const
    · simp [edgeScene, dotProduct, Fin.sum_univ_four]
    · intro p hp
      simp only [edgeScene, List.mem_singleton] at hp
      subst hp
      simp [dotProduct, Fin.sum_univ_four]
    · simp [edgeScene]
  · refine ⟨_, List.mem_singleton.2 rfl, ?_⟩
    unfold rayWith
    simp only [edgeScene, dir, Real.sin_zero, Real.cos_zero]
    refine ⟨by norm_num [V3.dot], 10, ?_, ?_, ?_, ?_⟩ <;> norm_num [V3.dot]
  · intro δ hδ η hη
    have lim : Tendsto (fun k : Nat => 1 / ((k : ℝ) + 1)) atTop (𝓝 0) := tendsto_one_div_add_atTop_nhds_zero_nat
    filter_upwards [lim.eventually_lt_const hδ] with k hk i j
    have : {ω : Unit | δ ≤ |((0, 1 / ((k : ℝ) + 1)) : ℝ × ℝ).1| ∨ δ ≤ |((0, 1 / ((k : ℝ) + 1)) : ℝ × ℝ).2|} = ∅ := by
      ext ω
      simp only [Set.mem_setOf_eq, Set.mem_empty_iff_false, iff_false, not_or, not_le, abs_zero]
      exact ⟨hδ, by rw [abs_of_pos (by positivity)]; exact hk⟩
    rw [this, measure_empty]
    exact bot_le
  · intro k N
    rw [image_sum edgeScene (by simp [edgeScene]) (by simp [edgeScene]) 0 0 (by simp [edgeScene]) (by simp [edgeScene])]
    have u0 : (0 : ℝ) < 1 / ((k : ℝ) + 1) := by positivity
    have u1 : 1 / ((k : ℝ) + 1) ≤ 1 := by rw [div_le_one (by positivity)]; linarith [(Nat.cast_nonneg k : (0 : ℝ) ≤ k)]
    have cp : 0 < Real.cos (1 / ((k : ℝ) + 1)) := Real.cos_pos_of_mem_Ioo ⟨by linarith [Real.pi_pos], by linarith [Real.pi_gt_three]⟩
    have sp : 0 < Real.sin (1 / ((k : ℝ) + 1)) := Real.sin_pos_of_pos_of_lt_pi u0 (by linarith [Real.pi_gt_three])
    simp only [unitv]
    generalize 1 / ((k : ℝ) + 1) = u at *
    have z : contrib 2 2 1 0 (hitOf 2 2 1 0 1 (.planar ⟨⟨-1, -10, 0⟩, ⟨0, 1, 0⟩, 2, 2⟩) (fun _ => 0) (⟨0, 0, 0⟩, ⟨Real.sin u, -Real.cos u, 0⟩)) = 0 := by
      rw [MotorImage.contrib_planar _ _ _ _ (by norm_num) _ 1 0 (by norm_num), MotorImage.land_invalid]
      · simp
      · rintro ⟨-, ⟨-, h⟩, -⟩
        simp only [MotorImage.bitE, V3.dot, V3.sub_e, V3.sub_n, V3.sub_u] at h
        have q0 : 0 < Real.sin u / Real.cos u := div_pos sp cp
        norm_num at h
        have e : 10 / Real.cos u * Real.sin u = 10 * (Real.sin u / Real.cos u) := by ring
        linarith
    simp [z]
  · unfold sharp
    rw [image_sum edgeScene (by simp [edgeScene]) (by simp [edgeScene]) 0 0 (by simp [edgeScene]) (by simp [edgeScene])]
    simp only [unitv, Real.sin_zero, Real.cos_zero, Finset.range_one, Finset.sum_singleton]
    have z : contrib 2 2 1 0 (hitOf 2 2 1 0 1 (.planar ⟨⟨-1, -10, 0⟩, ⟨0, 1, 0⟩, 2, 2⟩) (fun _ => 0) (⟨0, 0, 0⟩, ⟨0, -1, 0⟩)) = (1 / 2 : ℝ) := by
      have b1 : MotorImage.bitE 2 (⟨⟨-1, -10, 0⟩, ⟨0, 1, 0⟩, 2, 2⟩ : Plane ℝ) (⟨0, 0, 0⟩, ⟨0, -1, 0⟩) = 1 := by
        norm_num [MotorImage.bitE, V3.dot]
      have b2 : MotorImage.bitU 2 (⟨⟨-1, -10, 0⟩, ⟨0, 1, 0⟩, 2, 2⟩ : Plane ℝ) (⟨0, 0, 0⟩, ⟨0, -1, 0⟩) = 1 / 2 := by
        norm_num [MotorImage.bitU, V3.dot]
      rw [MotorImage.contrib_planar _ _ _ _ (by norm_num) _ 1 0 (by norm_num), MotorImage.land_valid 2 2 1 0 1 _ _ (by norm_num [V3.dot]) (by rw [b1]; norm_num) (by rw [b1]; norm_num)
        (by rw [b2]; norm_num) (by rw [b2]; norm_num), b1, b2, if_pos]
      · simp only [SoftMask.intensity, tent, V3.dot]
        norm_num
      · norm_num [Inside]
    rw [z, Finset.sum_const, nsmul_eq_mul]
    refine mul_pos ?_ ?_
    · norm_num [rayMagnitude, edgeScene, Scene.points]
    · norm_num [edgeScene, Scene.points]

/-- The blocked scene of C123 meets the hypotheses: its rays meet the target inside, and the blocking wall stands across them. -/
theorem wall_noEdge : NoEdge wallScene := by
  have mem : ∀ p ∈ wallScene.surface, p = (⟨0, 0, 0⟩, ![3 / 5, 4 / 5, 0, 0]) ∨ p = (⟨1, 0, 0⟩, ![3 / 5, 4 / 5, 0, 0]) := by
    intro p hp
    simpa only [wallScene, List.mem_cons, List.not_mem_nil, or_false] using hp
  have d0 : direction ![-1, 0, 0, 0] ![3 / 5, 4 / 5, 0, 0] 0 0 = ⟨-7 / 25, 24 / 25, 0⟩ := by
    unfold direction Transforms.rotDist reflect
    ext <;> simp [Matrix.mulVec, dotProduct, Fin.sum_univ_four] <;> norm_num
  intro p hp
  constructor
  · have nrm : p.2 = ![3 / 5, 4 / 5, 0, 0] := by rcases mem p hp with rfl | rfl <;> rfl
    obtain ⟨c1, c2, c3⟩ := direction_continuous wallScene.incident p.2
    obtain ⟨f, hf, ev⟩ := MotorImage.C108_mask (1 / 10 ^ 12) 1000 100 (5 / 100) (by norm_num) (fun _ : ℝ × ℝ => p.1) (fun d => direction wallScene.incident p.2 d.1 d.2) [fun _ => wall] (0, 0)
      ⟨continuousAt_const, continuousAt_const, continuousAt_const⟩ ⟨c1.continuousAt, c2.continuousAt, c3.continuousAt⟩
      (by
        intro r hr
        rw [List.mem_singleton] at hr
        subst hr
        exact ⟨⟨continuousAt_const, continuousAt_const, continuousAt_const⟩, ⟨continuousAt_const, continuousAt_const, continuousAt_const⟩,
          ⟨continuousAt_const, continuousAt_const, continuousAt_const⟩, ⟨continuousAt_const, continuousAt_const, continuousAt_const⟩⟩)
      (by
        intro r hr
        rw [List.mem_singleton] at hr
        subst hr
        refine ⟨by norm_num [SoftMask.gram, wall, V3.dot], ?_⟩
        show V3.dot (direction wallScene.incident p.2 0 0) wall.normal ≠ 0
        rw [nrm, show wallScene.incident = ![-1, 0, 0, 0] from rfl, d0]
        norm_num [V3.dot, wall])
    refine hf.congr ?_
    filter_upwards [ev] with d hd
    show f d = behindWall (rayWith wallScene p d)
    unfold behindWall rayWith
    simp only [List.map_cons, List.map_nil] at hd
    rw [hd]
    rfl
  · show ¬ MotorImage.HitsEdge _ _
    unfold rayWith
    rcases mem p hp with rfl | rfl
    all_goals
      simp only [show wallScene.incident = ![-1, 0, 0, 0] from rfl, d0]
      rintro ⟨-, t, h1, -, -, h2⟩
      simp only [V3.dot, V3.sub_e, V3.sub_n, V3.sub_u, V3.add_e, V3.add_n, V3.add_u, V3.smul_e, V3.smul_n, V3.smul_u] at h1 h2
    · have ht : t = 25 := by linarith
      subst ht
      norm_num at h2
    · have ht : t = 632 / 25 := by linarith
      subst ht
      norm_num [abs_of_pos] at h2

/-- the blocked scene with the normal distributions of variance `1 / k`, a hundred rays per point -/
example (D : Nat → Nat → Ω → Fin 2 → ℝ × ℝ) (hD : ∀ k i j, AEMeasurable (fun ω => D k i ω j) μ ∧
      μ.map (fun ω => D k i ω j) = (gaussianReal 0 ⟨1 / ((k : ℝ) + 1), by positivity⟩).prod (gaussianReal 0 ⟨1 / ((k : ℝ) + 1), by positivity⟩)) :
    Tendsto (fun k => ∫ ω, wallScene.image 1 0 100 (fun i => D k i ω) ∂μ) atTop (𝓝 (sharp wallScene 1 0)) :=
  C125_expected wallScene wallScene_regular wall_noEdge D (fun k i j => (hD k i j).1)
    (C125_sun 2 (fun _ => 0) (fun k => ⟨1 / ((k : ℝ) + 1), by positivity⟩) tendsto_const_nhds tendsto_one_div_add_atTop_nhds_zero_nat D hD) (fun _ => 100) (fun _ => by norm_num) 1 0
    (by simp [wallScene]) (by simp [wallScene])

end Artist.PointSun
