import Verif.Proofs.ManyRays
import Verif.Props.GroupFlux
import Mathlib.Probability.Distributions.Gaussian.Real
import Mathlib.Probability.Independence.InfinitePi
/-!
# C123: more rays give a better image
-/
namespace Artist.ManyRays
open Artist Intersect Flux Splat MeasureTheory ProbabilityTheory Filter Topology

section
variable {Ω : Type} [MeasurableSpace Ω] {μ : Measure Ω} [IsProbabilityMeasure μ]

/-- C123, no exception and no negative light: whatever the distortions are, an image is returned, and a pixel is between zero and the power of the mirror. -/
theorem C123_image (s : Scene) (hs : s.Regular) (N : Nat) (d : Nat → Fin s.points → ℝ × ℝ) :
    ∃ bitmap factors, s.trace ((List.range N).map fun k => List.ofFn (d k)) = .ok (bitmap, factors) ∧
      ∀ r c, r < s.H → c < s.W → pixel bitmap r c = s.image r c N d ∧ 0 ≤ s.image r c N d ∧ s.image r c N d ≤ s.power := by
  obtain ⟨img, h1, -, -, -⟩ := splat_spec s.W s.H (by have := hs.width; omega) (by have := hs.height; omega)
    ((raysOf s.incident s.surface ((List.range N).map fun k => List.ofFn (d k))).map
      (hitOf s.W s.H (rayMagnitude (some s.dni) s.cantE s.cantN s.points ((List.range N).map fun k => List.ofFn (d k)).length) s.extinction s.reflectivity s.target s.blocked))
  have e : ∃ factors, s.trace ((List.range N).map fun k => List.ofFn (d k)) = .ok (img, factors) := by
    unfold Scene.trace traceSample
    simp only [h1]
    exact ⟨_, rfl⟩
  obtain ⟨factors, e⟩ := e
  refine ⟨img, factors, e, fun r c hr hc => ⟨?_, ?_⟩⟩
  · unfold Scene.image
    rw [e]
  · exact image_bounds s hs r c hr hc N d

/-- C123, unbiased: if all rows of distortions have the same distribution, then the expected image does not depend on the number of rays: it is that of one ray per
surface point. -/
theorem C123_unbiased (s : Scene) (hs : s.Regular) (D : Nat → Ω → Fin s.points → ℝ × ℝ) (same : ∀ k, IdentDistrib (D k) (D 0) μ μ) (N : Nat) (hN : 0 < N)
    (r c : Nat) (hr : r < s.H) (hc : c < s.W) :
    Integrable (fun ω => s.image r c N fun k => D k ω) μ ∧
      ∫ ω, s.image r c N (fun k => D k ω) ∂μ = ∫ ω, s.image r c 1 (fun _ => D 0 ω) ∂μ := by
  have hm := one_measurable s hs r c hr hc
  have hX : ∀ k, IdentDistrib (fun ω => one s r c (D k ω)) (fun ω => one s r c (D 0 ω)) μ μ := fun k => (same k).comp hm
  have hint : ∀ k, Integrable (fun ω => one s r c (D k ω)) μ := fun k =>
    (bounded_memLp (hX k).aemeasurable_fst (fun ω => one_bounds s hs r c hr hc (D k ω)) 1).integrable le_rfl
  simp only [image_mean s hs r c hr hc N]
  refine ⟨(integrable_finset_sum _ fun k _ => hint k).div_const _, ?_⟩
  rw [integral_div, integral_finset_sum _ fun k _ => hint k, Finset.sum_congr rfl fun k _ => (hX k).integral_eq, Finset.sum_const, Finset.card_range, nsmul_eq_mul]
  have : (N : ℝ) ≠ 0 := by exact_mod_cast hN.ne'
  rw [mul_div_cancel_left₀ _ this]
  rfl

/-- C123, noise: if moreover the rows are independent of each other, then the variance of a pixel is that of one ray per point, divided by the number of rays. -/
theorem C123_variance (s : Scene) (hs : s.Regular) (D : Nat → Ω → Fin s.points → ℝ × ℝ) (same : ∀ k, IdentDistrib (D k) (D 0) μ μ)
    (independent : Pairwise fun k l => IndepFun (D k) (D l) μ) (N : Nat) (r c : Nat) (hr : r < s.H) (hc : c < s.W) :
    variance (fun ω => s.image r c N fun k => D k ω) μ = variance (fun ω => s.image r c 1 fun _ => D 0 ω) μ / N := by
  have hm := one_measurable s hs r c hr hc
  have hX : ∀ k, IdentDistrib (fun ω => one s r c (D k ω)) (fun ω => one s r c (D 0 ω)) μ μ := fun k => (same k).comp hm
  simp only [image_mean s hs r c hr hc N]
  exact variance_mean (X := fun k ω => one s r c (D k ω)) (fun k => (hX k).aemeasurable_fst) (fun k ω => one_bounds s hs r c hr hc (D k ω))
    (fun k l hkl => (independent hkl).comp hm hm) _ (fun k => (hX k).variance_eq) N

/-- C123, how many rays are needed: the probability that a pixel is off by `ε` or more is at most `power² / (4 N ε²)`. -/
theorem C123_probability (s : Scene) (hs : s.Regular) (D : Nat → Ω → Fin s.points → ℝ × ℝ) (same : ∀ k, IdentDistrib (D k) (D 0) μ μ)
    (independent : Pairwise fun k l => IndepFun (D k) (D l) μ) (N : Nat) (hN : 0 < N) (r c : Nat) (hr : r < s.H) (hc : c < s.W) (ε : ℝ) (hε : 0 < ε) :
    μ {ω | ε ≤ |s.image r c N (fun k => D k ω) - ∫ ω, s.image r c 1 (fun _ => D 0 ω) ∂μ|} ≤ ENNReal.ofReal (s.power ^ 2 / (4 * N * ε ^ 2)) := by
  have hm := one_measurable s hs r c hr hc
  obtain ⟨hint, hmean⟩ := C123_unbiased s hs D same N hN r c hr hc
  have hb : ∀ ω, 0 ≤ s.image r c N (fun k => D k ω) ∧ s.image r c N (fun k => D k ω) ≤ s.power := fun ω => by
    obtain ⟨_, _, -, h⟩ := C123_image s hs N fun k => D k ω
    exact (h r c hr hc).2
  have hl := bounded_memLp hint.aemeasurable hb 2
  have := meas_ge_le_variance_div_sq hl hε
  rw [hmean] at this
  refine this.trans (ENNReal.ofReal_le_ofReal ?_)
  rw [C123_variance s hs D same independent N r c hr hc]
  have hv : variance (fun ω => s.image r c 1 fun _ => D 0 ω) μ ≤ ((s.power - 0) / 2) ^ 2 :=
    variance_le_sq_of_bounded (Eventually.of_forall fun ω => one_bounds s hs r c hr hc (D 0 ω)) (hm.comp_aemeasurable (same 0).aemeasurable_fst)
  have hN' : (0 : ℝ) < N := by exact_mod_cast hN
  calc _ ≤ ((s.power - 0) / 2) ^ 2 / N / ε ^ 2 := by gcongr
    _ = s.power ^ 2 / (4 * N * ε ^ 2) := by field_simp; ring

/-- C123, all rays independent: if also the distortions of the surface points are independent, then surface points help as much as rays: the probability is at most
`power² / (4 points N ε²)`. -/
theorem C123_points (s : Scene) (hs : s.Regular) (D : Nat → Ω → Fin s.points → ℝ × ℝ) (same : ∀ k, IdentDistrib (D k) (D 0) μ μ)
    (independent : Pairwise fun p q : Nat × Fin s.points => IndepFun (fun ω => D p.1 ω p.2) (fun ω => D q.1 ω q.2) μ)
    (N : Nat) (hN : 0 < N) (r c : Nat) (hr : r < s.H) (hc : c < s.W) (ε : ℝ) (hε : 0 < ε) :
    μ {ω | ε ≤ |s.image r c N (fun k => D k ω) - ∫ ω, s.image r c 1 (fun _ => D 0 ω) ∂μ|} ≤ ENNReal.ofReal (s.power ^ 2 / (4 * s.points * N * ε ^ 2)) := by
  rw [← (C123_unbiased s hs D same N hN r c hr hc).2]
  exact deviation s hs D (fun k j => (measurable_pi_apply j).comp_aemeasurable (same k).aemeasurable_fst) independent N hN r c hr hc ε hε

/-- C123, convergence: with independent rows of the same distribution, almost surely every pixel tends to the expected image as the number of rays grows. -/
theorem C123_converges (s : Scene) (hs : s.Regular) (D : Nat → Ω → Fin s.points → ℝ × ℝ) (same : ∀ k, IdentDistrib (D k) (D 0) μ μ)
    (independent : Pairwise fun k l => IndepFun (D k) (D l) μ) :
    ∀ᵐ ω ∂μ, ∀ r c, r < s.H → c < s.W →
      Tendsto (fun N => s.image r c N fun k => D k ω) atTop (𝓝 (∫ ω, s.image r c 1 (fun _ => D 0 ω) ∂μ)) := by
  rw [ae_all_iff]; intro r
  rw [ae_all_iff]; intro c
  by_cases hr : r < s.H
  swap; · exact Eventually.of_forall fun ω h => absurd h hr
  by_cases hc : c < s.W
  swap; · exact Eventually.of_forall fun ω _ h => absurd h hc
  have hm := one_measurable s hs r c hr hc
  have hX : ∀ k, IdentDistrib (fun ω => one s r c (D k ω)) (fun ω => one s r c (D 0 ω)) μ μ := fun k => (same k).comp hm
  have := strong_law_ae_real (fun k ω => one s r c (D k ω))
    ((bounded_memLp (hX 0).aemeasurable_fst (fun ω => one_bounds s hs r c hr hc (D 0 ω)) 1).integrable le_rfl)
    (fun k l hkl => (independent hkl).comp hm hm) hX
  filter_upwards [this] with ω h _ _
  have e : (fun N => s.image r c N fun k => D k ω) = fun N : Nat => (∑ k ∈ Finset.range N, one s r c (D k ω)) / N :=
    funext fun N => image_mean s hs r c hr hc N _
  rw [e]
  exact h

end

/-- C123, blocking: the blocking mask of the program depends on the ray in a measurable way, so that all of the above holds with blocking. -/
theorem C123_blocking (rects : List SoftMask.Rect) (blocked : V3 ℝ × V3 ℝ → ℝ) (h : ∀ ray, Blocks rects blocked ray) : MeasurableMask blocked := by
  have ho : MV fun x : Fin 6 → ℝ => (⟨x 0, x 1, x 2⟩ : V3 ℝ) := ⟨measurable_pi_apply _, measurable_pi_apply _, measurable_pi_apply _⟩
  have hd : MV fun x : Fin 6 → ℝ => (⟨x 3, x 4, x 5⟩ : V3 ℝ) := ⟨measurable_pi_apply _, measurable_pi_apply _, measurable_pi_apply _⟩
  have e : (fun x : Fin 6 → ℝ => blocked (⟨x 0, x 1, x 2⟩, ⟨x 3, x 4, x 5⟩)) = fun x => 1 - Real.exp (-(100 *
      (rects.map fun r => sigmaValue (1 / 10 ^ 12) 1000 (5 / 100) ⟨x 0, x 1, x 2⟩ ⟨x 3, x 4, x 5⟩ r).sum)) := by
    funext x
    have hx := h (⟨x 0, x 1, x 2⟩, ⟨x 3, x 4, x 5⟩)
    unfold Blocks at hx
    rw [softMask_value _ _ _ _ _ _ _ _ hx]
  unfold MeasurableMask
  rw [e]
  exact softSum_measurable _ _ _ _ rects ho hd

/-- C123, the same numbers again do not help: an image from many equal rows (for instance from equal seeds) is the image from one of them. -/
theorem C123_same_rows (s : Scene) (hs : s.Regular) (N : Nat) (hN : 0 < N) (x : Fin s.points → ℝ × ℝ) (r c : Nat) (hr : r < s.H) (hc : c < s.W) :
    s.image r c N (fun _ => x) = s.image r c 1 fun _ => x := by
  rw [image_mean s hs r c hr hc, Finset.sum_const, Finset.card_range, nsmul_eq_mul]
  have : (N : ℝ) ≠ 0 := by exact_mod_cast hN.ne'
  rw [mul_div_cancel_left₀ _ this]
  rfl

/-- C123, the hypotheses are met by what the program asks for: normally distributed distortions, all drawn independently. -/
theorem C123_sun (points : Nat) (mean : ℝ) (var : NNReal) :
    ∃ (μ : Measure (Nat → Fin points → ℝ × ℝ)) (_ : IsProbabilityMeasure μ) (D : Nat → (Nat → Fin points → ℝ × ℝ) → Fin points → ℝ × ℝ),
      (∀ k, IdentDistrib (D k) (D 0) μ μ) ∧ (Pairwise fun k l => IndepFun (D k) (D l) μ) ∧
      (Pairwise fun p q : Nat × Fin points => IndepFun (fun ω => D p.1 ω p.2) (fun ω => D q.1 ω q.2) μ) ∧
      ∀ k j, μ.map (fun ω => D k ω j) = (gaussianReal mean var).prod (gaussianReal mean var) := by
  let g : Measure (ℝ × ℝ) := (gaussianReal mean var).prod (gaussianReal mean var)
  let ν : Nat → Measure (Fin points → ℝ × ℝ) := fun _ => Measure.infinitePi fun _ => g
  refine ⟨Measure.infinitePi ν, inferInstance, fun k ω => ω k, ?_, ?_, ?_, ?_⟩
  · intro k
    refine ⟨(measurable_pi_apply k).aemeasurable, (measurable_pi_apply 0).aemeasurable, ?_⟩
    rw [Measure.infinitePi_map_eval, Measure.infinitePi_map_eval]
  · intro k l hkl
    exact (iIndepFun_infinitePi (P := ν) (X := fun _ ω => ω) fun _ => measurable_id).indepFun hkl
  · intro p q hpq
    have := iIndepFun_uncurry_infinitePi' (X := fun (_ : Nat) (_ : Fin points) (x : ℝ × ℝ) => x) (fun _ _ => g) (fun _ _ => measurable_id)
    exact this.indepFun hpq
  · intro k j
    have : (fun ω : Nat → Fin points → ℝ × ℝ => ω k j) = (fun x => x j) ∘ fun ω => ω k := rfl
    rw [this, ← Measure.map_map (measurable_pi_apply j) (measurable_pi_apply k), Measure.infinitePi_map_eval, Measure.infinitePi_map_eval]

/-! ## Concrete cases -/

/-- one metre times one metre, upright -/
noncomputable def wall : SoftMask.Rect := ⟨⟨0, 3, 0⟩, ⟨1, 0, 0⟩, ⟨0, 0, 1⟩, ⟨0, -1, 0⟩⟩

/-- the mask of one wall -/
noncomputable def behindWall (ray : V3 ℝ × V3 ℝ) : ℝ := (SoftMask.softMask (1 / 10 ^ 12) 1000 100 (5 / 100) ray.1 ray.2 [wall]).getD 0

theorem wall_blocks (ray : V3 ℝ × V3 ℝ) : Blocks [wall] behindWall ray := by
  have hg : SoftMask.gram wall = 1 := by norm_num [SoftMask.gram, wall, V3.dot]
  have hd : SoftMask.safeDet (1 / 10 ^ 12) (SoftMask.gram wall) ≠ 0 := by
    rw [hg]; unfold SoftMask.safeDet; rw [if_neg (by norm_num)]; norm_num
  unfold Blocks behindWall SoftMask.softMask
  simp only [List.mapM_cons, List.mapM_nil]
  unfold SoftMask.sigma
  rw [if_neg hd]
  rfl

/-- two surface points, a blocking wall and a target; 1000 W per square metre -/
noncomputable def wallScene : Scene where
  W := 2
  H := 2
  dni := 1000
  cantE := ![995 / 2000, 0, 0, 0]
  cantN := ![0, 995 / 2000, 0, 0]
  extinction := 1 / 10
  reflectivity := 935 / 1000
  target := .planar ⟨⟨-7, 24, 0⟩, ⟨7 / 25, -24 / 25, 0⟩, 2, 2⟩
  blocked := behindWall
  incident := ![-1, 0, 0, 0]
  surface := [(⟨0, 0, 0⟩, ![3 / 5, 4 / 5, 0, 0]), (⟨1, 0, 0⟩, ![3 / 5, 4 / 5, 0, 0])]

theorem wallScene_regular : wallScene.Regular where
  width := by simp [wallScene]
  height := by simp [wallScene]
  dni := by norm_num [wallScene]
  extinction := by norm_num [wallScene]
  reflectivity := by norm_num [wallScene]
  target := by simp only [wallScene]; norm_num [Target.Valid, V3.normSq, V3.dot]
  blocked := fun ray => by
    have h := SoftMask.C15_range (1 / 10 ^ 12) 1000 100 (5 / 100) (by norm_num) ray.1 ray.2 [wall] _ (wall_blocks ray)
    exact ⟨h.1, h.2.le⟩
  mask := C123_blocking [wall] behindWall wall_blocks
  incident := by simp [wallScene, dotProduct, Fin.sum_univ_four]
  normals := by
    intro p hp
    simp only [wallScene, List.mem_cons, List.not_mem_nil, or_false] at hp
    rcases hp with rfl | rfl <;> (simp [dotProduct, Fin.sum_univ_four]; norm_num)
  surface := by simp [wallScene]

/-- With distortions of variance `4.3681e-06`: with ever more rays the image converges, and with a million rays per point a pixel is 30 W off with a probability of less than
0.2 percent (the power is about 3400 W). -/
example : ∃ (μ : Measure (Nat → Fin 2 → ℝ × ℝ)) (_ : IsProbabilityMeasure μ) (D : Nat → (Nat → Fin 2 → ℝ × ℝ) → Fin 2 → ℝ × ℝ),
    (∀ᵐ ω ∂μ, ∀ r c, r < 2 → c < 2 →
      Tendsto (fun N => wallScene.image r c N fun k => D k ω) atTop (𝓝 (∫ ω, wallScene.image r c 1 (fun _ => D 0 ω) ∂μ))) ∧
    μ {ω | 30 ≤ |wallScene.image 0 0 1000000 (fun k => D k ω) - ∫ ω, wallScene.image 0 0 1 (fun _ => D 0 ω) ∂μ|} ≤
      ENNReal.ofReal (wallScene.power ^ 2 / (4 * wallScene.points * (1000000 : Nat) * 30 ^ 2)) := by
  obtain ⟨μ, hμ, D, h1, h2, h3, -⟩ := C123_sun 2 0 ⟨43681 / 10 ^ 10, by positivity⟩
  exact ⟨μ, hμ, D, C123_converges wallScene wallScene_regular D h1 h2,
    C123_points wallScene wallScene_regular D h1 h3 1000000 (by norm_num) 0 0 (by simp [wallScene]) (by simp [wallScene]) 30 (by norm_num)⟩

end Artist.ManyRays
