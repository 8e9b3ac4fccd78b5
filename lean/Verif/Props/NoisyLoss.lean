import Verif.Proofs.NoisyLoss
import Verif.Proofs.MotorImage
/-!
# C127: what ray noise does to losses and focal spots
-/
namespace Artist.ManyRays
open Artist Intersect Flux Splat MeasureTheory ProbabilityTheory Filter Topology

section
variable {Ω : Type} [MeasurableSpace Ω] {μ : Measure Ω} [IsProbabilityMeasure μ]

/-- C127, the pixel loss: on average over the drawn rays it is the loss of the noise-free image plus the noise, divided by the number of rays and by the total measured flux. -/
theorem C127_pixel_loss (s : Scene) (hs : s.Regular) (D : Nat → Ω → Fin s.points → ℝ × ℝ) (same : ∀ k, IdentDistrib (D k) (D 0) μ μ)
    (independent : Pairwise fun k l => IndepFun (D k) (D l) μ) (N : Nat) (hN : 0 < N) (g : Fin s.H × Fin s.W → ℝ) (_ : 0 < ∑ i, g i) :
    Integrable (fun ω => Losses.pixel (s.picture N fun k => D k ω) g) μ ∧
      ∫ ω, Losses.pixel (s.picture N fun k => D k ω) g ∂μ = Losses.pixel (s.expected μ D) g + s.noise μ D / N / ∑ i, g i := by
  have h := fun i : Fin s.H × Fin s.W => mean_square (image_memLp s hs D (fun k => (same k).aemeasurable_fst) N i) (g i)
  unfold Losses.pixel Scene.picture
  refine ⟨(integrable_finset_sum _ fun i _ => (h i).1).div_const _, ?_⟩
  rw [integral_div, integral_finset_sum _ fun i _ => (h i).1, ← add_div]
  congr 1
  rw [Finset.sum_congr rfl fun i _ => (h i).2, Finset.sum_add_distrib, add_comm]
  congr 1
  · refine Finset.sum_congr rfl fun i _ => ?_
    rw [(C123_unbiased s hs D same N hN i.1 i.2 i.1.2 i.2.2).2]
    rfl
  · unfold Scene.noise
    rw [Finset.sum_div]
    exact Finset.sum_congr rfl fun i _ => C123_variance s hs D same independent N i.1 i.2 i.1.2 i.2.2

/-- C127, the floor: even a perfect model has, on average, the loss of its noise; it is at most the squared power of the mirror over the number of rays and the measured flux. -/
theorem C127_floor (s : Scene) (hs : s.Regular) (D : Nat → Ω → Fin s.points → ℝ × ℝ) (same : ∀ k, IdentDistrib (D k) (D 0) μ μ)
    (independent : Pairwise fun k l => IndepFun (D k) (D l) μ) (N : Nat) (hN : 0 < N) (bright : 0 < ∑ i, s.expected μ D i) :
    ∫ ω, Losses.pixel (s.picture N fun k => D k ω) (s.expected μ D) ∂μ = s.noise μ D / N / ∑ i, s.expected μ D i ∧
      0 ≤ s.noise μ D ∧ s.noise μ D ≤ s.power ^ 2 := by
  refine ⟨?_, noise_bounds s hs D fun k => (same k).aemeasurable_fst⟩
  rw [(C127_pixel_loss s hs D same independent N hN _ bright).2]
  unfold Losses.pixel
  simp

/-- C127, ranking: of two models of which the first is truly better, the first also has the smaller loss on average, once the number of rays exceeds its squared power over the gap and the measured flux. -/
theorem C127_ranking (s s' : Scene) (hs : s.Regular) (hs' : s'.Regular) (size : s'.W = s.W ∧ s'.H = s.H)
    (D : Nat → Ω → Fin s.points → ℝ × ℝ) (same : ∀ k, IdentDistrib (D k) (D 0) μ μ) (independent : Pairwise fun k l => IndepFun (D k) (D l) μ)
    (D' : Nat → Ω → Fin s'.points → ℝ × ℝ) (same' : ∀ k, IdentDistrib (D' k) (D' 0) μ μ) (independent' : Pairwise fun k l => IndepFun (D' k) (D' l) μ)
    (N : Nat) (hN : 0 < N) (g : Nat → Nat → ℝ) (bright : 0 < ∑ i : Fin s.H × Fin s.W, g i.1 i.2) (gap : ℝ) (hgap : 0 < gap)
    (better : Losses.pixel (s.expected μ D) (fun i => g i.1 i.2) + gap ≤ Losses.pixel (s'.expected μ D') (fun i => g i.1 i.2))
    (enough : s.power ^ 2 / (gap * ∑ i : Fin s.H × Fin s.W, g i.1 i.2) < N) :
    ∫ ω, Losses.pixel (s.picture N fun k => D k ω) (fun i => g i.1 i.2) ∂μ < ∫ ω, Losses.pixel (s'.picture N fun k => D' k ω) (fun i => g i.1 i.2) ∂μ := by
  have bright' : 0 < ∑ i : Fin s'.H × Fin s'.W, g i.1 i.2 := by
    rw [size.1, size.2]; exact bright
  rw [(C127_pixel_loss s hs D same independent N hN _ bright).2, (C127_pixel_loss s' hs' D' same' independent' N hN _ bright').2]
  have hN' : (0 : ℝ) < N := by exact_mod_cast hN
  have n := noise_bounds s hs D fun k => (same k).aemeasurable_fst
  have n' := noise_bounds s' hs' D' fun k => (same' k).aemeasurable_fst
  have p' : 0 ≤ s'.noise μ D' / N / ∑ i : Fin s'.H × Fin s'.W, g i.1 i.2 := div_nonneg (div_nonneg n'.1 hN'.le) bright'.le
  have p : s.noise μ D / N / ∑ i : Fin s.H × Fin s.W, g i.1 i.2 < gap := by
    rw [div_lt_iff₀ bright, div_lt_iff₀ hN']
    rw [div_lt_iff₀ (mul_pos hgap bright)] at enough
    linarith [n.2]
  linarith

end

/-- C127, the focal spot is stable: if the pixels of two images without negative pixels differ by `γ` in total, the centres of brightness differ by at most `2 γ / total` widths and heights of the bitmap. -/
theorem C127_spot {W H : Nat} (f g : Fin H × Fin W → ℝ) (hf : ∀ i, 0 ≤ f i) (hg : ∀ i, 0 ≤ g i) (γ : ℝ) (h : ∑ i, |f i - g i| ≤ γ) (hW : 0 < W) (hH : 0 < H) :
    |(spot f).1 - (spot g).1| ≤ 2 * ((W : ℝ) - 1) * γ / ((∑ i, g i) + 1 / 10 ^ 8) ∧ |(spot f).2 - (spot g).2| ≤ 2 * ((H : ℝ) - 1) * γ / ((∑ i, g i) + 1 / 10 ^ 8) := by
  rw [spot_eq, spot_eq]
  have fin : ∀ {n : Nat} (k : Fin n), (k : ℝ) ≤ (n : ℝ) - 1 := by
    intro n k
    have : (k : ℝ) + 1 ≤ n := by exact_mod_cast k.2
    linarith
  have W1 : (1 : ℝ) ≤ W := by exact_mod_cast hW
  have H1 : (1 : ℝ) ≤ H := by exact_mod_cast hH
  have g0 := Finset.sum_nonneg fun i (_ : i ∈ Finset.univ) => hg i
  exact ⟨mean_moves (fun i : Fin H × Fin W => (i.2 : ℝ)) f g _ _ γ (fun i => ⟨by positivity, fin i.2⟩) hf (by norm_num) g0 h (by linarith),
    mean_moves (fun i : Fin H × Fin W => (i.1 : ℝ)) f g _ _ γ (fun i => ⟨by positivity, fin i.1⟩) hf (by norm_num) g0 h (by linarith)⟩

/-- C127, in metres: the focal spot loss between two images whose pixels differ by `γ` in total is, on a plane target, at most `2 γ / total` times width plus height of the target. -/
theorem C127_metres {W H : Nat} (f g : Fin H × Fin W → ℝ) (hf : ∀ i, 0 ≤ f i) (hg : ∀ i, 0 ≤ g i) (γ : ℝ) (h : ∑ i, |f i - g i| ≤ γ) (hW : 0 < W) (hH : 0 < H)
    (p : Plane ℝ) (hw : 0 ≤ p.width) (hh : 0 ≤ p.height) :
    FocalSpotLoss.focalSpotLoss (1 / 10 ^ 8) (.planar p) (asImage f) (asImage g) ≤ 2 * γ / ((∑ i, g i) + 1 / 10 ^ 8) * (p.width + p.height) := by
  obtain ⟨a, b⟩ := C127_spot f g hf hg γ h hW hH
  have γ0 : 0 ≤ γ := (Finset.sum_nonneg fun i _ => abs_nonneg _).trans h
  have T0 : 0 < (∑ i, g i) + 1 / 10 ^ 8 := by
    have := Finset.sum_nonneg fun i (_ : i ∈ Finset.univ) => hg i
    positivity
  have W0 : (0 : ℝ) < W := by exact_mod_cast hW
  have H0 : (0 : ℝ) < H := by exact_mod_cast hH
  set q := 2 * γ / ((∑ i, g i) + 1 / 10 ^ 8) with hq
  have q0 : 0 ≤ q := by positivity
  have a' : |(spot f).1 - (spot g).1| ≤ q * W := by
    refine a.trans ?_
    rw [show 2 * ((W : ℝ) - 1) * γ / ((∑ i, g i) + 1 / 10 ^ 8) = q * (W - 1) by rw [hq]; ring]
    exact mul_le_mul_of_nonneg_left (by linarith) q0
  have b' : |(spot f).2 - (spot g).2| ≤ q * H := by
    refine b.trans ?_
    rw [show 2 * ((H : ℝ) - 1) * γ / ((∑ i, g i) + 1 / 10 ^ 8) = q * (H - 1) by rw [hq]; ring]
    exact mul_le_mul_of_nonneg_left (by linarith) q0
  have e : FocalSpotLoss.focalSpotLoss (1 / 10 ^ 8) (.planar p) (asImage f) (asImage g) =
      √((((spot f).1 - (spot g).1) / W * p.width) ^ 2 + (((spot f).2 - (spot g).2) / H * p.height) ^ 2) := by
    have s1 : Bitmap.centerOfMass (1 / 10 ^ 8) (asImage f).width (asImage f).height (asImage f).pixel = spot f := rfl
    have s2 : Bitmap.centerOfMass (1 / 10 ^ 8) (asImage g).width (asImage g).height (asImage g).pixel = spot g := rfl
    unfold FocalSpotLoss.focalSpotLoss FocalSpotLoss.norm FocalSpotLoss.toTarget Bitmap.toPlane
    simp only [s1, s2]
    congr 1
    simp only [V3.sub_e, V3.sub_n, V3.sub_u, V3.add_e, V3.add_n, V3.add_u, V3.smul_e, V3.smul_n, V3.smul_u, asImage]
    ring
  rw [e]
  have x : |((spot f).1 - (spot g).1) / W * p.width| ≤ q * p.width := by
    rw [abs_mul, abs_div, abs_of_pos W0, abs_of_nonneg hw]
    exact mul_le_mul_of_nonneg_right ((div_le_iff₀ W0).2 a') hw
  have y : |((spot f).2 - (spot g).2) / H * p.height| ≤ q * p.height := by
    rw [abs_mul, abs_div, abs_of_pos H0, abs_of_nonneg hh]
    exact mul_le_mul_of_nonneg_right ((div_le_iff₀ H0).2 b') hh
  generalize ((spot f).1 - (spot g).1) / W * p.width = X at *
  generalize ((spot f).2 - (spot g).2) / H * p.height = Y at *
  have r : √(X ^ 2 + Y ^ 2) ≤ |X| + |Y| := by
    rw [Real.sqrt_le_left (by positivity), ← sq_abs X, ← sq_abs Y]
    nlinarith [abs_nonneg X, abs_nonneg Y]
  linarith

section
variable {Ω : Type} [MeasurableSpace Ω] {μ : Measure Ω} [IsProbabilityMeasure μ]

theorem expected_nonneg (s : Scene) (hs : s.Regular) (D : Nat → Ω → Fin s.points → ℝ × ℝ) (i : Fin s.H × Fin s.W) : 0 ≤ s.expected μ D i :=
  integral_nonneg fun ω => (image_bounds s hs i.1 i.2 i.1.2 i.2.2 1 _).1

/-- C127, how many rays a focal spot needs: the probability that the focal spot is off by more than `δ` widths (heights) of the bitmap is at most `W³ H³ power² / (N δ² total²)`. -/
theorem C127_spot_probability (s : Scene) (hs : s.Regular) (D : Nat → Ω → Fin s.points → ℝ × ℝ) (same : ∀ k, IdentDistrib (D k) (D 0) μ μ)
    (independent : Pairwise fun k l => IndepFun (D k) (D l) μ) (N : Nat) (hN : 0 < N) (bright : 0 < ∑ i, s.expected μ D i) (δ : ℝ) (hδ : 0 < δ) :
    μ {ω | δ * ((s.W : ℝ) - 1) < |(spot (s.picture N fun k => D k ω)).1 - (spot (s.expected μ D)).1| ∨ δ * ((s.H : ℝ) - 1) < |(spot (s.picture N fun k => D k ω)).2 - (spot (s.expected μ D)).2|} ≤
      ENNReal.ofReal (((s.W : ℝ) * s.H) ^ 3 * s.power ^ 2 / (N * (δ * ∑ i, s.expected μ D i) ^ 2)) := by
  have hW : 0 < s.W := by have := hs.width; omega
  have hH : 0 < s.H := by have := hs.height; omega
  have W0 : (0 : ℝ) < s.W := by exact_mod_cast hW
  have H0 : (0 : ℝ) < s.H := by exact_mod_cast hH
  have W2 : (2 : ℝ) ≤ s.W := by exact_mod_cast hs.width
  have H2 : (2 : ℝ) ≤ s.H := by exact_mod_cast hs.height
  set T := ∑ i, s.expected μ D i with hT
  set ε := δ * T / (2 * (s.W * s.H)) with hε
  have ε0 : 0 < ε := by positivity
  have sub : {ω | δ * ((s.W : ℝ) - 1) < |(spot (s.picture N fun k => D k ω)).1 - (spot (s.expected μ D)).1| ∨ δ * ((s.H : ℝ) - 1) < |(spot (s.picture N fun k => D k ω)).2 - (spot (s.expected μ D)).2|} ⊆
      ⋃ i : Fin s.H × Fin s.W, {ω | ε ≤ |s.image i.1 i.2 N (fun k => D k ω) - ∫ ω, s.image i.1 i.2 1 (fun _ => D 0 ω) ∂μ|} := by
    intro ω hω
    by_contra hno
    simp only [Set.mem_iUnion, Set.mem_setOf_eq, not_exists, not_le] at hno
    have tot : ∑ i, |s.picture N (fun k => D k ω) i - s.expected μ D i| ≤ δ * T / 2 := by
      calc ∑ i, |s.picture N (fun k => D k ω) i - s.expected μ D i| ≤ ∑ _i : Fin s.H × Fin s.W, ε := Finset.sum_le_sum fun i _ => (hno i).le
        _ = δ * T / 2 := by
          rw [Finset.sum_const, Finset.card_univ, Fintype.card_prod, Fintype.card_fin, Fintype.card_fin, nsmul_eq_mul, hε]
          push_cast
          field_simp
    obtain ⟨a, b⟩ := C127_spot (s.picture N fun k => D k ω) (s.expected μ D) (fun i => (image_bounds s hs i.1 i.2 i.1.2 i.2.2 N _).1) (expected_nonneg s hs D) _ tot hW hH
    rw [← hT] at a b
    have small : ∀ n : ℝ, 0 ≤ n → 2 * n * (δ * T / 2) / (T + 1 / 10 ^ 8) ≤ δ * n := by
      intro n hn
      rw [div_le_iff₀ (by positivity)]
      have : 0 ≤ δ * n * (1 / 10 ^ 8) := by positivity
      linarith
    rcases hω with hω | hω
    · exact absurd (a.trans (small _ (by linarith))) (not_le.2 hω)
    · exact absurd (b.trans (small _ (by linarith))) (not_le.2 hω)
  refine (measure_mono sub).trans ((measure_iUnion_fintype_le μ _).trans ?_)
  have hN' : (0 : ℝ) < N := by exact_mod_cast hN
  calc ∑ i : Fin s.H × Fin s.W, μ {ω | ε ≤ |s.image i.1 i.2 N (fun k => D k ω) - ∫ ω, s.image i.1 i.2 1 (fun _ => D 0 ω) ∂μ|}
      ≤ ∑ _i : Fin s.H × Fin s.W, ENNReal.ofReal (s.power ^ 2 / (4 * N * ε ^ 2)) := Finset.sum_le_sum fun i _ => C123_probability s hs D same independent N hN i.1 i.2 i.1.2 i.2.2 ε ε0
    _ = ENNReal.ofReal (((s.W : ℝ) * s.H) ^ 3 * s.power ^ 2 / (N * (δ * T) ^ 2)) := by
      rw [Finset.sum_const, Finset.card_univ, Fintype.card_prod, Fintype.card_fin, Fintype.card_fin, nsmul_eq_mul]
      rw [← ENNReal.ofReal_natCast, ← ENNReal.ofReal_mul (by positivity)]
      congr 1
      rw [hε]
      push_cast
      field_simp
      norm_num

/-- C127, convergence: with ever more rays, almost surely the focal spot, the pixel loss and the Kullback-Leibler loss tend to those of the expected image. -/
theorem C127_converges (s : Scene) (hs : s.Regular) (D : Nat → Ω → Fin s.points → ℝ × ℝ) (same : ∀ k, IdentDistrib (D k) (D 0) μ μ)
    (independent : Pairwise fun k l => IndepFun (D k) (D l) μ) (g : Fin s.H × Fin s.W → ℝ) :
    ∀ᵐ ω ∂μ, Tendsto (fun N => spot (s.picture N fun k => D k ω)) atTop (𝓝 (spot (s.expected μ D))) ∧
      Tendsto (fun N => Losses.pixel (s.picture N fun k => D k ω) g) atTop (𝓝 (Losses.pixel (s.expected μ D) g)) ∧
      Tendsto (fun N => Losses.kl (1 / 10 ^ 12) (s.picture N fun k => D k ω) g) atTop (𝓝 (Losses.kl (1 / 10 ^ 12) (s.expected μ D) g)) := by
  filter_upwards [C123_converges s hs D same independent] with ω h
  have hi : ∀ i : Fin s.H × Fin s.W, Tendsto (fun N => s.picture N (fun k => D k ω) i) atTop (𝓝 (s.expected μ D i)) := fun i => h i.1 i.2 i.1.2 i.2.2
  have hsum : Tendsto (fun N => (∑ i, s.picture N (fun k => D k ω) i)) atTop (𝓝 (∑ i, s.expected μ D i)) := tendsto_finset_sum _ fun i _ => hi i
  have g0 := Finset.sum_nonneg fun i (_ : i ∈ Finset.univ) => expected_nonneg (μ := μ) s hs D i
  refine ⟨?_, ?_, ?_⟩
  · simp only [spot_eq]
    have ne : (∑ i, s.expected μ D i) + 1 / 10 ^ 8 ≠ 0 := by positivity
    refine Tendsto.prodMk_nhds ?_ ?_
    · exact (tendsto_finset_sum _ fun i _ => (hi i).const_mul _).div (hsum.add_const _) ne
    · exact (tendsto_finset_sum _ fun i _ => (hi i).const_mul _).div (hsum.add_const _) ne
  · unfold Losses.pixel
    exact (tendsto_finset_sum _ fun i _ => ((hi i).sub_const _).pow 2).div_const _
  · unfold Losses.kl Losses.klPoint
    refine tendsto_finset_sum _ fun i _ => ?_
    refine Tendsto.const_mul _ (tendsto_const_nhds.sub (Tendsto.log ?_ ?_))
    · unfold Losses.normalizeL1
      have hm : Tendsto (fun N => max (∑ j, |s.picture N (fun k => D k ω) j|) (1 / 10 ^ 12)) atTop (𝓝 (max (∑ j, |s.expected μ D j|) (1 / 10 ^ 12))) :=
        (tendsto_finset_sum _ fun j _ => (hi j).abs).max tendsto_const_nhds
      exact ((hi i).div hm (ne_of_gt (lt_of_lt_of_le (by norm_num) (le_max_right _ _)))).add_const _
    · have : 0 ≤ Losses.normalizeL1 (1 / 10 ^ 12) (s.expected μ D) i :=
        div_nonneg (expected_nonneg s hs D i) (le_trans (by norm_num) (le_max_right _ _))
      positivity

end

/-! ## A concrete case -/

/-- one mirror point opposite the middle of a target -/
noncomputable def coinScene (reflectivity : ℝ) : Scene where
  W := 2
  H := 2
  dni := 1000
  cantE := ![1, 0, 0, 0]
  cantN := ![0, 1, 0, 0]
  extinction := 0
  reflectivity := reflectivity
  target := .planar ⟨⟨0, -10, 0⟩, ⟨0, 1, 0⟩, 2, 2⟩
  blocked := fun _ => 0
  incident := ![0, 1, 0, 0]
  surface := [(⟨0, 0, 0⟩, ![0, -1, 0, 0])]

theorem coinScene_regular (ρ : ℝ) (h : 0 ≤ ρ) : (coinScene ρ).Regular where
  width := by simp [coinScene]
  height := by simp [coinScene]
  dni := by norm_num [coinScene]
  extinction := by norm_num [coinScene]
  reflectivity := h
  target := by simp only [coinScene]; norm_num [Target.Valid, V3.normSq, V3.dot]
  blocked := fun ray => by simp [coinScene]
  mask := measurable_const
  incident := by simp [coinScene, dotProduct, Fin.sum_univ_four]
  normals := by
    intro p hp
    simp only [coinScene, List.mem_singleton] at hp
    subst hp
    simp [dotProduct, Fin.sum_univ_four]
  surface := by simp [coinScene]

/-- power of the mirror of the scene -/
noncomputable def coinPower : ℝ := rayMagnitude (some 1000) ![1, 0, 0, 0] ![0, 1, 0, 0] 1 1

theorem coinPower_pos : 0 < coinPower := by
  unfold coinPower rayMagnitude
  simp only [Matrix.cons_val_zero, Matrix.cons_val_one]
  norm_num

/-- undisturbed rays light all four pixels equally, rays turned round light none -/
theorem coin_one (ρ : ℝ) (r c : Nat) (hr : r < 2) (hc : c < 2) :
    one (coinScene ρ) r c (fun _ => (0, 0)) = coinPower * (ρ / 4) ∧ one (coinScene ρ) r c (fun _ => (0, Real.pi)) = 0 := by
  have dir : ∀ u : ℝ, direction ![0, 1, 0, 0] ![0, -1, 0, 0] 0 u = ⟨Real.sin u, -Real.cos u, 0⟩ := by
    intro u
    unfold direction Transforms.rotDist reflect
    ext <;> simp [Matrix.mulVec, dotProduct, Fin.sum_univ_four] <;> ring
  have unitv : ∀ (j : Fin (coinScene ρ).points) (u : ℝ), unit (coinScene ρ) r c (ray (coinScene ρ) j (0, u)) =
      contrib 2 2 (1 - r) c (hitOf 2 2 1 0 ρ (.planar ⟨⟨0, -10, 0⟩, ⟨0, 1, 0⟩, 2, 2⟩) (fun _ => 0) (⟨0, 0, 0⟩, ⟨Real.sin u, -Real.cos u, 0⟩)) := by
    intro j u
    rw [← dir u]
    have : ((coinScene ρ).surface.get j) = (⟨0, 0, 0⟩, ![0, -1, 0, 0]) := List.mem_singleton.1 (List.get_mem (coinScene ρ).surface j)
    unfold unit ray
    rw [this]
    rfl
  have go : ∀ u, one (coinScene ρ) r c (fun _ => (0, u)) = coinPower *
      contrib 2 2 (1 - r) c (hitOf 2 2 1 0 ρ (.planar ⟨⟨0, -10, 0⟩, ⟨0, 1, 0⟩, 2, 2⟩) (fun _ => 0) (⟨0, 0, 0⟩, ⟨Real.sin u, -Real.cos u, 0⟩)) := by
    intro u
    unfold one
    rw [image_sum (coinScene ρ) (by simp [coinScene]) (by simp [coinScene]) r c (by simpa [coinScene] using hr) (by simpa [coinScene] using hc)]
    simp only [unitv, Finset.range_one, Finset.sum_singleton]
    have : ∑ _j : Fin (coinScene ρ).points, contrib 2 2 (1 - r) c (hitOf 2 2 1 0 ρ (.planar ⟨⟨0, -10, 0⟩, ⟨0, 1, 0⟩, 2, 2⟩) (fun _ => 0) (⟨0, 0, 0⟩, ⟨Real.sin u, -Real.cos u, 0⟩)) =
        contrib 2 2 (1 - r) c (hitOf 2 2 1 0 ρ (.planar ⟨⟨0, -10, 0⟩, ⟨0, 1, 0⟩, 2, 2⟩) (fun _ => 0) (⟨0, 0, 0⟩, ⟨Real.sin u, -Real.cos u, 0⟩)) := by
      rw [Finset.sum_const, Finset.card_univ, Fintype.card_fin]
      show 1 • _ = _
      rw [one_smul]
    rw [this]
    rfl
  rw [go, go, Real.sin_zero, Real.cos_zero, Real.sin_pi, Real.cos_pi]
  constructor
  · congr 1
    have l : hitOf 2 2 1 0 ρ (.planar ⟨⟨0, -10, 0⟩, ⟨0, 1, 0⟩, 2, 2⟩) (fun _ => 0) (⟨0, 0, 0⟩, ⟨0, -1, 0⟩) = ⟨1 / 2, 1 / 2, ρ⟩ := by
      unfold hitOf land
      norm_num [linePlane, planePoint, Intersect.planeDistance, planeAngle, SoftMask.intensity, V3.dot, V3.sub_e, V3.sub_n, V3.sub_u, V3.add_e, V3.add_n, V3.add_u, V3.smul_e, V3.smul_n, V3.smul_u]
    rw [l]
    interval_cases r <;> interval_cases c <;> norm_num [contrib, entry1, entry2, entry3, entry4, onTarget, long, low, high] <;> ring
  · rw [show (-(-1) : ℝ) = 1 by norm_num]
    have l : (hitOf 2 2 1 0 ρ (.planar ⟨⟨0, -10, 0⟩, ⟨0, 1, 0⟩, 2, 2⟩) (fun _ => 0) (⟨0, 0, 0⟩, ⟨0, 1, 0⟩)) = ⟨1, 0, 0⟩ := by
      unfold hitOf land
      norm_num [linePlane, planePoint, Intersect.planeDistance, planeAngle, SoftMask.intensity, V3.dot, V3.sub_e, V3.sub_n, V3.sub_u, V3.add_e, V3.add_n, V3.add_u, V3.smul_e, V3.smul_n, V3.smul_u]
    rw [l]
    norm_num [contrib, entry1, entry2, entry3, entry4, onTarget, long, low, high]

/-- tossing a coin for every ray: undisturbed or turned round -/
noncomputable def coin : Measure (Fin 1 → ℝ × ℝ) := (2 : ENNReal)⁻¹ • Measure.dirac (fun _ => (0, 0)) + (2 : ENNReal)⁻¹ • Measure.dirac (fun _ => (0, Real.pi))

instance : IsProbabilityMeasure coin := ⟨by simp [coin, ENNReal.inv_two_add_inv_two]⟩

noncomputable def coins : Measure (Nat → Fin 1 → ℝ × ℝ) := Measure.infinitePi fun _ => coin

instance : IsProbabilityMeasure coins := by unfold coins; infer_instance

theorem coins_iid : (∀ k, IdentDistrib (fun ω : Nat → Fin 1 → ℝ × ℝ => ω k) (fun ω => ω 0) coins coins) ∧
    Pairwise fun k l => IndepFun (fun ω : Nat → Fin 1 → ℝ × ℝ => ω k) (fun ω => ω l) coins := by
  refine ⟨fun k => ⟨(measurable_pi_apply k).aemeasurable, (measurable_pi_apply 0).aemeasurable, ?_⟩, fun k l hkl => ?_⟩
  · unfold coins
    rw [Measure.infinitePi_map_eval, Measure.infinitePi_map_eval]
  · exact (iIndepFun_infinitePi (P := fun _ : Nat => coin) (X := fun _ ω => ω) fun _ => measurable_id).indepFun hkl

theorem coins_integral (f : (Fin 1 → ℝ × ℝ) → ℝ) (hf : Measurable f) : ∫ ω, f (ω 0) ∂coins = (f (fun _ => (0, 0)) + f (fun _ => (0, Real.pi))) / 2 := by
  have e : ∫ ω, f (ω 0) ∂coins = ∫ x, f x ∂coin := by
    have h := Measure.infinitePi_map_eval (fun _ : Nat => coin) 0
    rw [← h]
    exact (integral_map (measurable_pi_apply 0).aemeasurable hf.aestronglyMeasurable).symm
  have i1 : ∀ x, Integrable f ((2 : ENNReal)⁻¹ • Measure.dirac x) := fun x => (integrable_dirac' hf.stronglyMeasurable (by simp)).smul_measure (by simp)
  rw [e, coin, integral_add_measure (i1 _) (i1 _), integral_smul_measure, integral_smul_measure, integral_dirac' _ _ hf.stronglyMeasurable, integral_dirac' _ _ hf.stronglyMeasurable]
  simp
  ring

/-- The scene of the example: the coin of ray `k` decides about ray `k`. -/
def coinRays (k : Nat) (ω : Nat → Fin 1 → ℝ × ℝ) : Fin (coinScene 1).points → ℝ × ℝ := ω k

theorem coin_expected : (coinScene 1).expected coins coinRays = fun _ => coinPower / 8 := by
  funext i
  have hm := one_measurable (coinScene 1) (coinScene_regular 1 zero_le_one) i.1 i.2 i.1.2 i.2.2
  have h := coins_integral (one (coinScene 1) i.1 i.2) hm
  have h1 : one (coinScene 1) i.1 i.2 (fun _ : Fin 1 => (0, 0)) = coinPower * (1 / 4) := (coin_one 1 i.1 i.2 i.1.2 i.2.2).1
  have h2 : one (coinScene 1) i.1 i.2 (fun _ : Fin 1 => (0, Real.pi)) = 0 := (coin_one 1 i.1 i.2 i.1.2 i.2.2).2
  rw [h1, h2] at h
  unfold Scene.expected
  refine h.trans ?_
  ring

theorem coin_noise : (coinScene 1).noise coins coinRays = coinPower ^ 2 / 16 := by
  have v : ∀ i : Fin (coinScene 1).H × Fin (coinScene 1).W, variance (fun ω => (coinScene 1).image i.1 i.2 1 fun _ => coinRays 0 ω) coins = coinPower ^ 2 / 64 := by
    intro i
    have hm := one_measurable (coinScene 1) (coinScene_regular 1 zero_le_one) i.1 i.2 i.1.2 i.2.2
    have hl := image_memLp (coinScene 1) (coinScene_regular 1 zero_le_one) (fun _ => coinRays 0) (μ := coins) (fun _ => (measurable_pi_apply 0).aemeasurable) 1 i
    rw [variance_eq_sub hl]
    have h := coins_integral (one (coinScene 1) i.1 i.2) hm
    have h' := coins_integral (fun x => one (coinScene 1) i.1 i.2 x ^ 2) (hm.pow_const 2)
    have h1 : one (coinScene 1) i.1 i.2 (fun _ : Fin 1 => (0, 0)) = coinPower * (1 / 4) := (coin_one 1 i.1 i.2 i.1.2 i.2.2).1
    have h2 : one (coinScene 1) i.1 i.2 (fun _ : Fin 1 => (0, Real.pi)) = 0 := (coin_one 1 i.1 i.2 i.1.2 i.2.2).2
    rw [h1, h2] at h h'
    have e1 : ∫ ω, (coinScene 1).image i.1 i.2 1 (fun k => (fun _ => coinRays 0) k ω) ∂coins = _ := h
    have e2 : ∫ ω, ((fun ω => (coinScene 1).image i.1 i.2 1 fun k => (fun _ => coinRays 0) k ω) ^ 2) ω ∂coins = _ := h'
    rw [e1, e2]
    ring
  unfold Scene.noise
  rw [Finset.sum_congr rfl fun i _ => v i, Finset.sum_const, Finset.card_univ, Fintype.card_prod, Fintype.card_fin, Fintype.card_fin]
  show (2 * 2) • _ = _
  rw [nsmul_eq_mul]
  push_cast
  ring

/-- C127, with few rays noise decides: here the true model is compared with one that has a wrong reflectivity, but no scatter.  With three rays per surface point or fewer, the wrong model has the smaller pixel loss on
average, although without noise the true model has none and the wrong one has some. -/
theorem C127_too_few : (coinScene 1).Regular ∧ (coinScene (3 / 4)).Regular ∧
    (∀ k, IdentDistrib (coinRays k) (coinRays 0) coins coins) ∧ (Pairwise fun k l => IndepFun (coinRays k) (coinRays l) coins) ∧
    Losses.pixel ((coinScene 1).expected coins coinRays) ((coinScene 1).expected coins coinRays) = 0 ∧
    0 < Losses.pixel ((coinScene (3 / 4)).expected coins fun _ _ _ => (0, 0)) ((coinScene 1).expected coins coinRays) ∧
    ∀ N, 0 < N → N ≤ 3 → ∫ _, Losses.pixel ((coinScene (3 / 4)).picture N fun _ _ => (0, 0)) ((coinScene 1).expected coins coinRays) ∂coins <
      ∫ ω, Losses.pixel ((coinScene 1).picture N fun k => coinRays k ω) ((coinScene 1).expected coins coinRays) ∂coins := by
  have P0 := coinPower_pos
  have reg := coinScene_regular 1 zero_le_one
  have reg' := coinScene_regular (3 / 4) (by norm_num)
  obtain ⟨same, independent⟩ := coins_iid
  have total : ∑ i, (coinScene 1).expected coins coinRays i = coinPower / 2 := by
    rw [coin_expected, Finset.sum_const, Finset.card_univ, Fintype.card_prod, Fintype.card_fin, Fintype.card_fin]
    show (2 * 2) • _ = _
    rw [nsmul_eq_mul]
    push_cast
    ring
  have wrong : ∀ f : Fin (coinScene (3 / 4)).H × Fin (coinScene (3 / 4)).W → ℝ, (∀ i, f i = coinPower * (3 / 16)) → Losses.pixel f ((coinScene 1).expected coins coinRays) = coinPower / 32 := by
    intro f hf
    unfold Losses.pixel
    have t : ∑ i : Fin (coinScene (3 / 4)).H × Fin (coinScene (3 / 4)).W, (coinScene 1).expected coins coinRays i = coinPower / 2 := total
    rw [t, coin_expected]
    simp only [hf]
    rw [Finset.sum_const, Finset.card_univ, Fintype.card_prod, Fintype.card_fin, Fintype.card_fin]
    show (2 * 2) • _ / _ = _
    rw [nsmul_eq_mul]
    push_cast
    field_simp
    norm_num
  refine ⟨reg, reg', same, independent, by simp [Losses.pixel], ?_, ?_⟩
  · rw [wrong _ fun i => ?_]
    · positivity
    · unfold Scene.expected
      have := (coin_one (3 / 4) i.1 i.2 i.1.2 i.2.2).1
      unfold one at this
      simp only [this, integral_const, probReal_univ, smul_eq_mul, one_mul]
      ring
  · intro N hN h3
    have fl := (C127_floor (coinScene 1) reg coinRays same independent N hN (by rw [total]; positivity)).1
    rw [fl, coin_noise, total, wrong _ fun i => ?_]
    · simp only [integral_const, probReal_univ, smul_eq_mul, one_mul]
      have hN' : (0 : ℝ) < N := by exact_mod_cast hN
      have h3' : (N : ℝ) ≤ 3 := by exact_mod_cast h3
      rw [div_div, lt_div_iff₀ (by positivity)]
      nlinarith [mul_pos P0 P0]
    · unfold Scene.picture
      rw [C123_same_rows (coinScene (3 / 4)) reg' N hN _ i.1 i.2 i.1.2 i.2.2]
      have := (coin_one (3 / 4) i.1 i.2 i.1.2 i.2.2).1
      unfold one at this
      rw [this]
      ring

/-- The focal spot of the blocked scene converges for a sun as the program draws it; the loss formula applies with any measured image. -/
example : ∃ (μ : Measure (Nat → Fin 2 → ℝ × ℝ)) (_ : IsProbabilityMeasure μ) (D : Nat → (Nat → Fin 2 → ℝ × ℝ) → Fin 2 → ℝ × ℝ),
    (∀ᵐ ω ∂μ, Tendsto (fun N => spot (wallScene.picture N fun k => D k ω)) atTop (𝓝 (spot (wallScene.expected μ D)))) ∧
    ∫ ω, Losses.pixel (wallScene.picture 100 fun k => D k ω) (fun _ => 5) ∂μ = Losses.pixel (wallScene.expected μ D) (fun _ => 5) + wallScene.noise μ D / (100 : Nat) / ∑ _i : Fin wallScene.H × Fin wallScene.W, (5 : ℝ) := by
  obtain ⟨μ, hμ, D, h1, h2, -, -⟩ := C123_sun 2 0 (43681 / 10 ^ 10)
  refine ⟨μ, hμ, D, ?_, (C127_pixel_loss wallScene wallScene_regular D h1 h2 100 (by norm_num) (fun _ => 5)
    (Finset.sum_pos (fun _ _ => by norm_num) ⟨(⟨0, by simp [wallScene]⟩, ⟨0, by simp [wallScene]⟩), Finset.mem_univ _⟩)).2⟩
  filter_upwards [C127_converges wallScene wallScene_regular D h1 h2 fun _ => 5] with ω h
  exact h.1

/-- The probability bound applies to the coins: with 10^9 rays the focal spot is off by more than a percent with a probability of less than three in a thousand. -/
example : coins {ω | 1 / 100 * (((coinScene 1).W : ℝ) - 1) < |(spot ((coinScene 1).picture 1000000000 fun k => coinRays k ω)).1 - (spot ((coinScene 1).expected coins coinRays)).1| ∨
      1 / 100 * (((coinScene 1).H : ℝ) - 1) < |(spot ((coinScene 1).picture 1000000000 fun k => coinRays k ω)).2 - (spot ((coinScene 1).expected coins coinRays)).2|} ≤
    ENNReal.ofReal ((((coinScene 1).W : ℝ) * (coinScene 1).H) ^ 3 * (coinScene 1).power ^ 2 / ((1000000000 : Nat) * (1 / 100 * ∑ i, (coinScene 1).expected coins coinRays i) ^ 2)) := by
  refine C127_spot_probability (coinScene 1) (coinScene_regular 1 zero_le_one) coinRays coins_iid.1 coins_iid.2 1000000000 (by norm_num) ?_ (1 / 100) (by norm_num)
  rw [coin_expected]
  have := coinPower_pos
  refine Finset.sum_pos (fun i _ => by positivity) ⟨(⟨0, by simp [coinScene]⟩, ⟨0, by simp [coinScene]⟩), Finset.mem_univ _⟩

end Artist.ManyRays
