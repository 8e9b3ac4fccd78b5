import Verif.Spec.NoisyLoss
import Verif.Props.ManyRays
/-! Helper lemmas for C127. -/
namespace Artist.ManyRays
open Artist Intersect Flux Splat MeasureTheory ProbabilityTheory Filter Topology

section
variable {Ω : Type} [MeasurableSpace Ω] {μ : Measure Ω} [IsProbabilityMeasure μ]

/-- mean squared distance = variance + squared bias -/
theorem mean_square {X : Ω → ℝ} (hX : MemLp X 2 μ) (g : ℝ) :
    Integrable (fun ω => (X ω - g) ^ 2) μ ∧ ∫ ω, (X ω - g) ^ 2 ∂μ = variance X μ + ((∫ ω, X ω ∂μ) - g) ^ 2 := by
  have h2 : Integrable (fun ω => X ω ^ 2) μ := hX.integrable_sq
  have h1 : Integrable X μ := hX.integrable (by norm_num)
  have e : (fun ω => (X ω - g) ^ 2) = fun ω => X ω ^ 2 - 2 * g * X ω + g ^ 2 := by funext ω; ring
  have hi : Integrable (fun ω => X ω ^ 2 - 2 * g * X ω) μ := h2.sub (h1.const_mul _)
  refine ⟨by rw [e]; exact hi.add (integrable_const _), ?_⟩
  rw [e, integral_add hi (integrable_const _), integral_sub h2 (h1.const_mul _), integral_const_mul, variance_eq_sub hX]
  simp only [integral_const, probReal_univ, smul_eq_mul, one_mul, Pi.pow_apply]
  ring

theorem image_memLp (s : Scene) (hs : s.Regular) (D : Nat → Ω → Fin s.points → ℝ × ℝ) (hD : ∀ k, AEMeasurable (D k) μ) (N : Nat) (i : Fin s.H × Fin s.W) :
    MemLp (fun ω => s.image i.1 i.2 N fun k => D k ω) 2 μ := by
  have hm := one_measurable s hs i.1 i.2 i.1.2 i.2.2
  refine bounded_memLp ?_ (fun ω => image_bounds s hs i.1 i.2 i.1.2 i.2.2 N fun k => D k ω) 2
  simp only [image_mean s hs i.1 i.2 i.1.2 i.2.2 N]
  exact (Finset.aemeasurable_fun_sum _ fun k _ => hm.comp_aemeasurable (hD k)).div_const _

/-- the pixels of one image add up to at most the power of the mirror -/
theorem total_le (s : Scene) (hs : s.Regular) (x : Fin s.points → ℝ × ℝ) : ∑ i : Fin s.H × Fin s.W, one s i.1 i.2 x ≤ s.power := by
  have hp := points_pos s hs
  obtain ⟨m0, m1⟩ := magnitude_power s hs
  obtain ⟨bitmap, a, b, c, h1, -, -, h4⟩ := C65_bound s.W s.H hs.width hs.height (rayMagnitude (some s.dni) s.cantE s.cantN s.points 1) s.extinction s.reflectivity m0 hs.extinction hs.reflectivity
    s.target hs.target s.blocked hs.blocked s.incident hs.incident.1 hs.incident.2 s.surface hs.normals ((List.range 1).map fun _ => List.ofFn x)
  have e : ∀ i : Fin s.H × Fin s.W, one s i.1 i.2 x = pixel bitmap i.1 i.2 := by
    intro i
    unfold one Scene.image Scene.trace
    simp only [List.length_map, List.length_range]
    rw [h1]
  simp only [e]
  rw [Fintype.sum_prod_type]
  have l : (raysOf s.incident s.surface ((List.range 1).map fun _ => List.ofFn x)).length = s.points := by
    rw [GroupFlux.length_raysOf _ _ _ (by
      intro row hrow
      rw [List.mem_map] at hrow
      obtain ⟨_, -, rfl⟩ := hrow
      rw [List.length_ofFn])]
    simp
  have f : ∑ r : Fin s.H, ∑ c : Fin s.W, pixel bitmap r c = power s.W s.H bitmap := by
    unfold power
    rw [Finset.sum_range]
    refine Finset.sum_congr rfl fun r _ => ?_
    rw [Finset.sum_range]
  rw [f]
  refine h4.trans (le_of_eq ?_)
  rw [l, mul_assoc (rayMagnitude _ _ _ _ _), m1]
  field_simp

theorem noise_bounds (s : Scene) (hs : s.Regular) (D : Nat → Ω → Fin s.points → ℝ × ℝ) (hD : ∀ k, AEMeasurable (D k) μ) : 0 ≤ s.noise μ D ∧ s.noise μ D ≤ s.power ^ 2 := by
  refine ⟨Finset.sum_nonneg fun i _ => variance_nonneg _ _, ?_⟩
  have hX := fun i => image_memLp s hs D hD 1 i
  have hb := fun (i : Fin s.H × Fin s.W) ω => one_bounds s hs i.1 i.2 i.1.2 i.2.2 (D 0 ω)
  have e : ∀ i : Fin s.H × Fin s.W, (fun ω => s.image i.1 i.2 1 fun _ => D 0 ω) = fun ω => s.image i.1 i.2 1 fun k => (fun _ => D 0) k ω := fun i => rfl
  have hX' : ∀ i : Fin s.H × Fin s.W, MemLp (fun ω => one s i.1 i.2 (D 0 ω)) 2 μ := fun i => image_memLp s hs (fun _ => D 0) (fun _ => hD 0) 1 i
  calc s.noise μ D ≤ ∑ i : Fin s.H × Fin s.W, ∫ ω, (one s i.1 i.2 (D 0 ω)) ^ 2 ∂μ :=
        Finset.sum_le_sum fun i _ => by
          have := variance_le_expectation_sq (hX' i).aestronglyMeasurable
          exact this
    _ = ∫ ω, ∑ i : Fin s.H × Fin s.W, (one s i.1 i.2 (D 0 ω)) ^ 2 ∂μ := (integral_finset_sum _ fun i _ => (hX' i).integrable_sq).symm
    _ ≤ ∫ _, s.power ^ 2 ∂μ := by
        refine integral_mono (integrable_finset_sum _ fun i _ => (hX' i).integrable_sq) (integrable_const _) fun ω => ?_
        have h := total_le s hs (D 0 ω)
        have h0 : 0 ≤ ∑ i : Fin s.H × Fin s.W, one s i.1 i.2 (D 0 ω) := Finset.sum_nonneg fun i _ => (hb i ω).1
        exact (Finset.sum_sq_le_sq_sum_of_nonneg fun i _ => (hb i ω).1).trans (pow_le_pow_left₀ h0 h 2)
    _ = s.power ^ 2 := by simp

end

/-- sums over an image -/
theorem sum_asImage {W H : Nat} (f : Fin H × Fin W → ℝ) (v : Nat → Nat → ℝ) :
    ∑ r ∈ Finset.range H, ∑ c ∈ Finset.range W, v r c * (asImage f).pixel r c = ∑ i : Fin H × Fin W, v i.1 i.2 * f i := by
  rw [Fintype.sum_prod_type, Finset.sum_range]
  refine Finset.sum_congr rfl fun r _ => ?_
  rw [Finset.sum_range]
  refine Finset.sum_congr rfl fun c _ => ?_
  simp [asImage]

theorem spot_eq {W H : Nat} (f : Fin H × Fin W → ℝ) :
    spot f = ((∑ i : Fin H × Fin W, (i.2 : ℝ) * f i) / ((∑ i, f i) + 1 / 10 ^ 8), (∑ i : Fin H × Fin W, (i.1 : ℝ) * f i) / ((∑ i, f i) + 1 / 10 ^ 8)) := by
  have t : ∑ r ∈ Finset.range H, ∑ c ∈ Finset.range W, (asImage f).pixel r c = ∑ i, f i := by
    have := sum_asImage f fun _ _ => 1
    simpa using this
  unfold spot Bitmap.centerOfMass
  simp only [t]
  rw [← sum_asImage f fun _ c => (c : ℝ), ← sum_asImage f fun r _ => (r : ℝ)]
  simp only [Finset.sum_div, mul_div_assoc]

/-- how far a weighted mean moves -/
theorem mean_moves {ι : Type} [Fintype ι] (v f g : ι → ℝ) (n e γ : ℝ) (hv : ∀ i, 0 ≤ v i ∧ v i ≤ n) (hf : ∀ i, 0 ≤ f i) (he : 0 < e) (hg : 0 ≤ ∑ i, g i) (h : ∑ i, |f i - g i| ≤ γ) (hn : 0 ≤ n) :
    |(∑ i, v i * f i) / ((∑ i, f i) + e) - (∑ i, v i * g i) / ((∑ i, g i) + e)| ≤ 2 * n * γ / ((∑ i, g i) + e) := by
  have T0 : 0 < (∑ i, g i) + e := by linarith
  have S0 : 0 < (∑ i, f i) + e := by have := Finset.sum_nonneg fun i (_ : i ∈ Finset.univ) => hf i; linarith
  have d1 : |∑ i, v i * f i - ∑ i, v i * g i| ≤ n * γ := by
    rw [← Finset.sum_sub_distrib]
    refine (Finset.abs_sum_le_sum_abs _ _).trans ?_
    calc ∑ i, |v i * f i - v i * g i| ≤ ∑ i, n * |f i - g i| := Finset.sum_le_sum fun i _ => by
          rw [← mul_sub, abs_mul, abs_of_nonneg (hv i).1]
          exact mul_le_mul_of_nonneg_right (hv i).2 (abs_nonneg _)
      _ = n * ∑ i, |f i - g i| := by rw [Finset.mul_sum]
      _ ≤ n * γ := mul_le_mul_of_nonneg_left h hn
  have d2 : |∑ i, g i - ∑ i, f i| ≤ γ := by
    rw [← Finset.sum_sub_distrib]
    refine (Finset.abs_sum_le_sum_abs _ _).trans (le_trans (le_of_eq ?_) h)
    exact Finset.sum_congr rfl fun i _ => abs_sub_comm _ _
  have A0 : 0 ≤ ∑ i, v i * f i := Finset.sum_nonneg fun i _ => mul_nonneg (hv i).1 (hf i)
  have A1 : (∑ i, v i * f i) / ((∑ i, f i) + e) ≤ n := by
    rw [div_le_iff₀ S0]
    calc ∑ i, v i * f i ≤ ∑ i, n * f i := Finset.sum_le_sum fun i _ => mul_le_mul_of_nonneg_right (hv i).2 (hf i)
      _ = n * ∑ i, f i := by rw [Finset.mul_sum]
      _ ≤ _ := mul_le_mul_of_nonneg_left (by linarith) hn
  have A2 : 0 ≤ (∑ i, v i * f i) / ((∑ i, f i) + e) := div_nonneg A0 S0.le
  generalize (∑ i, v i * f i) = a at *
  generalize (∑ i, v i * g i) = b at *
  generalize (∑ i, f i) = S at *
  generalize (∑ i, g i) = T at *
  have eq : a / (S + e) - b / (T + e) = (a / (S + e) * (T - S) + (a - b)) / (T + e) := by
    field_simp
    ring
  rw [eq, abs_div, abs_of_pos T0]
  refine div_le_div_of_nonneg_right ?_ T0.le
  refine (abs_add_le _ _).trans ?_
  rw [abs_mul, abs_of_nonneg A2]
  have := mul_le_mul A1 d2 (abs_nonneg _) hn
  linarith

end Artist.ManyRays
