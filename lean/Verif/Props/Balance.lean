import Verif.Model.Balance
import Verif.Props.Regularizers
import Mathlib.Analysis.Calculus.Deriv.Inv
import Mathlib.Analysis.Calculus.Deriv.Mul
import Mathlib.Analysis.Calculus.Deriv.Add
import Mathlib.Tactic.Linarith
import Mathlib.Tactic.FieldSimp
import Mathlib.Tactic.NormNum
import Mathlib.Tactic.Positivity
/-!
# C84: the regularisers of the surface reconstruction hold the surface back in proportion to their weights
-/
namespace Artist.Balance
open Artist

/-- What the balanced term of one regulariser contributes to the loss: its weight times the mean flux loss, times a saturation between 0 and 1. -/
noncomputable def share (weight epsilon flux regularizer : ℝ) : ℝ := weight * flux * (regularizer / (regularizer + epsilon))

theorem mean_add {n : Nat} (x y : Fin n → ℝ) : mean (fun k => x k + y k) = mean x + mean y := by
  unfold mean; rw [Finset.sum_add_distrib, add_div]

theorem mean_mul {n : Nat} (c : ℝ) (x : Fin n → ℝ) : mean (fun k => c * x k) = c * mean x := by
  unfold mean; rw [← Finset.mul_sum, mul_div_assoc]

theorem mean_nonneg {n : Nat} (x : Fin n → ℝ) (h : ∀ k, 0 ≤ x k) : 0 ≤ mean x :=
  div_nonneg (Finset.sum_nonneg fun k _ => h k) (Nat.cast_nonneg n)

theorem guarded_term {n : Nat} (weight epsilon : ℝ) (hw : 0 ≤ weight) (flux x : Fin n → ℝ) :
    factor weight epsilon flux (guarded weight x) * mean (guarded weight x) = share weight epsilon (mean flux) (mean x) := by
  rcases hw.lt_or_eq with h | h
  · have e : guarded weight x = x := by funext k; simp [guarded, h]
    rw [e]; unfold factor share; ring
  · subst h; simp [factor, share]

/-- C84, value: the loss is the mean flux loss plus the mean constraint plus one share per regulariser; how much a heliostat deviates enters only through
the saturation `r / (r + ε)`. -/
theorem C84_value {n : Nat} (W : Weights) (h1 : 0 ≤ W.smoothness) (h2 : 0 ≤ W.ideal) (flux constraint smooth ideal : Fin n → ℝ) :
    total W flux constraint smooth ideal =
      mean flux + mean constraint + share W.smoothness W.epsilon (mean flux) (mean smooth) + share W.ideal W.epsilon (mean flux) (mean ideal) := by
  unfold total
  rw [mean_add, mean_add, mean_add, mean_mul, mean_mul, guarded_term _ _ h1, guarded_term _ _ h2]

theorem share_bounds (weight epsilon flux r : ℝ) (hw : 0 ≤ weight) (he : 0 < epsilon) (hf : 0 ≤ flux) (hr : 0 ≤ r) :
    0 ≤ share weight epsilon flux r ∧ share weight epsilon flux r ≤ weight * flux := by
  have h1 : 0 ≤ r / (r + epsilon) := by positivity
  have h2 : r / (r + epsilon) ≤ 1 := (div_le_one (by linarith)).2 (by linarith)
  have h3 : 0 ≤ weight * flux := mul_nonneg hw hf
  exact ⟨mul_nonneg h3 h1, mul_le_of_le_one_right h3 h2⟩

theorem saturation_mono (epsilon r r' : ℝ) (he : 0 < epsilon) (hr : 0 ≤ r) (h : r ≤ r') : r / (r + epsilon) ≤ r' / (r' + epsilon) := by
  rw [div_le_div_iff₀ (by linarith) (by linarith)]; nlinarith

theorem saturation_strict (epsilon r r' : ℝ) (he : 0 < epsilon) (hr : 0 ≤ r) (h : r < r') : r / (r + epsilon) < r' / (r' + epsilon) := by
  rw [div_lt_div_iff₀ (by linarith) (by linarith)]; nlinarith

/-- C84: among surfaces with the same flux losses and constraints those that deviate less cost less (strictly, if the mean flux loss, the weight and the difference are
positive).  (The full claim is that the weights hold the surface back in proportion; it is false, see `C84_any_roughness` and `C84_slope`.) -/
theorem C84_order_partial {n : Nat} (W : Weights) (h1 : 0 ≤ W.smoothness) (h2 : 0 ≤ W.ideal) (he : 0 < W.epsilon) (flux constraint : Fin n → ℝ)
    (hf : ∀ k, 0 ≤ flux k) (smooth ideal smooth' ideal' : Fin n → ℝ) (hs : ∀ k, 0 ≤ smooth k) (hi : ∀ k, 0 ≤ ideal k)
    (hs' : mean smooth ≤ mean smooth') (hi' : mean ideal ≤ mean ideal') :
    total W flux constraint smooth ideal ≤ total W flux constraint smooth' ideal' ∧
    (0 < mean flux → (0 < W.smoothness ∧ mean smooth < mean smooth' ∨ 0 < W.ideal ∧ mean ideal < mean ideal') →
      total W flux constraint smooth ideal < total W flux constraint smooth' ideal') := by
  have a := saturation_mono _ _ _ he (mean_nonneg _ hs) hs'
  have b := saturation_mono _ _ _ he (mean_nonneg _ hi) hi'
  have f0 := mean_nonneg _ hf
  have A := mul_le_mul_of_nonneg_left a (mul_nonneg h1 f0)
  have B := mul_le_mul_of_nonneg_left b (mul_nonneg h2 f0)
  rw [C84_value W h1 h2, C84_value W h1 h2]
  unfold share
  refine ⟨by linarith, ?_⟩
  rintro fp (⟨wp, lt⟩ | ⟨wp, lt⟩)
  · have := mul_lt_mul_of_pos_left (saturation_strict _ _ _ he (mean_nonneg _ hs) lt) (mul_pos wp fp); linarith
  · have := mul_lt_mul_of_pos_left (saturation_strict _ _ _ he (mean_nonneg _ hi) lt) (mul_pos wp fp); linarith

/-- C84: the original surfaces are not penalised, and no surface is rewarded. -/
theorem C84_original {n : Nat} (W : Weights) (h1 : 0 ≤ W.smoothness) (h2 : 0 ≤ W.ideal) (he : 0 < W.epsilon) (facets h w : Nat) (hh : 0 < h) (hw : 0 < w)
    (original : Surfaces n) (flux constraint : Fin n → ℝ) (hf : ∀ k, 0 ≤ flux k) :
    loss W facets h w original flux constraint original = mean flux + mean constraint ∧
    ∀ current, mean flux + mean constraint ≤ loss W facets h w original flux constraint current := by
  constructor
  · unfold loss
    rw [C84_value W h1 h2]
    have a : (fun k => Regularizers.smoothness facets h w (original k) (original k)) = fun _ => (0 : ℝ) := by
      funext k
      exact (Regularizers.C40_smoothness_zero_iff facets h w hh hw _ _).2 fun f _ => ⟨0, fun i _ j _ => by ext <;> simp⟩
    have b : (fun k => Regularizers.ideal facets h w (original k) (original k)) = fun _ => (0 : ℝ) := by
      funext k
      exact (Regularizers.C40_ideal_zero_iff facets h w hh hw _ _).2 fun f _ i _ j _ => rfl
    rw [a, b]
    have z : mean (fun _ : Fin n => (0 : ℝ)) = 0 := by simp [mean]
    rw [z]; simp [share]
  · intro current
    unfold loss
    rw [C84_value W h1 h2]
    have a := (share_bounds W.smoothness W.epsilon _ _ h1 he (mean_nonneg _ hf)
      (mean_nonneg (fun k => Regularizers.smoothness facets h w (current k) (original k)) fun k => (Regularizers.C40_nonneg facets h w _ _).1)).1
    have b := (share_bounds W.ideal W.epsilon _ _ h2 he (mean_nonneg _ hf)
      (mean_nonneg (fun k => Regularizers.ideal facets h w (current k) (original k)) fun k => (Regularizers.C40_nonneg facets h w _ _).2)).1
    linarith

/-- C84 is false: no surface, however rough or far from the original, costs more than its weights times its flux loss.  A surface whose flux loss is smaller by the factor
`1 + weights` is preferred to every other one (in particular to the original). -/
theorem C84_any_roughness {n : Nat} (W : Weights) (h1 : 0 ≤ W.smoothness) (h2 : 0 ≤ W.ideal) (he : 0 < W.epsilon) (facets h w : Nat)
    (original : Surfaces n) (flux constraint : Fin n → ℝ) (hf : ∀ k, 0 ≤ flux k) (current : Surfaces n) :
    loss W facets h w original flux constraint current ≤ (1 + W.smoothness + W.ideal) * mean flux + mean constraint ∧
    ∀ (other : Surfaces n) (flux' constraint' : Fin n → ℝ), (∀ k, 0 ≤ flux' k) →
      (1 + W.smoothness + W.ideal) * mean flux + mean constraint < mean flux' + mean constraint' →
        loss W facets h w original flux constraint current < loss W facets h w original flux' constraint' other := by
  have up : loss W facets h w original flux constraint current ≤ (1 + W.smoothness + W.ideal) * mean flux + mean constraint := by
    unfold loss
    rw [C84_value W h1 h2]
    have a := (share_bounds W.smoothness W.epsilon _ _ h1 he (mean_nonneg _ hf)
      (mean_nonneg (fun k => Regularizers.smoothness facets h w (current k) (original k)) fun k => (Regularizers.C40_nonneg facets h w _ _).1)).2
    have b := (share_bounds W.ideal W.epsilon _ _ h2 he (mean_nonneg _ hf)
      (mean_nonneg (fun k => Regularizers.ideal facets h w (current k) (original k)) fun k => (Regularizers.C40_nonneg facets h w _ _).2)).2
    linarith
  refine ⟨up, fun other flux' constraint' hf' lt => ?_⟩
  have low : mean flux' + mean constraint' ≤ loss W facets h w original flux' constraint' other := by
    unfold loss
    rw [C84_value W h1 h2]
    have a := (share_bounds W.smoothness W.epsilon _ _ h1 he (mean_nonneg _ hf')
      (mean_nonneg (fun k => Regularizers.smoothness facets h w (other k) (original k)) fun k => (Regularizers.C40_nonneg facets h w _ _).1)).1
    have b := (share_bounds W.ideal W.epsilon _ _ h2 he (mean_nonneg _ hf')
      (mean_nonneg (fun k => Regularizers.ideal facets h w (other k) (original k)) fun k => (Regularizers.C40_nonneg facets h w _ _).2)).1
    linarith
  linarith

theorem mean_deriv {n : Nat} (x : ℝ → Fin n → ℝ) (x' : Fin n → ℝ) (t : ℝ) (h : ∀ k, HasDerivAt (fun t => x t k) (x' k) t) :
    HasDerivAt (fun t => mean (x t)) (mean x') t := by
  unfold mean
  have := HasDerivAt.fun_sum (u := Finset.univ) (fun (k : Fin n) _ => h k)
  exact this.div_const _

theorem share_deriv (weight epsilon : ℝ) (f r : ℝ → ℝ) (f' r' t : ℝ) (hf : HasDerivAt f f' t) (hr : HasDerivAt r r' t) (h0 : r t + epsilon ≠ 0) :
    HasDerivAt (fun t => share weight epsilon (f t) (r t))
      (weight * (r t / (r t + epsilon)) * f' + epsilon / (r t + epsilon) * (weight * f t / (r t + epsilon) * r')) t := by
  unfold share
  have h := (hf.const_mul weight).mul (hr.div (hr.add_const epsilon) h0)
  refine h.congr_deriv ?_
  simp only [Pi.div_apply]
  field_simp
  ring

/-- C84 is false for the slopes: along every differentiable change of the surfaces the loss changes by the flux slope, scaled by at least one, the constraint slope, and for each
regulariser its balanced slope (`factor * slope`, what the weight asks for) times only `ε / (r + ε)`, where `r` is the mean regulariser loss. -/
theorem C84_slope {n : Nat} (W : Weights) (h1 : 0 ≤ W.smoothness) (h2 : 0 ≤ W.ideal) (flux constraint smooth ideal : ℝ → Fin n → ℝ)
    (flux' constraint' smooth' ideal' : Fin n → ℝ) (t : ℝ) (hs : mean (smooth t) + W.epsilon ≠ 0) (hi : mean (ideal t) + W.epsilon ≠ 0)
    (d1 : ∀ k, HasDerivAt (fun t => flux t k) (flux' k) t) (d2 : ∀ k, HasDerivAt (fun t => constraint t k) (constraint' k) t)
    (d3 : ∀ k, HasDerivAt (fun t => smooth t k) (smooth' k) t) (d4 : ∀ k, HasDerivAt (fun t => ideal t k) (ideal' k) t) :
    HasDerivAt (fun t => total W (flux t) (constraint t) (smooth t) (ideal t))
      ((1 + W.smoothness * (mean (smooth t) / (mean (smooth t) + W.epsilon)) + W.ideal * (mean (ideal t) / (mean (ideal t) + W.epsilon))) * mean flux' + mean constraint'
        + W.epsilon / (mean (smooth t) + W.epsilon) * (factor W.smoothness W.epsilon (flux t) (smooth t) * mean smooth')
        + W.epsilon / (mean (ideal t) + W.epsilon) * (factor W.ideal W.epsilon (flux t) (ideal t) * mean ideal')) t := by
  have e : (fun t => total W (flux t) (constraint t) (smooth t) (ideal t)) = fun t => mean (flux t) + mean (constraint t)
      + share W.smoothness W.epsilon (mean (flux t)) (mean (smooth t)) + share W.ideal W.epsilon (mean (flux t)) (mean (ideal t)) := by
    funext t; exact C84_value W h1 h2 _ _ _ _
  rw [e]
  have D := (((mean_deriv _ _ t d1).add (mean_deriv _ _ t d2)).add
    (share_deriv W.smoothness W.epsilon _ _ _ _ t (mean_deriv _ _ t d1) (mean_deriv _ _ t d3) hs)).add
    (share_deriv W.ideal W.epsilon _ _ _ _ t (mean_deriv _ _ t d1) (mean_deriv _ _ t d4) hi)
  refine D.congr_deriv ?_
  unfold factor
  ring

/-- C84, what roughening costs: a surface that already deviates by `r` in the mean (of the smoothness loss) can become arbitrarily rougher, with the same flux loss, for at most
the fraction `ε / (r + ε)` of the weight times the flux loss. -/
theorem C84_roughening {n : Nat} (W : Weights) (h1 : 0 ≤ W.smoothness) (h2 : 0 ≤ W.ideal) (he : 0 < W.epsilon) (flux constraint : Fin n → ℝ) (hf : ∀ k, 0 ≤ flux k)
    (smooth ideal smooth' : Fin n → ℝ) (hs : ∀ k, 0 ≤ smooth k) (hs' : ∀ k, 0 ≤ smooth' k) :
    total W flux constraint smooth' ideal - total W flux constraint smooth ideal ≤ W.smoothness * mean flux * (W.epsilon / (mean smooth + W.epsilon)) := by
  rw [C84_value W h1 h2, C84_value W h1 h2]
  have m := mean_nonneg _ hs
  have a := (share_bounds W.smoothness W.epsilon _ _ h1 he (mean_nonneg _ hf) (mean_nonneg _ hs')).2
  have b : share W.smoothness W.epsilon (mean flux) (mean smooth) = W.smoothness * mean flux - W.smoothness * mean flux * (W.epsilon / (mean smooth + W.epsilon)) := by
    have : mean smooth + W.epsilon ≠ 0 := by linarith
    unfold share; field_simp; ring
  linarith

/-- The weights of the tutorial with the default `epsilon`. -/
noncomputable def tutorial : Weights := ⟨0.005, 0.005, 1e-12⟩

/-- A case for `C84_roughening`: the mean smoothness loss is a millionth of a square metre (second differences of a millimetre); all further roughness costs less than
`5e-9` of the flux loss. -/
example (smooth' : Fin 1 → ℝ) (h : ∀ k, 0 ≤ smooth' k) :
    total tutorial (fun _ => 1) (fun _ => 0) smooth' (fun _ => 0) - total tutorial (fun _ : Fin 1 => 1) (fun _ => 0) (fun _ => 1e-6) (fun _ => 0) ≤ 5e-9 := by
  have := C84_roughening tutorial (by norm_num [tutorial]) (by norm_num [tutorial]) (by norm_num [tutorial]) (fun _ : Fin 1 => 1) (fun _ => 0)
    (fun _ => by norm_num) (fun _ => 1e-6) (fun _ => 0) smooth' (fun _ => by norm_num) h
  refine this.trans ?_
  norm_num [tutorial, mean]

/-- A case for `C84_slope`: one heliostat, flux loss falling with slope -1 while the smoothness loss rises with slope 1 from 1; the weight (1) asks for a balance of both,
the slope of the loss is still almost `-2`. -/
example : ∃ d, HasDerivAt (fun t : ℝ => total ⟨1, 1, 1e-12⟩ (fun _ : Fin 1 => 1 - t) (fun _ => 0) (fun _ => 1 + t) (fun _ => 0)) d 0 ∧ d < -1.99 := by
  refine ⟨_, C84_slope (n := 1) ⟨1, 1, 1e-12⟩ (by norm_num) (by norm_num) (fun t _ => 1 - t) (fun _ _ => 0) (fun t _ => 1 + t) (fun _ _ => 0)
    (fun _ => -1) (fun _ => 0) (fun _ => 1) (fun _ => 0) 0 (by norm_num [mean]) (by norm_num [mean])
    (fun _ => by simpa using (hasDerivAt_id (0 : ℝ)).const_sub 1) (fun _ => hasDerivAt_const _ _)
    (fun _ => by simpa using (hasDerivAt_id (0 : ℝ)).const_add 1) (fun _ => hasDerivAt_const _ _), ?_⟩
  norm_num [mean, factor]

end Artist.Balance
