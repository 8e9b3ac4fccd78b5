import Verif.Model.AimGradient
import Mathlib.Analysis.Calculus.Deriv.Add
import Mathlib.Analysis.Calculus.Deriv.Mul
import Mathlib.Analysis.Calculus.Deriv.Pow
import Mathlib.Analysis.Asymptotics.Lemmas
import Mathlib.Tactic.FieldSimp
import Mathlib.Tactic.Ring
import Mathlib.Tactic.NormNum
import Mathlib.Tactic.Linarith
import Mathlib.Tactic.Positivity
/-! Helper lemmas for `Verif.Props.AimGradient`. -/
namespace Artist.AimGradient
open Artist Aim

section
variable {K P G O : Type} [Field K] [LinearOrder K] [IsStrictOrderedRing K]

/-- The same weights, except for the intercept constraint. -/
def SameButIntercept (a b : Weights K) : Prop := a.localFlux = b.localFlux ∧ a.fluxIntegral = b.fluxIntegral

theorem graph_shift (eps limit : K) (rho rho' : Weights K) (h : SameButIntercept rho rho') (first : Bool) (s s' : State K)
    (h1 : s.integralReference = s'.integralReference) (h2 : s.factorsReference = s'.factorsReference) (h3 : SameButIntercept s.multipliers s'.multipliers)
    (p : Plant K P) (x : P) : ∃ c, graph eps limit rho first s p x = fun y => graph eps limit rho' first s' p x y + c := by
  obtain ⟨ha, hb⟩ := h
  obtain ⟨hc, hd⟩ := h3
  refine ⟨mean ((factorDifferences eps (references first s (p.epoch x x)) (p.epoch x x)).map fun d => penalty s.multipliers.intercept rho.intercept (clamp0 d))
    - mean ((factorDifferences eps (references first s' (p.epoch x x)) (p.epoch x x)).map fun d => penalty s'.multipliers.intercept rho'.intercept (clamp0 d)), ?_⟩
  funext y
  unfold graph Aim.epoch references
  cases first <;>
  · simp only [factorDifferences, integralDifference, Plant.epoch, if_true, Bool.false_eq_true, if_false, ha, hb, hc, hd, h1, h2]
    ring

/-- Two runs that differ at most in the weight of the intercept constraint. -/
structure Alike (r r' : Run K P O) : Prop where
  first : r.first = r'.first
  integral : r.state.integralReference = r'.state.integralReference
  factors : r.state.factorsReference = r'.state.factorsReference
  multipliers : SameButIntercept r.state.multipliers r'.state.multipliers
  optimiser : r.optimiser = r'.optimiser
  parameters : r.parameters = r'.parameters

theorem step_alike (eps limit : K) (rho rho' : Weights K) (h : SameButIntercept rho rho') (p : Plant K P) (grad : (P → K) → P → G)
    (hg : ∀ f c x, grad (fun y => f y + c) x = grad f x) (update : O → K → G → P → O × P) (hu : ∀ o l l' g x, update o l g x = update o l' g x)
    (r r' : Run K P O) (ha : Alike r r') : Alike (step eps limit rho p grad update r) (step eps limit rho' p grad update r') := by
  obtain ⟨a1, a2, a3, ⟨a4, a5⟩, a6, a7⟩ := ha
  obtain ⟨c, hc⟩ := graph_shift eps limit rho rho' h r.first r.state r'.state a2 a3 ⟨a4, a5⟩ p r.parameters
  have hgrad : grad (graph eps limit rho r.first r.state p r.parameters) r.parameters =
      grad (graph eps limit rho' r'.first r'.state p r'.parameters) r'.parameters := by rw [hc, hg, a1, a7]
  obtain ⟨h1, h2⟩ := h
  refine ⟨rfl, ?_, ?_, ?_, ?_, ?_⟩
  · simp only [step, Aim.epoch, references, a1, a7]
    split <;> simp [a2]
  · simp only [step, Aim.epoch, references, a1, a7]
    split <;> simp [a3]
  · constructor
    · simp only [step, Aim.epoch, references, a1, a7, h1]
      split <;> simp [a4]
    · simp only [step, Aim.epoch, references, integralDifference, a1, a7, h2]
      split <;> simp [a5, a2]
  · simp only [step]
    rw [hgrad, a6, a7]
    rw [hu]
  · simp only [step]
    rw [hgrad, a6, a7]
    rw [hu]

end

theorem penalty_deriv (lam rho v : ℝ) (f : ℝ → ℝ) (f' t : ℝ) (hf : HasDerivAt f f' t) (hv : f t = v) (hpos : 0 < v) :
    HasDerivAt (fun τ => penalty lam rho (clamp0 (f τ))) ((lam + rho * v) * f') t := by
  have h1 : HasDerivAt (fun τ => lam * f τ + 1 / 2 * rho * f τ ^ 2) ((lam + rho * v) * f') t := by
    have := (hf.const_mul lam).add ((hf.pow 2).const_mul (1 / 2 * rho))
    refine this.congr_deriv ?_
    rw [hv]; push_cast; ring
  refine h1.congr_of_eventuallyEq ?_
  have h2 : ∀ᶠ τ in nhds t, 0 < f τ := hf.continuousAt.eventually (by rw [hv]; exact lt_mem_nhds hpos)
  filter_upwards [h2] with τ hτ
  simp only [penalty, clamp0, max_eq_left hτ.le]

theorem maxOf_eq {K : Type} [Field K] [LinearOrder K] (x : K) (xs : List K) (h : ∀ y ∈ xs, y ≤ x) : maxOf x xs = x := by
  unfold maxOf
  induction xs with
  | nil => rfl
  | cons y ys ih =>
    rw [List.foldl_cons, max_eq_left (h y (by simp))]
    exact ih fun z hz => h z (by simp [hz])

theorem penalty_mono (lam rho a b : ℝ) (hl : 0 ≤ lam) (hr : 0 ≤ rho) (h : a ≤ b) : penalty lam rho (clamp0 a) ≤ penalty lam rho (clamp0 b) := by
  have h1 : clamp0 a ≤ clamp0 b := max_le_max_right 0 h
  have h2 : 0 ≤ clamp0 a := le_max_right _ _
  unfold penalty
  have h3 : clamp0 a ^ 2 ≤ clamp0 b ^ 2 := by nlinarith
  have := mul_le_mul_of_nonneg_left h1 hl
  have := mul_le_mul_of_nonneg_left h3 (show 0 ≤ 1 / 2 * rho by positivity)
  linarith

end Artist.AimGradient
