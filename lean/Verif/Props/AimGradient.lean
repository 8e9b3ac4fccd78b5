import Verif.Proofs.AimGradient
import Mathlib.Analysis.Calculus.Deriv.Add
import Mathlib.Analysis.Calculus.Deriv.Mul
import Mathlib.Analysis.Calculus.Deriv.Pow
import Mathlib.Analysis.Asymptotics.Lemmas
import Mathlib.Tactic.FieldSimp
import Mathlib.Tactic.Ring
import Mathlib.Tactic.NormNum
import Mathlib.Tactic.Linarith
import Mathlib.Tactic.Positivity
/-! C102: the constraints of the aim point optimisation act on the motor positions. -/
namespace Artist.AimGradient
open Artist Aim

section
variable {K P G O : Type} [Field K] [LinearOrder K] [IsStrictOrderedRing K]

/-- C102 is false for the intercept constraint: whatever its weight is, the same motor positions are tried in the same order (with learning rates that do not follow the loss).
Two optimisations that differ only in this weight can at most stop at different epochs. -/
theorem C102_intercept_ineffective (eps limit : K) (rho rho' : Weights K) (h : SameButIntercept rho rho') (p : Plant K P) (grad : (P → K) → P → G)
    (hg : ∀ f c x, grad (fun y => f y + c) x = grad f x) (update : O → K → G → P → O × P) (hu : ∀ o l l' g x, update o l g x = update o l' g x)
    (continues continues' : List K → Bool) (fuel fuel' : Nat) (r : Run K P O) :
    train eps limit rho p grad update continues fuel r <+: train eps limit rho' p grad update continues' fuel' r ∨
      train eps limit rho' p grad update continues' fuel' r <+: train eps limit rho p grad update continues fuel r := by
  have main : ∀ (fuel fuel' : Nat) (r r' : Run K P O), Alike r r' →
      train eps limit rho p grad update continues fuel r <+: train eps limit rho' p grad update continues' fuel' r' ∨
      train eps limit rho' p grad update continues' fuel' r' <+: train eps limit rho p grad update continues fuel r := by
    intro fuel
    induction fuel with
    | zero => intro fuel' r r' _; left; exact List.nil_prefix
    | succ fuel ih =>
      intro fuel' r r' ha
      cases fuel' with
      | zero => right; exact List.nil_prefix
      | succ fuel' =>
        unfold train
        by_cases h1 : continues r.losses = true
        · by_cases h2 : continues' r'.losses = true
          · rw [if_pos h1, if_pos h2, ha.parameters]
            simp only [List.cons_prefix_cons, true_and]
            exact ih fuel' _ _ (step_alike eps limit rho rho' h p grad hg update hu r r' ha)
          · rw [if_neg h2]; right; exact List.nil_prefix
        · rw [if_neg h1]; left; exact List.nil_prefix
  exact main fuel fuel' r r ⟨rfl, rfl, rfl, ⟨rfl, rfl⟩, rfl, rfl⟩

/-- … and with a fixed number of epochs they are the same. -/
theorem C102_intercept_same (eps limit : K) (rho rho' : Weights K) (h : SameButIntercept rho rho') (p : Plant K P) (grad : (P → K) → P → G)
    (hg : ∀ f c x, grad (fun y => f y + c) x = grad f x) (update : O → K → G → P → O × P) (hu : ∀ o l l' g x, update o l g x = update o l' g x)
    (n : Nat) (r : Run K P O) :
    train eps limit rho p grad update (fun _ => true) n r = train eps limit rho' p grad update (fun _ => true) n r := by
  have len : ∀ (rho : Weights K) (n : Nat) (r : Run K P O), (train eps limit rho p grad update (fun _ => true) n r).length = n := by
    intro rho n
    induction n with
    | zero => intro r; rfl
    | succ n ih => intro r; unfold train; rw [if_pos rfl, List.length_cons, ih]
  rcases C102_intercept_ineffective eps limit rho rho' h p grad hg update hu (fun _ => true) (fun _ => true) n n r with hp | hp
  · exact hp.eq_of_length (by rw [len, len])
  · exact (hp.eq_of_length (by rw [len, len])).symm
end

/-- C102 holds for the flux integral: while the flux integral is below its reference, the term of this constraint pushes it up with a force that grows with weight, multiplier and
violation. -/
theorem C102_integral_acts {P : Type} (eps lam rho : ℝ) (hl : 0 ≤ lam) (hr : 0 < rho) (s : State ℝ) (hs : 0 < s.integralReference + eps) (p : Plant ℝ P) (x : P)
    (path : ℝ → P) (flux' t : ℝ) (hf : HasDerivAt (fun τ => (p.epoch x (path τ)).integral) flux' t)
    (hv : (p.epoch x (path t)).integral < s.integralReference) :
    ∃ force, 0 < force ∧ force = (lam + rho * ((s.integralReference - (p.epoch x (path t)).integral) / (s.integralReference + eps))) / (s.integralReference + eps) ∧
      HasDerivAt (fun τ => penalty lam rho (clamp0 (integralDifference eps s (p.epoch x (path τ))))) (-force * flux') t := by
  have hd : 0 < (s.integralReference - (p.epoch x (path t)).integral) / (s.integralReference + eps) := div_pos (by linarith) hs
  refine ⟨_, by positivity, rfl, ?_⟩
  have h1 : HasDerivAt (fun τ => integralDifference eps s (p.epoch x (path τ))) (-flux' / (s.integralReference + eps)) t := by
    have := (hf.const_sub s.integralReference).div_const (s.integralReference + eps)
    exact this
  refine (penalty_deriv lam rho _ _ _ t h1 rfl hd).congr_deriv ?_
  simp only [integralDifference]
  field_simp

/-- C102 holds for the local flux: while the brightest pixel (here the first) exceeds the limit, the term of this constraint pushes that pixel down; the other pixels do not matter. -/
theorem C102_local_acts (eps limit lam rho : ℝ) (hl : 0 ≤ lam) (hr : 0 < rho) (hs : 0 < limit + eps) (first : ℝ → ℝ) (others : List (ℝ → ℝ)) (first' t : ℝ)
    (hf : HasDerivAt first first' t) (hc : ∀ q ∈ others, ContinuousAt q t) (hbrightest : ∀ q ∈ others, q t < first t) (hv : limit < first t) :
    ∃ force, 0 < force ∧ force = (lam + rho * ((first t - limit) / (limit + eps))) / (limit + eps) ∧
      HasDerivAt (fun τ => maxOf (penalty lam rho (clamp0 (pixelViolation eps limit (first τ))))
        ((others.map fun q => q τ).map fun v => penalty lam rho (clamp0 (pixelViolation eps limit v)))) (force * first') t := by
  have hd : 0 < (first t - limit) / (limit + eps) := div_pos (by linarith) hs
  refine ⟨_, by positivity, rfl, ?_⟩
  have h1 : HasDerivAt (fun τ => pixelViolation eps limit (first τ)) (first' / (limit + eps)) t := (hf.sub_const limit).div_const (limit + eps)
  have h2 := (penalty_deriv lam rho _ _ _ t h1 rfl hd).congr_deriv
    (show _ = (lam + rho * ((first t - limit) / (limit + eps))) / (limit + eps) * first' by simp only [pixelViolation]; field_simp)
  refine h2.congr_of_eventuallyEq ?_
  have h3 : ∀ᶠ τ in nhds t, ∀ q ∈ others, q τ < first τ := by
    clear h2 h1
    induction others with
    | nil => simp
    | cons q qs ih =>
      have hq := (hc q (by simp)).eventually_lt hf.continuousAt (hbrightest q (by simp))
      have hqs := ih (fun q hq => hc q (by simp [hq])) (fun q hq => hbrightest q (by simp [hq]))
      filter_upwards [hq, hqs] with τ a b
      intro q' hq'
      rcases List.mem_cons.1 hq' with rfl | h
      · exact a
      · exact b q' h
  filter_upwards [h3] with τ hτ
  refine maxOf_eq _ _ ?_
  intro y hy
  simp only [List.map_map, List.mem_map, Function.comp_apply] at hy
  obtain ⟨q, hq, rfl⟩ := hy
  refine penalty_mono lam rho _ _ hl hr.le ?_
  unfold pixelViolation
  exact div_le_div_of_nonneg_right (by linarith [hτ q hq]) hs.le

/-- A plant with one pixel whose flux is the parameter, and a flux loss that decreases with the flux. -/
def onePixel : Plant ℝ ℝ := ⟨fun x => x, fun _ => [], fun _ => [], fun a _ => a⟩

/-- Gradient descent, started in epoch 0 at a flux of one. -/
noncomputable def start : Run ℝ ℝ Unit := ⟨true, initial, (), 1, []⟩

theorem onePixel_graph (w : ℝ) (first : Bool) (s : State ℝ) (hm : s.multipliers = ⟨0, 0, 0⟩) (hr : first = false → s.integralReference = 1) (x : ℝ)
    (hx : first = true → x = 1) :
    graph 1 100 ⟨0, w, 0⟩ first s onePixel x = fun y => y + penalty 0 w (clamp0 ((1 - y) / 2)) := by
  funext y
  have e : references first s (onePixel.epoch x x) =
      { s with integralReference := 1, factorsReference := if first then [] else s.factorsReference } := by
    unfold references
    cases first
    · have := hr rfl
      cases s; simp_all
    · simp [Epoch.integral, Plant.epoch, onePixel, hx rfl]
  unfold graph
  rw [e]
  simp only [Aim.epoch, Plant.epoch, onePixel, references, Bool.false_eq_true, if_false, integralDifference, Epoch.integral, List.sum_nil, factorDifferences, List.zipWith_nil_right,
    List.map_nil, mean, maxOf, List.foldl_nil, hm, penalty]
  norm_num

/-- C102: in contrast to the intercept weight, the weight of the flux integral changes the motor positions: gradient descent with weight `w` visits `1`, `0` and `w / 4 - 1`. -/
theorem C102_integral_matters (w : ℝ) :
    train 1 100 ⟨0, w, 0⟩ onePixel (fun f x => deriv f x) (fun o _ g x => (o, x - g)) (fun _ => true) 3 start = [1, 0, w / 4 - 1] := by
  have d0 : deriv (graph 1 100 ⟨0, w, 0⟩ true initial onePixel 1) 1 = 1 := by
    rw [onePixel_graph w true initial rfl (by simp) 1 (fun _ => rfl)]
    refine HasDerivAt.deriv ?_
    have hO : HasDerivAt (fun y : ℝ => penalty 0 w (clamp0 ((1 - y) / 2))) 0 1 := by
      have : (fun y : ℝ => penalty 0 w (clamp0 ((1 - y) / 2))) =O[nhds 1] fun y : ℝ => ‖y - 1‖ ^ 2 := by
        refine Asymptotics.IsBigO.of_bound |w| (Filter.Eventually.of_forall fun y => ?_)
        have h1 : 0 ≤ clamp0 ((1 - y) / 2) := le_max_right _ _
        have h2 : clamp0 ((1 - y) / 2) ≤ |y - 1| := by
          refine max_le ?_ (abs_nonneg _)
          have := neg_abs_le (y - 1)
          have := abs_nonneg (y - 1)
          linarith
        have h3 : clamp0 ((1 - y) / 2) ^ 2 ≤ |y - 1| ^ 2 := by gcongr
        simp only [penalty, Real.norm_eq_abs, zero_mul, zero_add, abs_mul, abs_pow, abs_abs, abs_of_nonneg h1]
        rw [abs_of_nonneg (show (0 : ℝ) ≤ 1 / 2 by norm_num)]
        have := mul_le_mul_of_nonneg_left h3 (abs_nonneg w)
        have h4 : 0 ≤ |w| * clamp0 ((1 - y) / 2) ^ 2 := by positivity
        nlinarith
      have := this.hasFDerivAt (𝕜 := ℝ) (by norm_num : 1 < 2)
      exact this.hasDerivAt
    have := (hasDerivAt_id (1 : ℝ)).add hO
    rw [add_zero] at this
    exact this
  have s1 : step 1 100 ⟨0, w, 0⟩ onePixel (fun f x => deriv f x) (fun o _ g x => (o, x - g)) start =
      ⟨false, ⟨1, [], ⟨0, 0, 0⟩⟩, (), 0, [1]⟩ := by
    have : deriv (graph 1 100 ⟨0, w, 0⟩ start.first start.state onePixel start.parameters) start.parameters = 1 := d0
    unfold step
    simp only [this]
    simp [start, initial, Aim.epoch, references, onePixel, Plant.epoch, Epoch.integral, integralDifference, factorDifferences, mean, maxOf, pixelViolation, penalty, clamp0]
  have d1 : deriv (graph 1 100 ⟨0, w, 0⟩ false (⟨1, [], ⟨0, 0, 0⟩⟩ : State ℝ) onePixel 0) 0 = 1 - w / 4 := by
    rw [onePixel_graph w false _ rfl (fun _ => rfl) 0 (by simp)]
    refine HasDerivAt.deriv ?_
    have hh : HasDerivAt (fun y : ℝ => (1 - y) / 2) (-1 / 2) 0 := ((hasDerivAt_id (0 : ℝ)).const_sub 1).div_const 2
    have := (hasDerivAt_id (0 : ℝ)).add (penalty_deriv 0 w (1 / 2) _ _ 0 hh (by norm_num) (by norm_num))
    refine this.congr_deriv ?_
    ring
  unfold train
  rw [if_pos rfl, s1]
  unfold train
  rw [if_pos rfl]
  unfold train
  rw [if_pos rfl]
  unfold train
  simp only [step, d1, start]
  norm_num

/-- C102: the hypotheses of the theorems about the intercept weight, met by gradient descent. -/
example (w v v' : ℝ) (n : Nat) :
    train 1 100 ⟨0, w, v⟩ onePixel (fun f x => deriv f x) (fun o _ g x => (o, x - g)) (fun _ => true) n start =
      train 1 100 ⟨0, w, v'⟩ onePixel (fun f x => deriv f x) (fun o _ g x => (o, x - g)) (fun _ => true) n start :=
  C102_intercept_same 1 100 ⟨0, w, v⟩ ⟨0, w, v'⟩ ⟨rfl, rfl⟩ onePixel _ (fun f c x => by simp) _ (fun _ _ _ _ _ => rfl) n start

end Artist.AimGradient
