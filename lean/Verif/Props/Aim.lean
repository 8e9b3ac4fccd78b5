import Verif.Proofs.Aim
import Mathlib.Data.Rat.Defs
import Mathlib.Algebra.Order.Ring.Rat
import Mathlib.Tactic.NormNum
/-! Properties C35, C36 and C59: motor limits, multipliers and accepted losses of the optimisations. -/
namespace Artist.Aim
open Artist

/-- C35, exact condition: all reachable motor positions are within the limits if and only if the initial position is at least one unit away
from both limits. -/
theorem C35_within_limits_iff (lowest highest initial : ℝ) :
    (∀ p, lowest ≤ motor lowest highest initial p ∧ motor lowest highest initial p ≤ highest) ↔
      1 ≤ initial - lowest ∧ 1 ≤ highest - initial := by
  constructor
  · intro h
    have hs : 1 ≤ scale lowest highest initial := le_max_right _ _
    have hs0 : 0 < scale lowest highest initial := by linarith
    constructor
    · by_contra hc
      obtain ⟨p, hp⟩ := tanh_below (-(initial - lowest) / scale lowest highest initial) (by
        rw [lt_div_iff₀ hs0]; linarith [not_le.1 hc])
      rw [lt_div_iff₀ hs0] at hp
      have := (h p).1
      unfold motor at this
      linarith
    · by_contra hc
      obtain ⟨p, hp⟩ := tanh_above ((highest - initial) / scale lowest highest initial) (by
        rw [div_lt_iff₀ hs0]; linarith [not_le.1 hc])
      rw [div_lt_iff₀ hs0] at hp
      have := (h p).2
      unfold motor at this
      linarith
  · rintro ⟨h1, h2⟩ p
    have hs : scale lowest highest initial = min (initial - lowest) (highest - initial) := max_eq_left (le_min h1 h2)
    have hl : scale lowest highest initial ≤ initial - lowest := hs ▸ min_le_left _ _
    have hh : scale lowest highest initial ≤ highest - initial := hs ▸ min_le_right _ _
    have hs0 : 0 < scale lowest highest initial := lt_of_lt_of_le one_pos (le_max_right _ _)
    have t1 := tanh_lt p
    have t2 := tanh_gt p
    unfold motor
    constructor <;> nlinarith

/-- C35 for starting positions at least one unit inside the limits, with the reparameterisation starting at the initial position.
Missing from the full statement: starting positions closer to a limit, for which it fails (`C35_near_limit`). -/
theorem C35_within_limits_partial (lowest highest initial p : ℝ) (h1 : lowest + 1 ≤ initial) (h2 : initial + 1 ≤ highest) :
    lowest < motor lowest highest initial p ∧ motor lowest highest initial p < highest ∧ motor lowest highest initial 0 = initial := by
  have hm1 : 1 ≤ initial - lowest := by linarith
  have hm2 : 1 ≤ highest - initial := by linarith
  have hs : scale lowest highest initial = min (initial - lowest) (highest - initial) := max_eq_left (le_min hm1 hm2)
  have hl : scale lowest highest initial ≤ initial - lowest := hs ▸ min_le_left _ _
  have hh : scale lowest highest initial ≤ highest - initial := hs ▸ min_le_right _ _
  have hs0 : 0 < scale lowest highest initial := lt_of_lt_of_le one_pos (le_max_right _ _)
  have t1 := tanh_lt p
  have t2 := tanh_gt p
  refine ⟨?_, ?_, by simp [motor]⟩ <;> unfold motor <;> nlinarith

/-- C35 is false close to a limit: for every starting position less than one unit below the upper limit some parameter exceeds the limit, and
likewise at the lower limit. -/
theorem C35_near_limit (lowest highest initial : ℝ) :
    (highest - initial < 1 → ∃ p, highest < motor lowest highest initial p) ∧
    (initial - lowest < 1 → ∃ p, motor lowest highest initial p < lowest) := by
  have hs : 1 ≤ scale lowest highest initial := le_max_right _ _
  have hs0 : 0 < scale lowest highest initial := by linarith
  constructor
  · intro h
    obtain ⟨p, hp⟩ := tanh_above ((highest - initial) / scale lowest highest initial) (by rw [div_lt_iff₀ hs0]; linarith)
    rw [div_lt_iff₀ hs0] at hp
    exact ⟨p, by unfold motor; linarith⟩
  · intro h
    obtain ⟨p, hp⟩ := tanh_below (-(initial - lowest) / scale lowest highest initial) (by rw [lt_div_iff₀ hs0]; linarith)
    rw [lt_div_iff₀ hs0] at hp
    exact ⟨p, by unfold motor; linarith⟩

/-- If the pre-alignment ends more than one unit beyond the upper limit, no parameter value whatsoever brings the motor back into its range. -/
theorem C35_never_within (lowest highest initial p : ℝ) (h : highest + 1 ≤ initial) : highest < motor lowest highest initial p := by
  have hs : scale lowest highest initial = 1 := max_eq_right (le_trans (min_le_right _ _) (by linarith))
  have := tanh_gt p
  unfold motor
  rw [hs]; linarith

example : (10 : ℝ) < motor 10 60000 35000 7 ∧ motor 10 60000 35000 7 < 60000 :=
  let h := C35_within_limits_partial 10 60000 35000 7 (by norm_num) (by norm_num)
  ⟨h.1, h.2.1⟩
example : ∃ p, (60000 : ℝ) < motor 10 60000 59999.5 p := (C35_near_limit 10 60000 59999.5).1 (by norm_num)
example : (60000 : ℝ) < motor 10 60000 61000 (-5) := C35_never_within 10 60000 61000 (-5) (by norm_num)

variable {K : Type} [Field K] [LinearOrder K] [IsStrictOrderedRing K]

/-- C36, aim points: along every history the multipliers are non-negative. -/
theorem C36_multipliers_nonneg (eps limit : K) (rho : Weights K) (es : List (Epoch K)) (n : Nat) (r : Terms K × State K)
    (h : (run eps limit rho true initial es)[n]? = some r) :
    0 ≤ r.2.multipliers.localFlux ∧ 0 ≤ r.2.multipliers.fluxIntegral ∧ 0 ≤ r.2.multipliers.intercept := by
  obtain ⟨e, s0, -, -, rfl, -⟩ := run_get eps limit rho es true initial n r ⟨le_refl _, le_refl _, le_refl _⟩ h
  exact epoch_multipliers _ _ _ _ _ _

/-- C36, aim points: along every history all constraint terms are non-negative, so the total loss is at least the flux loss. -/
theorem C36_penalties_nonneg (eps limit : K) (rho : Weights K) (hr : 0 ≤ rho.localFlux ∧ 0 ≤ rho.fluxIntegral ∧ 0 ≤ rho.intercept)
    (es : List (Epoch K)) (n : Nat) (r : Terms K × State K) (h : (run eps limit rho true initial es)[n]? = some r) :
    ∃ e, es[n]? = some e ∧ 0 ≤ r.1.localFlux ∧ 0 ≤ r.1.fluxIntegral ∧ 0 ≤ r.1.intercept ∧
      r.1.loss = e.fluxLoss + r.1.fluxIntegral + r.1.intercept + r.1.localFlux ∧ e.fluxLoss ≤ r.1.loss := by
  obtain ⟨e, s0, h1, h2, rfl, -⟩ := run_get eps limit rho es true initial n r ⟨le_refl _, le_refl _, le_refl _⟩ h
  obtain ⟨a, b, c, d⟩ := epoch_terms eps limit rho hr (true && decide (n = 0)) s0 h2 e
  exact ⟨e, h1, c, a, b, d, by rw [d]; linarith⟩

/-- C36, aim points: an epoch that satisfies all constraints (flux integral and intercept factors not below those of epoch 0, no pixel above the
limit) is not penalised, whatever happened before. -/
theorem C36_satisfied_not_penalised (eps limit : K) (rho : Weights K) (heps : 0 < eps) (hlim : 0 ≤ limit)
    (es : List (Epoch K)) (n : Nat) (r : Terms K × State K) (h : (run eps limit rho true initial es)[n]? = some r)
    (e0 e : Epoch K) (he0 : es[0]? = some e0) (he : es[n]? = some e)
    (hi0 : 0 ≤ e0.integral) (hi : e0.integral ≤ e.integral)
    (hf0 : ∀ x ∈ e0.factors, 0 ≤ x) (hf : ∀ (i : Nat) (x y : K), e0.factors[i]? = some x → e.factors[i]? = some y → x ≤ y)
    (hp0 : e.firstPixel ≤ limit) (hp : ∀ x ∈ e.pixels, x ≤ limit) :
    r.1.localFlux = 0 ∧ r.1.fluxIntegral = 0 ∧ r.1.intercept = 0 ∧ r.1.loss = e.fluxLoss := by
  obtain ⟨e', s0, h1, h2, rfl, -, h4⟩ := run_get eps limit rho es true initial n r ⟨le_refl _, le_refl _, le_refl _⟩ h
  rw [he] at h1
  cases h1
  have href : (references (true && decide (n = 0)) s0 e).integralReference = e0.integral ∧
      (references (true && decide (n = 0)) s0 e).factorsReference = e0.factors := by
    cases n with
    | zero => rw [he0] at he; cases he; exact ⟨rfl, rfl⟩
    | succ n =>
      obtain ⟨e1, k1, k2, k3⟩ := h4 rfl (by omega)
      rw [he0] at k1; cases k1
      exact ⟨k2, k3⟩
  have d0 : clamp0 (integralDifference eps (references (true && decide (n = 0)) s0 e) e) = 0 := by
    apply clamp0_of_nonpos
    unfold integralDifference
    rw [href.1]
    exact div_nonpos_of_nonpos_of_nonneg (by linarith) (by linarith)
  have t1 : (epoch eps limit rho (true && decide (n = 0)) s0 e).1.fluxIntegral = 0 := by
    show penalty _ _ (clamp0 _) = 0
    rw [d0, penalty_zero]
  have t2 : (epoch eps limit rho (true && decide (n = 0)) s0 e).1.intercept = 0 := by
    apply mean_zero
    intro x hx
    obtain ⟨d, hd, rfl⟩ := List.mem_map.1 hx
    unfold factorDifferences at hd
    rw [href.2] at hd
    obtain ⟨i, hi⟩ := List.getElem?_of_mem hd
    rw [List.getElem?_zipWith] at hi
    split at hi
    · rename_i x y hgx hgy
      cases hi
      have hxy := hf i x y hgx hgy
      have hx0 := hf0 x (List.mem_of_getElem? hgx)
      rw [clamp0_of_nonpos (div_nonpos_of_nonpos_of_nonneg (by linarith) (by linarith)), penalty_zero]
    · cases hi
  have hv : ∀ p, p ≤ limit → clamp0 (pixelViolation eps limit p) = 0 := fun p hp =>
    clamp0_of_nonpos (div_nonpos_of_nonpos_of_nonneg (by linarith) (by linarith))
  have t3 : (epoch eps limit rho (true && decide (n = 0)) s0 e).1.localFlux = 0 := by
    apply le_antisymm
    · apply maxOf_le
      · beta_reduce; rw [hv _ hp0, penalty_zero]
      · intro y hy
        obtain ⟨p, hpm, rfl⟩ := List.mem_map.1 hy
        rw [hv _ (hp p hpm), penalty_zero]
    · refine le_trans (le_of_eq ?_) (maxOf_ge _ _)
      beta_reduce
      rw [hv _ hp0, penalty_zero]
  refine ⟨t3, t1, t2, ?_⟩
  show e.fluxLoss + (epoch eps limit rho (true && decide (n = 0)) s0 e).1.fluxIntegral +
    (epoch eps limit rho (true && decide (n = 0)) s0 e).1.intercept + (epoch eps limit rho (true && decide (n = 0)) s0 e).1.localFlux = _
  rw [t1, t2, t3]; ring

/-- C36 is false for the aim point optimisation: a positive multiplier decreases in every epoch that satisfies its constraint strictly, for
each of the three constraints. -/
theorem C36_multipliers_decrease (eps limit : K) (rho : Weights K) (heps : 0 < eps) (hlim : 0 ≤ limit) (s : State K) (e : Epoch K) :
    (0 < rho.fluxIntegral → 0 < s.multipliers.fluxIntegral → 0 ≤ s.integralReference → s.integralReference < e.integral →
      (epoch eps limit rho false s e).2.multipliers.fluxIntegral < s.multipliers.fluxIntegral) ∧
    (0 < rho.localFlux → 0 < s.multipliers.localFlux → e.firstPixel < limit → (∀ x ∈ e.pixels, x < limit) →
      (epoch eps limit rho false s e).2.multipliers.localFlux < s.multipliers.localFlux) ∧
    (0 < rho.intercept → 0 < s.multipliers.intercept → mean (factorDifferences eps s e) < 0 →
      (epoch eps limit rho false s e).2.multipliers.intercept < s.multipliers.intercept) := by
  have key : ∀ l r v : K, 0 < l → 0 < r → v < 0 → clamp0 (l + r * v) < l := by
    intro l r v hl hr hv
    exact max_lt (by nlinarith) hl
  refine ⟨fun h1 h2 h3 h4 => ?_, fun h1 h2 h3 h4 => ?_, fun h1 h2 h3 => key _ _ _ h2 h1 h3⟩
  · refine key _ _ _ h2 h1 ?_
    exact div_neg_of_neg_of_pos (by show s.integralReference - _ < 0; linarith) (by show 0 < s.integralReference + eps; linarith)
  · refine key _ _ _ h2 h1 (maxOf_lt _ _ _ ?_ ?_)
    · exact div_neg_of_neg_of_pos (by linarith) (by linarith)
    · intro y hy
      obtain ⟨p, hp, rfl⟩ := List.mem_map.1 hy
      exact div_neg_of_neg_of_pos (by have := h4 p hp; linarith) (by linarith)

/-- C36, aim points: the multiplier carried to the next epoch is the slope of the penalty at the violation that was found, for the flux integral
and for the worst pixel: from any violation `v` to any other `w` the penalty changes by slope times difference plus half the penalty parameter
times the squared difference. -/
theorem C36_multiplier_is_slope (eps limit : K) (rho : Weights K) (hr : NonNeg rho) (s : State K) (hs : NonNeg s.multipliers) (e e' : Epoch K)
    (v w : K) (hv : 0 ≤ v) (hw : 0 ≤ w) :
    (integralDifference eps s e = v → integralDifference eps s e' = w →
      (epoch eps limit rho false s e').1.fluxIntegral - (epoch eps limit rho false s e).1.fluxIntegral =
        (epoch eps limit rho false s e).2.multipliers.fluxIntegral * (w - v) + rho.fluxIntegral / 2 * (w - v) ^ 2) ∧
    (maxOf (pixelViolation eps limit e.firstPixel) (e.pixels.map (pixelViolation eps limit)) = v →
      maxOf (pixelViolation eps limit e'.firstPixel) (e'.pixels.map (pixelViolation eps limit)) = w →
      (epoch eps limit rho false s e').1.localFlux - (epoch eps limit rho false s e).1.localFlux =
        (epoch eps limit rho false s e).2.multipliers.localFlux * (w - v) + rho.localFlux / 2 * (w - v) ^ 2) := by
  obtain ⟨l1, l2, -⟩ := hs
  obtain ⟨r1, r2, -⟩ := hr
  constructor
  · intro h1 h2
    have e1 : (epoch eps limit rho false s e).1.fluxIntegral = penalty s.multipliers.fluxIntegral rho.fluxIntegral v := by
      rw [← clamp0_of_nonneg hv, ← h1]; rfl
    have e2 : (epoch eps limit rho false s e').1.fluxIntegral = penalty s.multipliers.fluxIntegral rho.fluxIntegral w := by
      rw [← clamp0_of_nonneg hw, ← h2]; rfl
    have e3 : (epoch eps limit rho false s e).2.multipliers.fluxIntegral = s.multipliers.fluxIntegral + rho.fluxIntegral * v := by
      rw [← clamp0_of_nonneg (add_nonneg l2 (mul_nonneg r2 hv)), ← h1]; rfl
    rw [e1, e2, e3]; unfold penalty; ring
  · intro h1 h2
    have e1 : (epoch eps limit rho false s e).1.localFlux = penalty s.multipliers.localFlux rho.localFlux v := by
      rw [← clamp0_of_nonneg hv, ← h1]
      exact maxOf_mono_map _ (fun a b hab => penalty_clamp_mono l1 r1 hab) (pixelViolation eps limit) _ _
    have e2 : (epoch eps limit rho false s e').1.localFlux = penalty s.multipliers.localFlux rho.localFlux w := by
      rw [← clamp0_of_nonneg hw, ← h2]
      exact maxOf_mono_map _ (fun a b hab => penalty_clamp_mono l1 r1 hab) (pixelViolation eps limit) _ _
    have e3 : (epoch eps limit rho false s e).2.multipliers.localFlux = s.multipliers.localFlux + rho.localFlux * v := by
      rw [← clamp0_of_nonneg (add_nonneg l1 (mul_nonneg r1 hv)), ← h1]; rfl
    rw [e1, e2, e3]; unfold penalty; ring

/-- Flux integrals 3 and 2 instead of the reference 4: violations 1/4 and 1/2. -/
example : integralDifference (0 : ℚ) ⟨4, [], ⟨0, 0, 0⟩⟩ ⟨5, 1, [2], []⟩ = 1 / 4 ∧
    integralDifference (0 : ℚ) ⟨4, [], ⟨0, 0, 0⟩⟩ ⟨5, 1, [1], []⟩ = 1 / 2 := by decide +kernel

/-- C36, aim points: the intercept penalty of a field is the mean over its heliostats of the penalty each would have alone. -/
theorem C36_intercept_mean (eps limit : K) (rho : Weights K) (s : State K) (e : Epoch K) (h : s.factorsReference.length = e.factors.length) :
    (epoch eps limit rho false s e).1.intercept * (e.factors.length : K) =
      ((List.zip s.factorsReference e.factors).map (fun rf =>
        (epoch eps limit rho false { s with factorsReference := [rf.1] } { e with factors := [rf.2] }).1.intercept)).sum := by
  by_cases h0 : e.factors.length = 0
  · have : e.factors = [] := List.length_eq_zero_iff.1 h0
    simp [this]
  have hK : (e.factors.length : K) ≠ 0 := Nat.cast_ne_zero.2 h0
  have hmap : (List.zip s.factorsReference e.factors).map (fun rf =>
        (epoch eps limit rho false { s with factorsReference := [rf.1] } { e with factors := [rf.2] }).1.intercept) =
      (factorDifferences eps s e).map (fun d => penalty s.multipliers.intercept rho.intercept (clamp0 d)) := by
    unfold factorDifferences
    rw [← List.map_uncurry_zip_eq_zipWith, List.map_map]
    apply List.map_congr_left
    rintro ⟨r, f⟩ _
    simp [epoch, references, factorDifferences, mean]
  rw [hmap]
  show mean _ * _ = _
  unfold mean
  have hl : ((factorDifferences eps s e).map (fun d => penalty s.multipliers.intercept rho.intercept (clamp0 d))).length = e.factors.length := by
    simp [factorDifferences, h]
  show ((factorDifferences eps s e).map (fun d => penalty s.multipliers.intercept rho.intercept (clamp0 d))).sum /
    (((factorDifferences eps s e).map (fun d => penalty s.multipliers.intercept rho.intercept (clamp0 d))).length : K) * _ = _
  rw [hl, div_mul_cancel₀ _ hK]

/-- Such states are reached: the flux integral drops in epoch 1 and recovers in epoch 2; the multiplier rises and falls again. -/
theorem C36_decrease_reached :
    (run (0 : ℚ) 100 ⟨1, 1, 1⟩ true initial
      [⟨5, 1, [3], [1]⟩, ⟨4, 1, [1], [1]⟩, ⟨3, 2, [3], [1]⟩]).map (fun r => r.2.multipliers.fluxIntegral) = [0, 1 / 2, 1 / 4] := by
  decide +kernel

/-- C36, surface reconstruction: along every history of flux integrals the multiplier of each heliostat is non-negative and never decreases, and
each constraint term is non-negative. -/
theorem C36_surface (eps tolerance rho : K) (hr : 0 ≤ rho) (samples : Nat) (references : List K) (history : List (List K)) :
    ∀ (start : List K) (out : List (List K × List K)), (∀ x ∈ start, 0 ≤ x) →
      surfaceRun eps tolerance rho samples references start history = .ok out →
      ∀ (n : Nat) (t l : List K), out[n]? = some (t, l) → (∀ x ∈ t, 0 ≤ x) ∧ (∀ x ∈ l, 0 ≤ x) ∧
        ∀ before : List K, (start :: out.map Prod.snd)[n]? = some before →
          ∀ (i : Nat) (x y : K), before[i]? = some x → l[i]? = some y → x ≤ y := by
  induction history with
  | nil =>
    intro start out _ h n t l ho
    simp only [surfaceRun, Except.ok.injEq] at h
    subst h; simp at ho
  | cons integrals rest ih =>
    intro start out hs h n t l ho
    simp only [surfaceRun] at h
    split at h
    · cases h
    · rename_i r hc
      split at h
      · cases h
      · rename_i rs hrs
        cases h
        unfold surfaceConstraint at hc
        split at hc
        · cases hc
        · rename_i c hred
          cases hc
          obtain ⟨hc0, -⟩ := reduce_mean_nonneg samples _ c (by
            intro x hx
            obtain ⟨i, hi⟩ := List.getElem?_of_mem hx
            rw [List.getElem?_zipWith] at hi
            split at hi
            · cases hi; exact clamp0_nonneg _
            · cases hi) hred
          have hz : ∀ (f : K → K → K), (∀ x y, x ∈ start → y ∈ c → 0 ≤ f x y) → ∀ x ∈ List.zipWith f start c, 0 ≤ x := by
            intro f hf x hx
            obtain ⟨i, hi⟩ := List.getElem?_of_mem hx
            rw [List.getElem?_zipWith] at hi
            split at hi
            · rename_i a b ha hb
              cases hi
              exact hf a b (List.mem_of_getElem? ha) (List.mem_of_getElem? hb)
            · cases hi
          have hl := hz (fun l c => clamp0 (l + rho * c)) (fun _ _ _ _ => clamp0_nonneg _)
          have ht := hz (fun l c => penalty l rho c) (fun x y hx hy => penalty_nonneg (hs x hx) hr (hc0 y hy))
          cases n with
          | zero =>
            simp only [List.getElem?_cons_zero, Option.some.injEq, Prod.mk.injEq] at ho
            obtain ⟨rfl, rfl⟩ := ho
            refine ⟨ht, hl, ?_⟩
            intro before hb i x y hx hy
            simp only [List.getElem?_cons_zero, Option.some.injEq] at hb
            subst hb
            rw [List.getElem?_zipWith, hx] at hy
            cases hci : c[i]? with
            | none => rw [hci] at hy; simp at hy
            | some z =>
              rw [hci] at hy
              simp only [Option.some.injEq] at hy
              subst hy
              have := mul_nonneg hr (hc0 z (List.mem_of_getElem? hci))
              exact le_trans (by linarith) (le_max_left _ _)
          | succ n =>
            simp only [List.getElem?_cons_succ] at ho
            obtain ⟨a1, a2, a3⟩ := ih _ rs hl hrs n t l ho
            refine ⟨a1, a2, ?_⟩
            intro before hb
            apply a3 before
            simpa using hb

/-- C36, surface reconstruction: samples whose flux integral has not dropped by more than the tolerance are not penalised. -/
theorem C36_surface_satisfied (eps tolerance reference integral : K) (heps : 0 < eps) (hr : 0 ≤ reference)
    (h : reference - tolerance * (reference + eps) ≤ integral) : sampleConstraint eps tolerance reference integral = 0 := by
  apply clamp0_of_nonpos
  have hpos : 0 < reference + eps := by linarith
  have : -tolerance ≤ (integral - reference) / (reference + eps) := by rw [le_div_iff₀ hpos]; linarith
  linarith

/-- Two heliostats with two samples each; the first loses flux in the second and third epoch. -/
example : surfaceRun (0 : ℚ) (1/10) 2 2 [10, 10, 10, 10] [0, 0] [[10, 10, 10, 10], [8, 10, 10, 10], [5, 9, 12, 10]] =
    .ok [([0, 0], [0, 0]), ([1/400, 0], [1/10, 0]), ([3/50, 0], [1/2, 0])] := by decide +kernel

/-- C59 is false: with any loss other than the KL divergence the optimisation raises `RuntimeError` in the first epoch. -/
theorem C59_other_losses_raise {K : Type} [LinearOrder K] (tolerance : K) (maxEpoch : Nat) (totals : Nat → K) (fuel : Nat) :
    optimizeLosses false tolerance maxEpoch totals (fuel + 1) 0 ⟨none, false⟩ = .error .runtimeError := by
  simp [optimizeLosses, backward]

/-- C59 for KL-divergence losses: every epoch's loss is the total loss of that epoch and nothing is raised.  Missing from the full
statement: all other losses, for which it is false. -/
theorem C59_kl_partial {K : Type} [LinearOrder K] (tolerance : K) (maxEpoch : Nat) (totals : Nat → K) (fuel : Nat) :
    ∀ (start : Nat) (loss : LossTensor K), ∃ ls, optimizeLosses true tolerance maxEpoch totals fuel start loss = .ok ls ∧
      ∀ (n : Nat) (l : Option K), ls[n]? = some l → l = some (totals (start + n)) := by
  induction fuel with
  | zero => intro start loss; exact ⟨[], rfl, by simp⟩
  | succ fuel ih =>
    intro start loss
    rw [optimizeLosses]
    split_ifs
    · obtain ⟨ls, h1, h2⟩ := ih (start + 1) ⟨some (totals start), true⟩
      simp only [backward, if_true, h1]
      refine ⟨_, rfl, ?_⟩
      intro n l hn
      cases n with
      | zero => simpa using hn.symm
      | succ n =>
        have := h2 n l (by simpa using hn)
        rw [this]; congr 2; omega
    · exact ⟨[], rfl, by simp⟩

example : optimizeLosses true 0 5 (fun n => 3 - n : Nat → Int) 7 0 ⟨none, false⟩ = .ok [some 3, some 2, some 1, some 0] := by decide

end Artist.Aim
