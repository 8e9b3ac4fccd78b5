import Verif.Model.Aim
import Mathlib.Analysis.SpecialFunctions.Log.Basic
import Mathlib.Tactic.Linarith
import Mathlib.Tactic.Positivity
import Mathlib.Tactic.FieldSimp
import Mathlib.Tactic.Ring
/-! Helper lemmas for C35 and C36. -/
namespace Artist.Aim
open Artist

theorem tanh_log (a : ℝ) (ha : 0 < a) : Real.tanh (Real.log a) = (a ^ 2 - 1) / (a ^ 2 + 1) := by
  rw [Real.tanh_eq_sinh_div_cosh, Real.sinh_eq, Real.cosh_eq, Real.exp_neg, Real.exp_log ha]
  field_simp

theorem tanh_eq (x : ℝ) : Real.tanh x = (Real.exp x ^ 2 - 1) / (Real.exp x ^ 2 + 1) := by
  rw [← tanh_log _ (Real.exp_pos x), Real.log_exp]

theorem tanh_lt (x : ℝ) : Real.tanh x < 1 := by
  rw [tanh_eq, div_lt_one (by positivity)]; linarith

theorem tanh_gt (x : ℝ) : -1 < Real.tanh x := by
  rw [tanh_eq, lt_div_iff₀ (by positivity)]
  have := Real.exp_pos x
  nlinarith

theorem tanh_above (y : ℝ) (hy : y < 1) : ∃ x, y < Real.tanh x := by
  have h1 : 0 < 1 - y := by linarith
  have ha : 1 < 2 / (1 - y) + 1 := by have : 0 < 2 / (1 - y) := by positivity
                                      linarith
  refine ⟨Real.log (2 / (1 - y) + 1), ?_⟩
  rw [tanh_log _ (by linarith)]
  set a := 2 / (1 - y) + 1 with hadef
  have h2 : (a - 1) * (1 - y) = 2 := by rw [hadef]; field_simp; ring
  rw [lt_div_iff₀ (by positivity)]
  nlinarith [mul_pos h1 (by linarith : (0:ℝ) < a - 1), mul_pos (mul_pos h1 (by linarith : (0:ℝ) < a - 1)) (by linarith : (0:ℝ) < a)]

theorem tanh_below (y : ℝ) (hy : -1 < y) : ∃ x, Real.tanh x < y := by
  obtain ⟨x, hx⟩ := tanh_above (-y) (by linarith)
  exact ⟨-x, by rw [Real.tanh_neg]; linarith⟩

variable {K : Type} [Field K] [LinearOrder K] [IsStrictOrderedRing K]

theorem clamp0_nonneg (x : K) : 0 ≤ clamp0 x := le_max_right _ _
theorem clamp0_of_nonpos {x : K} (h : x ≤ 0) : clamp0 x = 0 := max_eq_right h
theorem clamp0_of_nonneg {x : K} (h : 0 ≤ x) : clamp0 x = x := max_eq_left h

theorem penalty_nonneg {l r c : K} (hl : 0 ≤ l) (hr : 0 ≤ r) (hc : 0 ≤ c) : 0 ≤ penalty l r c := by
  unfold penalty; positivity

theorem penalty_zero (l r : K) : penalty l r 0 = 0 := by simp [penalty]

theorem sum_nonneg (l : List K) (h : ∀ x ∈ l, 0 ≤ x) : 0 ≤ l.sum := by
  induction l with
  | nil => simp
  | cons x l ih =>
    have := h x (by simp)
    have := ih (fun y hy => h y (by simp [hy]))
    simp only [List.sum_cons]; linarith

theorem mean_nonneg (l : List K) (h : ∀ x ∈ l, 0 ≤ x) : 0 ≤ mean l :=
  div_nonneg (sum_nonneg l h) (by positivity)

theorem mean_zero (l : List K) (h : ∀ x ∈ l, x = 0) : mean l = 0 := by
  have : l.sum = 0 := by
    induction l with
    | nil => simp
    | cons x l ih =>
      rw [List.sum_cons, h x (by simp), ih (fun y hy => h y (by simp [hy])), add_zero]
  simp [mean, this]

theorem maxOf_ge (x : K) (xs : List K) : x ≤ maxOf x xs := by
  unfold maxOf
  induction xs generalizing x with
  | nil => simp
  | cons y ys ih => exact le_trans (le_max_left x y) (ih (max x y))

theorem maxOf_le (x : K) (xs : List K) (b : K) (hx : x ≤ b) (h : ∀ y ∈ xs, y ≤ b) : maxOf x xs ≤ b := by
  unfold maxOf
  induction xs generalizing x with
  | nil => simpa
  | cons y ys ih => exact ih (max x y) (max_le hx (h y (by simp))) (fun z hz => h z (by simp [hz]))

theorem maxOf_lt (x : K) (xs : List K) (b : K) (hx : x < b) (h : ∀ y ∈ xs, y < b) : maxOf x xs < b := by
  unfold maxOf
  induction xs generalizing x with
  | nil => simpa
  | cons y ys ih => exact ih (max x y) (max_lt hx (h y (by simp))) (fun z hz => h z (by simp [hz]))

/-- A monotone function takes the maximum to the maximum. -/
theorem maxOf_mono_map (g : K → K) (hg : ∀ a b, a ≤ b → g a ≤ g b) (f : K → K) (x : K) (xs : List K) :
    maxOf (g (f x)) (xs.map (fun p => g (f p))) = g (maxOf (f x) (xs.map f)) := by
  unfold maxOf
  generalize f x = y
  induction xs generalizing y with
  | nil => rfl
  | cons z zs ih =>
    simp only [List.map_cons, List.foldl_cons]
    rw [← ih (max y (f z))]
    congr 1
    rcases le_total y (f z) with h | h
    · rw [max_eq_right h, max_eq_right (hg _ _ h)]
    · rw [max_eq_left h, max_eq_left (hg _ _ h)]

theorem penalty_clamp_mono {l r a b : K} (hl : 0 ≤ l) (hr : 0 ≤ r) (h : a ≤ b) : penalty l r (clamp0 a) ≤ penalty l r (clamp0 b) := by
  have h0 := clamp0_nonneg a
  have h1 : clamp0 a ≤ clamp0 b := max_le_max h (le_refl _)
  unfold penalty
  have := mul_le_mul_of_nonneg_left h1 hl
  have := mul_le_mul_of_nonneg_left (pow_le_pow_left₀ h0 h1 2) (by positivity : 0 ≤ 1 / 2 * r)
  linarith

/-- Multipliers after an epoch. -/
theorem epoch_multipliers (eps limit : K) (rho : Weights K) (first : Bool) (s : State K) (e : Epoch K) :
    0 ≤ (epoch eps limit rho first s e).2.multipliers.localFlux ∧ 0 ≤ (epoch eps limit rho first s e).2.multipliers.fluxIntegral ∧
      0 ≤ (epoch eps limit rho first s e).2.multipliers.intercept :=
  ⟨clamp0_nonneg _, clamp0_nonneg _, clamp0_nonneg _⟩

/-- `NonNeg` multipliers. -/
def NonNeg (w : Weights K) : Prop := 0 ≤ w.localFlux ∧ 0 ≤ w.fluxIntegral ∧ 0 ≤ w.intercept

theorem references_multipliers (first : Bool) (s : State K) (e : Epoch K) : (references first s e).multipliers = s.multipliers := by
  unfold references; split <;> rfl

theorem epoch_terms (eps limit : K) (rho : Weights K) (hr : NonNeg rho) (first : Bool) (s : State K) (hs : NonNeg s.multipliers)
    (e : Epoch K) :
    let t := (epoch eps limit rho first s e).1
    0 ≤ t.fluxIntegral ∧ 0 ≤ t.intercept ∧ 0 ≤ t.localFlux ∧ t.loss = e.fluxLoss + t.fluxIntegral + t.intercept + t.localFlux := by
  obtain ⟨h1, h2, h3⟩ := hs
  obtain ⟨r1, r2, r3⟩ := hr
  have hm := references_multipliers first s e
  refine ⟨?_, ?_, ?_, rfl⟩
  · exact penalty_nonneg (by rw [hm]; exact h2) r2 (clamp0_nonneg _)
  · refine mean_nonneg _ ?_
    intro x hx
    obtain ⟨d, -, rfl⟩ := List.mem_map.1 hx
    exact penalty_nonneg (by rw [hm]; exact h3) r3 (clamp0_nonneg _)
  · exact le_trans (penalty_nonneg (by rw [hm]; exact h1) r1 (clamp0_nonneg _)) (maxOf_ge _ _)

/-- The state of references along a run. -/
theorem run_get (eps limit : K) (rho : Weights K) (es : List (Epoch K)) :
    ∀ (first : Bool) (s : State K) (n : Nat) (r : Terms K × State K), NonNeg s.multipliers →
      (run eps limit rho first s es)[n]? = some r →
      ∃ e s0, es[n]? = some e ∧ NonNeg s0.multipliers ∧ r = epoch eps limit rho (first && decide (n = 0)) s0 e ∧
        (first = false → s0.integralReference = s.integralReference ∧ s0.factorsReference = s.factorsReference) ∧
        (first = true → 0 < n → ∃ e0, es[0]? = some e0 ∧ s0.integralReference = e0.integral ∧ s0.factorsReference = e0.factors) := by
  induction es with
  | nil => intro first s n r _ h; simp [run] at h
  | cons e es ih =>
    intro first s n r hs h
    cases n with
    | zero =>
      simp only [run, List.getElem?_cons_zero, Option.some.injEq] at h
      refine ⟨e, s, rfl, hs, by simp [← h], fun _ => ⟨rfl, rfl⟩, fun _ h0 => absurd h0 (by omega)⟩
    | succ n =>
      simp only [run, List.getElem?_cons_succ] at h
      obtain ⟨e', s0, h1, h2, h3, h4, -⟩ := ih false _ n r (epoch_multipliers eps limit rho first s e) h
      obtain ⟨h5, h6⟩ := h4 rfl
      refine ⟨e', s0, by simpa using h1, h2, by simpa using h3, ?_, ?_⟩
      · intro hf
        subst hf
        exact ⟨by rw [h5]; rfl, by rw [h6]; rfl⟩
      · intro hf _
        subst hf
        exact ⟨e, rfl, by rw [h5]; rfl, by rw [h6]; rfl⟩

/-! ### Surface reconstruction -/

theorem reduce_mean_nonneg (k : Nat) (l : List K) (c : List K) (hl : ∀ x ∈ l, 0 ≤ x) (h : Report.reduceLoss mean k l = .ok c) :
    (∀ x ∈ c, 0 ≤ x) ∧ c.length = l.length / k := by
  unfold Report.reduceLoss at h
  split at h
  · cases h
  · cases h
    refine ⟨?_, by simp⟩
    intro x hx
    obtain ⟨n, -, rfl⟩ := List.mem_map.1 hx
    exact mean_nonneg _ (fun y hy => hl y (List.mem_of_mem_drop (List.mem_of_mem_take hy)))

end Artist.Aim
