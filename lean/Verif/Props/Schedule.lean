import Verif.Model.Schedule
import Mathlib.Algebra.Order.Ring.Rat
import Mathlib.Algebra.Order.Field.Rat
import Mathlib.Tactic.Linarith
import Mathlib.Tactic.Ring
import Mathlib.Tactic.FieldSimp
import Mathlib.Tactic.Positivity
import Mathlib.Tactic.NormNum
/-!
# C90: learning rates follow the configured schedule
-/
namespace Artist.Schedule
open Artist Artist.Fit
variable {K : Type} [Field K] [LinearOrder K] [IsStrictOrderedRing K]

/-- C90, exponential: before epoch `e` the learning rate is the initial one times `gamma ^ e`, whatever the losses. -/
theorem C90_exponential (gamma initial : K) (losses : Nat → K) :
    ∃ z, create (.exponential gamma) initial = .ok z ∧ ∀ e, (before (.exponential gamma) z losses e).rate = initial * gamma ^ e := by
  refine ⟨_, rfl, fun e => ?_⟩
  induction e with
  | zero => simp [before]
  | succ e ih =>
    simp only [before, step]
    rw [ih, pow_succ, mul_assoc]

theorem cyclic_rate (lrMin lrMax : K) (up : Nat) (losses : Nat → K) (e : Nat) :
    (before (.cyclic lrMin lrMax up) ⟨triangle lrMin lrMax up 0, 0, newScheduler⟩ losses e).iteration = e ∧
    (before (.cyclic lrMin lrMax up) ⟨triangle lrMin lrMax up 0, 0, newScheduler⟩ losses e).rate = triangle lrMin lrMax up e := by
  induction e with
  | zero => exact ⟨rfl, rfl⟩
  | succ e ih =>
    simp only [before, step, ih.1, and_self]

theorem triangle_eq (lrMin lrMax : K) (up : Nat) (hu : 0 < up) (e : Nat) :
    triangle lrMin lrMax up e = lrMin + (lrMax - lrMin) * ((min (e % (2 * up)) (2 * up - e % (2 * up)) : Nat) : K) / (up : K) := by
  have hr : e % (2 * up) < 2 * up := Nat.mod_lt _ (by omega)
  unfold triangle
  generalize e % (2 * up) = r at hr
  have hK : (0 : K) < up := by exact_mod_cast hu
  have hx : (((2 * up : Nat) : K)) = 2 * up := by push_cast; ring
  simp only [hx]
  have hle : ((r : K) / (2 * up) ≤ 1 / 2) ↔ r ≤ up := by
    rw [div_le_div_iff₀ (by positivity) (by norm_num)]
    constructor
    · intro h
      have : (r : K) ≤ up := by linarith
      exact_mod_cast this
    · intro h
      have : (r : K) ≤ up := by exact_mod_cast h
      linarith
  by_cases h : r ≤ up
  · rw [if_pos (hle.2 h), show min r (2 * up - r) = r by omega]
    field_simp
  · rw [if_neg (fun h' => h (hle.1 h')), show min r (2 * up - r) = 2 * up - r by omega, Nat.cast_sub (by omega), hx]
    field_simp
    ring

/-- C90, cyclic: before epoch `e` the learning rate is `lr_min` plus a part of `lr_max - lr_min` given by the distance of `e` to the nearest multiple of `2 step_size_up`; so it
starts with `lr_min`, reaches `lr_max` after `step_size_up` epochs and stays between the two.  The initial learning rate of the configuration has no influence: it is replaced before the
first epoch (so the full claim is false if `lr_min` is another number). -/
theorem C90_cyclic_partial (lrMin lrMax initial : K) (up : Nat) (hu : 0 < up) (losses : Nat → K) :
    ∃ z, create (.cyclic lrMin lrMax up) initial = .ok z ∧
      (∀ e, (before (.cyclic lrMin lrMax up) z losses e).rate =
        lrMin + (lrMax - lrMin) * ((min (e % (2 * up)) (2 * up - e % (2 * up)) : Nat) : K) / (up : K)) ∧
      (before (.cyclic lrMin lrMax up) z losses 0).rate = lrMin ∧
      (∀ k, (before (.cyclic lrMin lrMax up) z losses (2 * up * k + up)).rate = lrMax) ∧
      (lrMin ≤ lrMax → ∀ e, lrMin ≤ (before (.cyclic lrMin lrMax up) z losses e).rate ∧ (before (.cyclic lrMin lrMax up) z losses e).rate ≤ lrMax) := by
  have hK : (0 : K) < up := by exact_mod_cast hu
  refine ⟨⟨triangle lrMin lrMax up 0, 0, newScheduler⟩, by simp [create, show up ≠ 0 by omega], ?_, ?_, ?_, ?_⟩
  · intro e
    rw [(cyclic_rate lrMin lrMax up losses e).2, triangle_eq _ _ _ hu]
  · rw [(cyclic_rate lrMin lrMax up losses 0).2, triangle_eq _ _ _ hu]
    simp
  · intro k
    rw [(cyclic_rate lrMin lrMax up losses _).2, triangle_eq _ _ _ hu, Nat.mul_add_mod, Nat.mod_eq_of_lt (by omega), show min up (2 * up - up) = up by omega]
    field_simp
    ring
  · intro hl e
    rw [(cyclic_rate lrMin lrMax up losses e).2, triangle_eq _ _ _ hu]
    have hr : e % (2 * up) < 2 * up := Nat.mod_lt _ (by omega)
    have hm : min (e % (2 * up)) (2 * up - e % (2 * up)) ≤ up := by omega
    generalize min (e % (2 * up)) (2 * up - e % (2 * up)) = m at hm
    have hm' : (m : K) ≤ up := by exact_mod_cast hm
    have h0 : (0 : K) ≤ m := by positivity
    have hd : 0 ≤ lrMax - lrMin := by linarith
    constructor
    · have : 0 ≤ (lrMax - lrMin) * (m : K) / up := div_nonneg (mul_nonneg hd h0) hK.le
      linarith
    · have : (lrMax - lrMin) * (m : K) / up ≤ lrMax - lrMin := by
        rw [div_le_iff₀ hK]
        exact mul_le_mul_of_nonneg_left hm' hd
      linarith

/-- C90, cyclic: the rate of the first epoch is not the configured initial learning rate, unless that is `lr_min`. -/
theorem C90_cyclic_ignores_initial (lrMin lrMax initial : K) (up : Nat) (hu : 0 < up) (losses : Nat → K) (z : State K) (hz : create (.cyclic lrMin lrMax up) initial = .ok z) :
    (before (.cyclic lrMin lrMax up) z losses 0).rate = initial ↔ initial = lrMin := by
  obtain ⟨z', h1, -, h3, -⟩ := C90_cyclic_partial lrMin lrMax initial up hu losses
  rw [hz] at h1
  obtain rfl : z = z' := by simpa using h1
  rw [h3, eq_comm]

theorem reduceRate_le (c : Plateau K) (he : 0 ≤ c.eps) (rate : K) : reduceRate c rate ≤ rate ∧ min rate c.minRate ≤ reduceRate c rate := by
  unfold reduceRate
  simp only
  split
  · rename_i h
    exact ⟨by linarith, le_trans (min_le_right _ _) (le_max_right _ _)⟩
  · exact ⟨le_refl _, min_le_left _ _⟩

theorem eps_nonneg : (0 : K) ≤ 1 / 10 ^ 8 := by positivity

/-- C90, plateau: whatever the losses, the learning rate starts with the initial one, never increases and never falls below `lr_min` (or the initial rate, if that is smaller). -/
theorem C90_plateau (factor threshold lrMin initial : K) (patience cooldown : Nat) (hf : factor < 1) (losses : Nat → K) :
    ∃ z, create (.plateau factor patience threshold cooldown lrMin) initial = .ok z ∧
      (before (.plateau factor patience threshold cooldown lrMin) z losses 0).rate = initial ∧
      ∀ e, (before (.plateau factor patience threshold cooldown lrMin) z losses (e + 1)).rate ≤ (before (.plateau factor patience threshold cooldown lrMin) z losses e).rate ∧
        min initial lrMin ≤ (before (.plateau factor patience threshold cooldown lrMin) z losses e).rate := by
  refine ⟨⟨initial, 0, newScheduler⟩, by simp [create, hf], rfl, ?_⟩
  have key : ∀ (s : SchedulerState K) (rate loss : K), (plateauStep factor patience threshold cooldown lrMin s rate loss).2 ≤ rate ∧
      min rate lrMin ≤ (plateauStep factor patience threshold cooldown lrMin s rate loss).2 := by
    intro s rate loss
    unfold plateauStep
    simp only
    split
    all_goals split
    all_goals split
    all_goals first
      | exact reduceRate_le ⟨factor, patience, threshold, cooldown, lrMin, 1 / 10 ^ 8⟩ eps_nonneg rate
      | exact ⟨le_refl _, min_le_left _ _⟩
  have low : ∀ e, min initial lrMin ≤ (before (.plateau factor patience threshold cooldown lrMin) ⟨initial, 0, newScheduler⟩ losses e).rate := by
    intro e
    induction e with
    | zero => exact min_le_left _ _
    | succ e ih =>
      refine le_trans ?_ (key _ _ _).2
      exact le_min ih (min_le_right _ _)
  exact fun e => ⟨(key _ _ _).1, low e⟩

/-- C90, plateau: while every loss is below the one before by the relative threshold, the learning rate does not change. -/
theorem C90_plateau_steady (factor threshold lrMin initial : K) (patience cooldown : Nat) (losses : Nat → K) (z : State K)
    (hz : create (.plateau factor patience threshold cooldown lrMin) initial = .ok z) (hl : ∀ e, losses (e + 1) < losses e * (1 - threshold)) (e : Nat) :
    (before (.plateau factor patience threshold cooldown lrMin) z losses e).rate = initial := by
  have hz' : z = ⟨initial, 0, newScheduler⟩ := by
    unfold create at hz
    simp only at hz
    split at hz
    · cases hz
    · simpa [eq_comm] using hz
  subst hz'
  have key : ∀ e, (before (.plateau factor patience threshold cooldown lrMin) ⟨initial, 0, newScheduler⟩ losses (e + 1)).plateau = ⟨some (losses e), 0, 0⟩ ∧
      (before (.plateau factor patience threshold cooldown lrMin) ⟨initial, 0, newScheduler⟩ losses (e + 1)).rate = initial := by
    intro e
    induction e with
    | zero => simp [before, step, plateauStep, isBetterRel, newScheduler]
    | succ e ih =>
      rw [before]
      simp only [step, ih.1, ih.2]
      simp [plateauStep, isBetterRel, hl e]
  cases e with
  | zero => rfl
  | succ e => exact (key e).2

/-- C90, plateau: if the losses after the first epoch are not below the first one by the relative threshold, the learning rate stays for `patience + 1` more epochs and is then
multiplied by `factor`, but not below `lr_min` (and not at all if that is a change of at most 1e-8). -/
theorem C90_plateau_reduces (factor threshold lrMin initial : K) (patience cooldown : Nat) (losses : Nat → K) (z : State K)
    (hz : create (.plateau factor patience threshold cooldown lrMin) initial = .ok z) (hl : ∀ e, 0 < e → e ≤ patience + 1 → losses 0 * (1 - threshold) ≤ losses e) :
    (∀ e, e ≤ patience + 1 → (before (.plateau factor patience threshold cooldown lrMin) z losses e).rate = initial) ∧
    (before (.plateau factor patience threshold cooldown lrMin) z losses (patience + 2)).rate =
      if initial - max (initial * factor) lrMin > 1 / 10 ^ 8 then max (initial * factor) lrMin else initial := by
  have hz' : z = ⟨initial, 0, newScheduler⟩ := by
    unfold create at hz
    simp only at hz
    split at hz
    · cases hz
    · simpa [eq_comm] using hz
  subst hz'
  have key : ∀ e, e ≤ patience → (before (.plateau factor patience threshold cooldown lrMin) ⟨initial, 0, newScheduler⟩ losses (e + 1)).plateau = ⟨some (losses 0), e, 0⟩ ∧
      (before (.plateau factor patience threshold cooldown lrMin) ⟨initial, 0, newScheduler⟩ losses (e + 1)).rate = initial := by
    intro e
    induction e with
    | zero => intro _; simp [before, step, plateauStep, isBetterRel, newScheduler]
    | succ e ih =>
      intro he
      have ih := ih (by omega)
      rw [before]
      simp only [step, ih.1, ih.2]
      have hn : ¬ losses (e + 1) < losses 0 * (1 - threshold) := not_lt.2 (hl (e + 1) (by omega) (by omega))
      simp only [plateauStep, isBetterRel, hn, decide_false, Bool.false_eq_true, if_false, lt_irrefl, gt_iff_lt, show ¬ patience < e + 1 by omega, and_self]
  refine ⟨?_, ?_⟩
  · intro e he
    cases e with
    | zero => rfl
    | succ e => exact (key e (by omega)).2
  · have h := key patience (le_refl _)
    rw [before]
    simp only [step, h.1, h.2]
    have hn : ¬ losses (patience + 1) < losses 0 * (1 - threshold) := not_lt.2 (hl (patience + 1) (by omega) (le_refl _))
    simp only [plateauStep, isBetterRel, hn, decide_false, Bool.false_eq_true, if_false, lt_irrefl, gt_iff_lt, show patience < patience + 1 by omega, if_true, reduceRate]

/-- C90, plateau: two reductions of the learning rate are more than `patience + cooldown` epochs apart, whatever the losses. -/
theorem C90_plateau_distance (factor threshold lrMin : K) (patience cooldown : Nat) (losses : Nat → K) (z : State K) (e e' : Nat) (hlt : e < e')
    (h : (before (.plateau factor patience threshold cooldown lrMin) z losses (e + 1)).rate ≠ (before (.plateau factor patience threshold cooldown lrMin) z losses e).rate)
    (h' : (before (.plateau factor patience threshold cooldown lrMin) z losses (e' + 1)).rate ≠ (before (.plateau factor patience threshold cooldown lrMin) z losses e').rate) :
    e + cooldown + patience < e' := by
  -- what a step does to the counters
  have red : ∀ (s : SchedulerState K) (rate loss : K), (plateauStep factor patience threshold cooldown lrMin s rate loss).2 ≠ rate →
      (plateauStep factor patience threshold cooldown lrMin s rate loss).1.bad = 0 ∧ (plateauStep factor patience threshold cooldown lrMin s rate loss).1.cool = cooldown ∧
      s.cool = 0 ∧ patience ≤ s.bad := by
    intro s rate loss hne
    unfold plateauStep at hne ⊢
    by_cases hb : isBetterRel threshold loss s.best
    · exfalso
      revert hne
      simp only [hb, if_true]
      by_cases hc : 0 < s.cool <;> simp [hc]
    · simp only [hb, Bool.false_eq_true, if_false] at hne ⊢
      by_cases hc : 0 < s.cool
      · simp [hc] at hne
      · simp only [hc, if_false] at hne ⊢
        by_cases hp : s.bad + 1 > patience
        · rw [if_pos hp]
          exact ⟨rfl, rfl, by omega, by omega⟩
        · rw [if_neg hp] at hne
          exact absurd rfl hne
  have keep : ∀ (s : SchedulerState K) (rate loss : K) (j : Nat), (cooldown ≤ j → s.cool = 0 ∧ s.bad ≤ j - cooldown) → (j < cooldown → s.cool = cooldown - j ∧ s.bad = 0) →
      j < cooldown + patience →
      (cooldown ≤ j + 1 → (plateauStep factor patience threshold cooldown lrMin s rate loss).1.cool = 0 ∧
        (plateauStep factor patience threshold cooldown lrMin s rate loss).1.bad ≤ j + 1 - cooldown) ∧
      (j + 1 < cooldown → (plateauStep factor patience threshold cooldown lrMin s rate loss).1.cool = cooldown - (j + 1) ∧
        (plateauStep factor patience threshold cooldown lrMin s rate loss).1.bad = 0) := by
    intro s rate loss j h1 h2 hj
    unfold plateauStep
    rcases Nat.lt_or_ge j cooldown with hc | hc
    · obtain ⟨a, b⟩ := h2 hc
      by_cases hb : isBetterRel threshold loss s.best <;> simp only [hb, Bool.false_eq_true, if_true, if_false, show 0 < s.cool by omega, gt_iff_lt, Nat.not_lt_zero] <;>
        (constructor <;> intro _ <;> constructor <;> (try dsimp only) <;> omega)
    · obtain ⟨a, b⟩ := h1 hc
      by_cases hb : isBetterRel threshold loss s.best
      · simp only [hb, if_true, a, lt_irrefl, if_false, gt_iff_lt, Nat.not_lt_zero]
        constructor <;> intro _ <;> constructor <;> (try dsimp only) <;> omega
      · simp only [hb, Bool.false_eq_true, if_false, a, lt_irrefl, gt_iff_lt, show ¬ patience < s.bad + 1 by omega]
        constructor <;> intro _ <;> constructor <;> (try dsimp only) <;> omega
  by_contra hcon
  obtain ⟨j, rfl⟩ : ∃ j, e' = e + 1 + j := ⟨e' - e - 1, by omega⟩
  have inv : ∀ j, j ≤ cooldown + patience →
      (cooldown ≤ j → (before (.plateau factor patience threshold cooldown lrMin) z losses (e + 1 + j)).plateau.cool = 0 ∧
        (before (.plateau factor patience threshold cooldown lrMin) z losses (e + 1 + j)).plateau.bad ≤ j - cooldown) ∧
      (j < cooldown → (before (.plateau factor patience threshold cooldown lrMin) z losses (e + 1 + j)).plateau.cool = cooldown - j ∧
        (before (.plateau factor patience threshold cooldown lrMin) z losses (e + 1 + j)).plateau.bad = 0) := by
    intro j
    induction j with
    | zero =>
      intro _
      obtain ⟨r1, r2, -, -⟩ := red _ _ _ h
      have c1 : (before (.plateau factor patience threshold cooldown lrMin) z losses (e + 1)).plateau.bad = 0 := r1
      have c2 : (before (.plateau factor patience threshold cooldown lrMin) z losses (e + 1)).plateau.cool = cooldown := r2
      refine ⟨fun hc => ⟨?_, ?_⟩, fun hc => ⟨?_, ?_⟩⟩ <;> rw [Nat.add_zero] <;> first | (rw [c2]; omega) | (rw [c1]; omega) | exact c1
    | succ j ih =>
      intro hj
      obtain ⟨i1, i2⟩ := ih (by omega)
      exact keep _ _ _ j i1 i2 (by omega)
  obtain ⟨-, -, r3, r4⟩ := red _ _ _ h'
  obtain ⟨i1, i2⟩ := inv j (by omega)
  rcases Nat.lt_or_ge j cooldown with hc | hc
  · obtain ⟨a, -⟩ := i2 hc
    omega
  · obtain ⟨-, b⟩ := i1 hc
    omega

/-- C90 is false for surface fits with an exponential scheduler: the loss is taken for the number of epochs.  So the learning rate does not decay with the epochs but depends on the last loss
only, and (for `gamma` below one) grows while the losses fall. -/
theorem C90_fit_exponential (base gamma : ℝ) (hb : 0 < base) (hg : 0 < gamma) (hg1 : gamma < 1) (losses : Nat → ℝ) :
    (∀ e, fitRate base gamma losses (e + 1) = base * gamma ^ losses e) ∧
    (∀ e, losses (e + 1) < losses e → fitRate base gamma losses (e + 1) < fitRate base gamma losses (e + 2)) ∧
    (∀ bound, (∀ e, losses e ≤ bound) → ∀ e, base * gamma ^ bound ≤ fitRate base gamma losses (e + 1)) := by
  refine ⟨fun e => rfl, fun e h => ?_, fun bound h e => ?_⟩
  · exact mul_lt_mul_of_pos_left (Real.rpow_lt_rpow_of_exponent_gt hg hg1 h) hb
  · exact mul_le_mul_of_nonneg_left (Real.rpow_le_rpow_of_exponent_ge hg hg1.le (h e)) hb.le

/-- Cases for the theorems: eight epochs with a cycle of four, and ten epochs without progress with patience one and one epoch of cooldown. -/
example : (List.range 9).map (fun e => (before (.cyclic 1 5 2) ⟨triangle 1 5 2 0, 0, newScheduler⟩ (fun _ => (0 : ℚ)) e).rate) = [1, 3, 5, 3, 1, 3, 5, 3, 1] := by decide +kernel

example : (List.range 9).map (fun e => (before (.plateau (1 / 2) 1 (1 / 10) 1 (1 / 5)) ⟨1, 0, newScheduler⟩ (fun _ => (7 : ℚ)) e).rate) =
    [1, 1, 1, 1 / 2, 1 / 2, 1 / 2, 1 / 4, 1 / 4, 1 / 4] := by decide +kernel

example : ∃ z, create (.plateau (1 / 2) 1 (1 / 10) 1 (1 / 5)) (1 : ℚ) = .ok z ∧ (∀ e, 0 < e → e ≤ 2 → (fun _ => (7 : ℚ)) 0 * (1 - 1 / 10) ≤ (fun _ => (7 : ℚ)) e) :=
  ⟨⟨1, 0, newScheduler⟩, by norm_num [create], by intros; norm_num⟩

example : ∃ losses : Nat → ℚ, ∀ e, losses (e + 1) < losses e * (1 - 1 / 10) := by
  refine ⟨fun e => (1 / 2) ^ e, fun e => ?_⟩
  have : (0 : ℚ) < (1 / 2) ^ e := by positivity
  simp only [pow_succ]
  linarith

end Artist.Schedule
