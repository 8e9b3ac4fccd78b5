import Verif.Model.Fit
import Verif.Proofs.Loop
import Mathlib.Logic.Function.Iterate
import Mathlib.Algebra.Order.Ring.Rat
import Mathlib.Algebra.Order.Field.Rat
import Mathlib.Tactic.Linarith
/-! Property C80: the fit of a facet depends only on its own measurements. -/
namespace Artist.Fit
open Artist
variable {K : Type} [Field K] [LinearOrder K] [IsStrictOrderedRing K] {P O : Type}

theorem loop_none (tolerance : K) (maxEpoch : Nat) (p : Problem P O K) (fuel : Nat) :
    ∀ epoch loss x o rate s, (loop none tolerance maxEpoch p fuel epoch loss x o rate s).2 = s := by
  induction fuel with
  | zero => intros; rfl
  | succ fuel ih =>
    intro epoch loss x o rate s
    rw [loop]
    split_ifs
    · exact ih _ _ _ _ _ _
    · rfl

/-- C80 without a scheduler: every facet gets the parameters it would get alone.  Missing from the full statement: fits with a scheduler, for which
it is false (`C80_order_matters`). -/
theorem C80_no_scheduler_partial (rate tolerance : K) (maxEpoch : Nat) (ps : List (Problem P O K)) :
    fitAll none rate tolerance maxEpoch newScheduler ps = ps.map (fun p => (fitOne none rate tolerance maxEpoch newScheduler p).1) := by
  generalize newScheduler = s
  induction ps with
  | nil => rfl
  | cons p ps ih =>
    have hs : (fitOne none rate tolerance maxEpoch s p).2 = s := loop_none _ _ _ _ _ _ _ _ _ _
    simp only [fitAll, List.map_cons]
    rw [hs, ih]

theorem fitAll_append (c : Option (Plateau K)) (rate tolerance : K) (maxEpoch : Nat) (ps : List (Problem P O K)) :
    ∀ s, ∃ s', ∀ qs, fitAll c rate tolerance maxEpoch s (ps ++ qs) =
      fitAll c rate tolerance maxEpoch s ps ++ fitAll c rate tolerance maxEpoch s' qs := by
  induction ps with
  | nil => intro s; exact ⟨s, fun _ => rfl⟩
  | cons p ps ih =>
    intro s
    obtain ⟨s', h⟩ := ih (fitOne c rate tolerance maxEpoch s p).2
    refine ⟨s', fun qs => ?_⟩
    simp only [List.cons_append, fitAll]
    rw [h]

/-- C80 with any scheduler: a facet is not influenced by the facets after it, and the first one is fitted as if it were alone. -/
theorem C80_later_facets (c : Option (Plateau K)) (rate tolerance : K) (maxEpoch : Nat) (ps qs qs' : List (Problem P O K)) :
    (fitAll c rate tolerance maxEpoch newScheduler (ps ++ qs)).take ps.length =
      (fitAll c rate tolerance maxEpoch newScheduler (ps ++ qs')).take ps.length ∧
    ∀ p, (fitAll c rate tolerance maxEpoch newScheduler (p :: qs)).head? = some (fitOne c rate tolerance maxEpoch newScheduler p).1 := by
  have hl : ∀ s, (fitAll c rate tolerance maxEpoch s ps).length = ps.length := by
    induction ps with
    | nil => intro s; rfl
    | cons p ps ih => intro s; simp only [fitAll, List.length_cons, ih]
  refine ⟨?_, fun p => rfl⟩
  obtain ⟨s', h⟩ := fitAll_append c rate tolerance maxEpoch ps newScheduler
  rw [h, h, List.take_append_of_le_length (by rw [hl]), List.take_append_of_le_length (by rw [hl])]

theorem rates_bad (c : Plateau K) (b : K) (losses : List K) :
    ∀ s : SchedulerState K, s.best = some b → s.cool = 0 → s.bad ≤ c.patience → (∀ l ∈ losses, b - c.threshold ≤ l) →
      losses.length = c.patience + 1 - s.bad → ∀ rate, rates c s rate losses = List.replicate losses.length rate ++ [reduceRate c rate] := by
  induction losses with
  | nil => intro s _ _ h _ hl; simp at hl; omega
  | cons l ls ih =>
    intro s hb hc hp hl hn rate
    have hnb : isBetter c l s.best = false := by
      rw [hb]; simp only [isBetter, decide_eq_false_iff_not, not_lt]
      exact hl l (by simp)
    simp only [List.length_cons] at hn
    by_cases hlast : s.bad = c.patience
    · have : ls = [] := List.length_eq_zero_iff.1 (by omega)
      subst this
      simp only [rates, schedule, hnb, hc, hlast, Bool.false_eq_true, if_false, lt_irrefl, gt_iff_lt, Nat.lt_succ_self, if_true]
      rfl
    · have hsch : schedule c s rate l = ({ s with bad := s.bad + 1 }, rate) := by
        simp only [schedule, hnb, hc, Bool.false_eq_true, if_false, lt_irrefl, gt_iff_lt]
        rw [if_neg (by omega)]
      rw [rates, hsch]
      simp only
      rw [ih { s with bad := s.bad + 1 } hb hc (by show s.bad + 1 ≤ _; omega) (fun x hx => hl x (by simp [hx])) (by show _ = _ - (s.bad + 1); omega)]
      rfl

theorem rates_cooling (c : Plateau K) (b : K) (losses : List K) :
    ∀ s : SchedulerState K, s.best = some b → 0 < s.cool → (∀ l ∈ losses, b - c.threshold ≤ l) →
      losses.length = s.cool + c.patience + 1 → ∀ rate, rates c s rate losses = List.replicate losses.length rate ++ [reduceRate c rate] := by
  induction losses with
  | nil => intro s _ _ _ hl; simp at hl
  | cons l ls ih =>
    intro s hb hc hl hn rate
    have hnb : isBetter c l s.best = false := by
      rw [hb]; simp only [isBetter, decide_eq_false_iff_not, not_lt]
      exact hl l (by simp)
    simp only [List.length_cons] at hn
    have hsch : schedule c s rate l = ({ s with cool := s.cool - 1, bad := 0 }, rate) := by
      simp only [schedule, hnb, hc, Bool.false_eq_true, if_false, if_true, gt_iff_lt, Nat.not_lt_zero]
    rw [rates, hsch]
    simp only
    rcases Nat.eq_zero_or_pos (s.cool - 1) with h0 | h0
    · rw [rates_bad c b ls { s with cool := s.cool - 1, bad := 0 } hb h0 (Nat.zero_le _) (fun x hx => hl x (by simp [hx])) (by show _ = c.patience + 1 - 0; omega)]
      rfl
    · rw [ih { s with cool := s.cool - 1, bad := 0 } hb h0 (fun x hx => hl x (by simp [hx])) (by show _ = s.cool - 1 + c.patience + 1; omega)]
      rfl

theorem rates_improving (c : Plateau K) (losses : List K) :
    ∀ s : SchedulerState K, s.cool = 0 → s.bad = 0 → (∀ l ∈ losses.head?, isBetter c l s.best = true) →
      losses.IsChain (fun a b => b < a - c.threshold) → ∀ rate, rates c s rate losses = List.replicate (losses.length + 1) rate := by
  induction losses with
  | nil => intros; rfl
  | cons l ls ih =>
    intro s hc hb hh hch rate
    have hsch : schedule c s rate l = ({ s with best := some l, bad := 0 }, rate) := by
      simp only [schedule, hh l (by simp), hc, if_true, lt_irrefl, if_false, gt_iff_lt, Nat.not_lt_zero]
    rw [rates, hsch]
    simp only
    rw [ih { s with best := some l, bad := 0 } hc rfl ?_ (by cases ls with | nil => exact List.IsChain.nil | cons y ys => exact (List.isChain_cons_cons.1 hch).2), List.replicate_succ (n := (l :: ls).length)]
    · rfl
    · intro x hx
      cases ls with
      | nil => simp at hx
      | cons y ys =>
        simp only [List.head?_cons, Option.mem_def, Option.some.injEq] at hx
        subst hx
        simp only [isBetter, decide_eq_true_eq]
        exact (List.isChain_cons_cons.1 hch).1

/-- C80 is false with a scheduler: the best loss of earlier facets is kept.  Losses of a facet that improve in every epoch by more than the threshold
leave the learning rate unchanged if the facet is fitted alone; after a facet that reached a smaller loss `b` (with `s.bad` epochs without improvement
at its end, or `s.cool` epochs left in which the rate is not reduced) the same losses reduce the learning rate after `patience + 1 - s.bad` or
`s.cool + patience + 1` epochs. -/
theorem C80_reduced_despite_progress (c : Plateau K) (s : SchedulerState K) (b rate : K) (losses : List K) (hb : s.best = some b)
    (hp : s.bad ≤ c.patience) (hl : ∀ l ∈ losses, b - c.threshold ≤ l) (hn : losses.length = if s.cool = 0 then c.patience + 1 - s.bad else s.cool + c.patience + 1)
    (hi : losses.IsChain (fun x y => y < x - c.threshold)) :
    rates c newScheduler rate losses = List.replicate losses.length rate ++ [rate] ∧
    rates c s rate losses = List.replicate losses.length rate ++ [reduceRate c rate] := by
  refine ⟨?_, ?_⟩
  · rw [rates_improving c losses newScheduler rfl rfl (fun _ _ => rfl) hi, List.replicate_succ']
  · split at hn
    · rename_i hc
      exact rates_bad c b losses s hb hc hp hl hn rate
    · exact rates_cooling c b losses s hb (by omega) hl hn rate

/-- A scheduler with patience 2 after a facet with loss 1/100; the next facet improves steadily from 1 but is slowed down. -/
example : rates (⟨1/5, 2, 1/1000, 0, 0, 0⟩ : Plateau ℚ) newScheduler (1/10) [1, 9/10, 8/10] = [1/10, 1/10, 1/10, 1/10] ∧
    rates (⟨1/5, 2, 1/1000, 0, 0, 0⟩ : Plateau ℚ) ⟨some (1/100), 0, 0⟩ (1/10) [1, 9/10, 8/10] = [1/10, 1/10, 1/10, 1/50] := by
  decide +kernel

/-- The same scheduler with one epoch of cooldown left after the first facet. -/
example : rates (⟨1/5, 2, 1/1000, 1, 0, 0⟩ : Plateau ℚ) ⟨some (1/100), 0, 1⟩ (1/10) [1, 9/10, 8/10, 7/10] = [1/10, 1/10, 1/10, 1/10, 1/50] := by
  decide +kernel

/-- One epoch of a fit: parameters, optimizer state, learning rate and scheduler state afterwards. -/
def advance (c : Option (Plateau K)) (p : Problem P O K) (z : P × O × K × SchedulerState K) : P × O × K × SchedulerState K :=
  ((p.move z.2.2.1 z.2.1 z.1).1, (p.move z.2.2.1 z.2.1 z.1).2, (scheduleIf c z.2.2.2 z.2.2.1 (p.loss z.1)).2, (scheduleIf c z.2.2.2 z.2.2.1 (p.loss z.1)).1)

theorem loop_epochs (c : Option (Plateau K)) (tolerance : K) (maxEpoch : Nat) (p : Problem P O K) (z : P × O × K × SchedulerState K) (fuel e : Nat)
    (hfuel : fuel + e = maxEpoch + 2) (he : e ≤ maxEpoch + 1) (hno : ∀ i, i + 1 < e → tolerance < p.loss ((advance c p)^[i] z).1) :
    ∃ n, Loop.EndsAfter tolerance (maxEpoch + 1) (fun _ => False) (fun i => p.loss ((advance c p)^[i] z).1) n ∧
      loop c tolerance maxEpoch p fuel e (Loop.lossBefore (fun i => p.loss ((advance c p)^[i] z).1) e) ((advance c p)^[e] z).1 ((advance c p)^[e] z).2.1
        ((advance c p)^[e] z).2.2.1 ((advance c p)^[e] z).2.2.2 = (((advance c p)^[n] z).1, ((advance c p)^[n] z).2.2.2) := by
  induction fuel generalizing e with
  | zero => omega
  | succ fuel ih =>
    rw [loop]
    by_cases hc : Loop.above tolerance (Loop.lossBefore (fun i => p.loss ((advance c p)^[i] z).1) e) = true ∧ e ≤ maxEpoch
    · rw [if_pos (by simpa using hc)]
      have habove := (Loop.above_before tolerance (fun i => p.loss ((advance c p)^[i] z).1) e).1 hc.1
      have hno' : ∀ i, i + 1 < e + 1 → tolerance < p.loss ((advance c p)^[i] z).1 := by
        intro i hi
        rcases Nat.lt_or_ge (i + 1) e with h | h
        · exact hno i h
        · exact habove i (by omega)
      obtain ⟨n, h1, h2⟩ := ih (e + 1) (by omega) (by omega) hno'
      refine ⟨n, h1, ?_⟩
      rw [Function.iterate_succ_apply' (advance c p)] at h2
      exact h2
    · rw [if_neg (by simpa using hc)]
      have hpos : 0 < e := by
        rcases Nat.eq_zero_or_pos e with rfl | h
        · exact absurd ⟨rfl, Nat.zero_le _⟩ hc
        · exact h
      refine ⟨e, ⟨hpos, he, fun i hi => ⟨hno i hi, id⟩, ?_⟩, rfl⟩
      by_cases hm : e ≤ maxEpoch
      · left
        have hna : ¬ Loop.above tolerance (Loop.lossBefore (fun i => p.loss ((advance c p)^[i] z).1) e) = true := fun h => hc ⟨h, hm⟩
        rw [Loop.above_before] at hna
        push Not at hna
        obtain ⟨i, hi, h⟩ := hna
        rw [show e - 1 = i by omega]
        exact h
      · exact .inr (.inr (by omega))

/-- C80, what a fit computes: the parameters after `n` epochs, where the losses of these parameters determine `n`: the first epoch within the tolerance is the last, and there are
at most `max_epoch + 1`.  The learning rate starts anew for every facet, the scheduler does not. -/
theorem C80_epochs (c : Option (Plateau K)) (rate tolerance : K) (maxEpoch : Nat) (s : SchedulerState K) (p : Problem P O K) :
    ∃ n, Loop.EndsAfter tolerance (maxEpoch + 1) (fun _ => False) (fun i => p.loss ((advance c p)^[i] (p.parameters, p.memory, rate, s)).1) n ∧
      (fitOne c rate tolerance maxEpoch s p).1 = ((advance c p)^[n] (p.parameters, p.memory, rate, s)).1 ∧
      (fitOne c rate tolerance maxEpoch s p).2 = ((advance c p)^[n] (p.parameters, p.memory, rate, s)).2.2.2 := by
  obtain ⟨n, h1, h2⟩ := loop_epochs c tolerance maxEpoch p (p.parameters, p.memory, rate, s) (maxEpoch + 2) 0 (by omega) (by omega) (by omega)
  have h3 : fitOne c rate tolerance maxEpoch s p = _ := h2
  exact ⟨n, h1, by rw [h3], by rw [h3]⟩

/-- Gradient descent for the distance to a flat facet with height `height`, starting at height zero. -/
def level (height : ℚ) : Problem ℚ Unit ℚ where
  parameters := 0
  memory := ()
  loss x := (x - height) ^ 2
  move rate _ x := (x - rate * (2 * (x - height)), ())

/-- A case for `C80_epochs`: from height zero to within 1/10 of height one needs four epochs, the last of which is after the tolerance was reached. -/
example : (fitOne none (1/4) (1/10) 9 newScheduler (level 1)).1 = 7/8 ∧ (fitOne none (1/4) 0 2 newScheduler (level 1)).1 = 7/8 := by
  decide +kernel

/-- C80 is false with a scheduler: two facets, fitted together in either order, get other parameters than alone; the result depends on the order. -/
theorem C80_order_matters :
    let c : Plateau ℚ := ⟨1/5, 1, 1/10 ^ 7, 0, 0, 0⟩
    let alone := fun h => (fitOne (some c) (1/4) (1/10 ^ 10) 5 newScheduler (level h)).1
    let together := fun hs => fitAll (some c) (1/4) (1/10 ^ 10) 5 newScheduler (List.map level hs)
    together [0, 1] ≠ [alone 0, alone 1] ∧ together [0, 1] ≠ (together [1, 0]).reverse := by
  decide +kernel

end Artist.Fit
