import Verif.Spec.Loop
import Verif.Proofs.Training
/-! Helper lemmas for C34. -/
namespace Artist.Loop
open Artist Artist.Training
variable {K : Type} [Field K] [LinearOrder K] [IsStrictOrderedRing K]

theorem firstLosses_succ (losses : Nat → K) (n : Nat) : firstLosses losses (n + 1) = firstLosses losses n ++ [losses n] := by
  simp [firstLosses, List.range_succ]

theorem firstLosses_length (losses : Nat → K) (n : Nat) : (firstLosses losses n).length = n := by simp [firstLosses]

theorem stagnant_first (c : Config K) (hw : 0 < c.windowSize) (losses : Nat → K) (n t : Nat) (ht : t < n) :
    Stagnant c (firstLosses losses n) t ↔
      c.windowSize ≤ t + 1 ∧ improvement c (losses (t + 1 - c.windowSize)) (losses t) ≤ c.minImprovement := by
  unfold Stagnant firstLosses
  refine and_congr_right fun hle => ?_
  rw [List.getElem?_map, List.getElem?_map, List.getElem?_range ht, List.getElem?_range (by omega)]
  simp

theorem step_fires (c : Config K) (hw : 0 < c.windowSize) (losses : Nat → K) (e : Nat) (s : Stopper K)
    (h : Inv c (firstLosses losses e) s) :
    ∃ b s', step c s (losses e) = .ok (b, s') ∧ Inv c (firstLosses losses (e + 1)) s' ∧ (b = true ↔ FiresAt c losses e) := by
  obtain ⟨b, s', h1, h2, h3⟩ := step_spec c hw _ s h (losses e)
  rw [← firstLosses_succ] at h2
  refine ⟨b, s', h1, h2, ?_⟩
  rw [h3, counter_ge_iff c _ _ h2, firstLosses_length, firstLosses_length]
  unfold FiresAt
  refine and_congr_right fun _ => and_congr_right fun hp => forall_congr' fun j => imp_congr_right fun hj => ?_
  rw [Nat.add_sub_cancel]
  exact stagnant_first c hw losses (e + 1) (e - j) (by omega)

/-- The loss variable at the start of epoch `e`. -/
def lossBefore (losses : Nat → K) : Nat → Option K
  | 0 => none
  | e + 1 => some (losses e)

theorem above_before (tol : K) (losses : Nat → K) (e : Nat) :
    above tol (lossBefore losses e) = true ↔ ∀ i, i + 1 = e → tol < losses i := by
  cases e with
  | zero => simp [lossBefore, above]
  | succ e => simp [lossBefore, above]

open Classical in
/-- Epochs below `n` with a log entry, in a loop with early stopping. -/
noncomputable def loggedSpec (o : Options K) (fires : Nat → Prop) (n : Nat) : List Nat :=
  (List.range n).filter (fun e => decide (e % effectiveLogStep o = 0 ∨ e + 1 = o.maxEpoch ∨ fires e))

open Classical in
theorem loggedSpec_succ (o : Options K) (fires : Nat → Prop) (n : Nat) :
    loggedSpec o fires (n + 1) = loggedSpec o fires n ++
      (if n % effectiveLogStep o = 0 ∨ n + 1 = o.maxEpoch ∨ fires n then [n] else []) := by
  unfold loggedSpec
  rw [List.range_succ, List.filter_append]
  congr 1
  by_cases h : n % effectiveLogStep o = 0 ∨ n + 1 = o.maxEpoch ∨ fires n <;> simp [h]

theorem reconstructLoop_spec (o : Options K) (c : Config K) (hw : 0 < c.windowSize) (hl : effectiveLogStep o ≠ 0)
    (losses : Nat → K) (fuel e : Nat) (hfuel : fuel + e = o.maxEpoch + 2) (he : e ≤ o.maxEpoch + 1) (s : Stopper K)
    (hs : Inv c (firstLosses losses e) s)
    (hno : ∀ i, i + 1 < e → o.tolerance < losses i) (hnf : ∀ i, i < e → ¬ FiresAt c losses i) :
    ∃ out n, reconstructLoop o c losses fuel e (lossBefore losses e) s
        ⟨e, firstLosses losses e, loggedSpec o (FiresAt c losses) e, false⟩ = some (.ok out) ∧
      EndsAfter o.tolerance (o.maxEpoch + 1) (FiresAt c losses) losses n ∧ out.steps = n ∧
      (out.stopped = true ↔ FiresAt c losses (n - 1)) ∧
      out.history = firstLosses losses (if out.stopped then n - 1 else n) ∧
      out.logged = loggedSpec o (FiresAt c losses) n := by
  induction fuel generalizing e s with
  | zero => omega
  | succ fuel ih =>
    rw [reconstructLoop]
    by_cases hc : above o.tolerance (lossBefore losses e) = true ∧ e ≤ o.maxEpoch
    · rw [if_pos (by simpa using hc)]
      obtain ⟨b, s', h1, h2, h3⟩ := step_fires c hw losses e s hs
      have habove := (above_before o.tolerance losses e).1 hc.1
      have hno' : ∀ i, i + 1 < e + 1 → o.tolerance < losses i := by
        intro i hi
        rcases Nat.lt_or_ge (i + 1) e with h | h
        · exact hno i h
        · exact habove i (by omega)
      simp only [h1, if_neg hl]
      have hlast : (decide ((e : Int) = (o.maxEpoch : Int) - 1)) = decide (e + 1 = o.maxEpoch) := by
        apply Bool.decide_congr; omega
      have hcond : (decide (e % effectiveLogStep o = 0) || decide ((e : Int) = (o.maxEpoch : Int) - 1) || b) = true ↔
          (e % effectiveLogStep o = 0 ∨ e + 1 = o.maxEpoch ∨ FiresAt c losses e) := by
        rw [hlast, ← h3]; simp [or_assoc]
      have hlog : (if (decide (e % effectiveLogStep o = 0) || decide ((e : Int) = (o.maxEpoch : Int) - 1) || b) = true then
            (⟨e + 1, firstLosses losses e, loggedSpec o (FiresAt c losses) e ++ [e], false⟩ : Outcome K)
          else ⟨e + 1, firstLosses losses e, loggedSpec o (FiresAt c losses) e, false⟩) =
          ⟨e + 1, firstLosses losses e, loggedSpec o (FiresAt c losses) (e + 1), false⟩ := by
        rw [loggedSpec_succ]
        by_cases hx : e % effectiveLogStep o = 0 ∨ e + 1 = o.maxEpoch ∨ FiresAt c losses e
        · rw [if_pos (hcond.2 hx), if_pos hx]
        · rw [if_neg (fun h => hx (hcond.1 h)), if_neg hx, List.append_nil]
      rw [hlog]
      by_cases hb : b = true
      · rw [if_pos hb]
        refine ⟨_, e + 1, rfl, ⟨by omega, by omega, ?_, Or.inr (Or.inl ?_)⟩, rfl, ?_, ?_, rfl⟩
        · intro i hi; exact ⟨hno' i hi, hnf i (by omega)⟩
        · simpa using h3.1 hb
        · simpa using h3.1 hb
        · simp
      · rw [if_neg hb]
        have hb' : ¬ FiresAt c losses e := fun h => hb (h3.2 h)
        have := ih (e + 1) (by omega) (by omega) s' h2 hno' (by
          intro i hi
          rcases Nat.lt_or_ge i e with h | h
          · exact hnf i h
          · obtain rfl : i = e := by omega
            exact hb')
        rw [firstLosses_succ] at this
        exact this
    · rw [if_neg (by simpa using hc)]
      have hpos : 0 < e := by
        rcases Nat.eq_zero_or_pos e with rfl | h
        · exact absurd ⟨by simp [lossBefore, above], by omega⟩ hc
        · exact h
      refine ⟨_, e, rfl, ⟨hpos, he, ?_, ?_⟩, rfl, ?_, ?_, rfl⟩
      · intro i hi; exact ⟨hno i hi, hnf i (by omega)⟩
      · by_cases hm : e ≤ o.maxEpoch
        · left
          have hna : ¬ above o.tolerance (lossBefore losses e) = true := fun h => hc ⟨h, hm⟩
          rw [above_before] at hna
          push Not at hna
          obtain ⟨i, hi, hle⟩ := hna
          obtain rfl : i = e - 1 := by omega
          exact hle
        · right; right; omega
      · simpa using hnf (e - 1) (by omega)
      · simp

theorem aimLoop_spec (o : Options K) (c : Config K) (hw : 0 < c.windowSize) (hl : effectiveLogStep o ≠ 0)
    (losses : Nat → K) (fuel e : Nat) (hfuel : fuel + e = o.maxEpoch + 2) (he : e ≤ o.maxEpoch + 1) (s : Stopper K)
    (hs : Inv c (firstLosses losses e) s) (lg : List Nat)
    (hno : ∀ i, i + 1 < e → o.tolerance < losses i) (hnf : ∀ i, i < e → ¬ FiresAt c losses i) :
    ∃ out n, aimLoop o c losses fuel e (lossBefore losses e) s ⟨e, firstLosses losses e, lg, false⟩ = some (.ok out) ∧
      EndsAfter o.tolerance (o.maxEpoch + 1) (FiresAt c losses) losses n ∧ out.steps = n ∧
      (out.stopped = true ↔ FiresAt c losses (n - 1)) ∧ out.history = firstLosses losses n := by
  induction fuel generalizing e s lg with
  | zero => omega
  | succ fuel ih =>
    rw [aimLoop]
    by_cases hc : above o.tolerance (lossBefore losses e) = true ∧ e ≤ o.maxEpoch
    · rw [if_pos (by simpa using hc)]
      obtain ⟨b, s', h1, h2, h3⟩ := step_fires c hw losses e s hs
      have habove := (above_before o.tolerance losses e).1 hc.1
      have hno' : ∀ i, i + 1 < e + 1 → o.tolerance < losses i := by
        intro i hi
        rcases Nat.lt_or_ge (i + 1) e with h | h
        · exact hno i h
        · exact habove i (by omega)
      simp only [if_neg hl, h1]
      obtain ⟨lg', hlg⟩ : ∃ lg', (if e % effectiveLogStep o = 0 then
            (⟨e + 1, firstLosses losses e, lg ++ [e], false⟩ : Outcome K)
          else ⟨e + 1, firstLosses losses e, lg, false⟩) = ⟨e + 1, firstLosses losses e, lg', false⟩ := by
        split
        · exact ⟨_, rfl⟩
        · exact ⟨_, rfl⟩
      rw [hlg]
      simp only [← firstLosses_succ]
      by_cases hb : b = true
      · rw [if_pos hb]
        refine ⟨_, e + 1, rfl, ⟨by omega, by omega, ?_, Or.inr (Or.inl ?_)⟩, rfl, ?_, rfl⟩
        · intro i hi; exact ⟨hno' i hi, hnf i (by omega)⟩
        · simpa using h3.1 hb
        · simpa using h3.1 hb
      · rw [if_neg hb]
        have hb' : ¬ FiresAt c losses e := fun h => hb (h3.2 h)
        exact ih (e + 1) (by omega) (by omega) s' h2 lg' hno' (by
          intro i hi
          rcases Nat.lt_or_ge i e with h | h
          · exact hnf i h
          · obtain rfl : i = e := by omega
            exact hb')
    · rw [if_neg (by simpa using hc)]
      have hpos : 0 < e := by
        rcases Nat.eq_zero_or_pos e with rfl | h
        · exact absurd ⟨by simp [lossBefore, above], by omega⟩ hc
        · exact h
      refine ⟨_, e, rfl, ⟨hpos, he, ?_, ?_⟩, rfl, ?_, rfl⟩
      · intro i hi; exact ⟨hno i hi, hnf i (by omega)⟩
      · by_cases hm : e ≤ o.maxEpoch
        · left
          have hna : ¬ above o.tolerance (lossBefore losses e) = true := fun h => hc ⟨h, hm⟩
          rw [above_before] at hna
          push Not at hna
          obtain ⟨i, hi, hle⟩ := hna
          obtain rfl : i = e - 1 := by omega
          exact hle
        · right; right; omega
      · simpa using hnf (e - 1) (by omega)

theorem fitLoop_spec (tol : K) (maxEpoch : Nat) (losses : Nat → K) (fuel e : Nat) (hfuel : fuel + e = maxEpoch + 2)
    (he : e ≤ maxEpoch + 1) (h : List K) (lg : List Nat) (b : Bool) (hno : ∀ i, i + 1 < e → tol < losses i) :
    ∃ out n, fitLoop tol maxEpoch losses fuel e (lossBefore losses e) ⟨e, h, lg, b⟩ = some out ∧
      EndsAfter tol (maxEpoch + 1) (fun _ => False) losses n ∧ out.steps = n := by
  induction fuel generalizing e lg with
  | zero => omega
  | succ fuel ih =>
    rw [fitLoop]
    by_cases hc : above tol (lossBefore losses e) = true ∧ e ≤ maxEpoch
    · rw [if_pos (by simpa using hc)]
      have habove := (above_before tol losses e).1 hc.1
      have hno' : ∀ i, i + 1 < e + 1 → tol < losses i := by
        intro i hi
        rcases Nat.lt_or_ge (i + 1) e with h | h
        · exact hno i h
        · exact habove i (by omega)
      simp only
      split
      · exact ih (e + 1) (by omega) (by omega) _ hno'
      · exact ih (e + 1) (by omega) (by omega) _ hno'
    · rw [if_neg (by simpa using hc)]
      have hpos : 0 < e := by
        rcases Nat.eq_zero_or_pos e with rfl | h
        · exact absurd ⟨by simp [lossBefore, above], by omega⟩ hc
        · exact h
      refine ⟨_, e, rfl, ⟨hpos, he, fun i hi => ⟨hno i hi, id⟩, ?_⟩, rfl⟩
      by_cases hm : e ≤ maxEpoch
      · left
        have hna : ¬ above tol (lossBefore losses e) = true := fun h => hc ⟨h, hm⟩
        rw [above_before] at hna
        push Not at hna
        obtain ⟨i, hi, hle⟩ := hna
        obtain rfl : i = e - 1 := by omega
        exact hle
      · right; right; omega

theorem endsAfter_unique (tol : K) (limit : Nat) (fires : Nat → Prop) (losses : Nat → K) (n m : Nat)
    (hn : EndsAfter tol limit fires losses n) (hm : EndsAfter tol limit fires losses m) : n = m := by
  have key : ∀ n m, EndsAfter tol limit fires losses n → EndsAfter tol limit fires losses m → ¬ n < m := by
    rintro n m ⟨h1, h2, h3, h4⟩ ⟨g1, g2, g3, g4⟩ hlt
    obtain ⟨k1, k2⟩ := g3 (n - 1) (by omega)
    rcases h4 with h | h | h
    · exact absurd h (not_le.2 k1)
    · exact k2 h
    · omega
  have := key n m hn hm
  have := key m n hm hn
  omega

/-- Logged epochs in a run that logs every `k` epochs. -/
theorem log_step (k n : Nat) : (if n % k = 0 then (List.range n).filter (fun e => decide (e % k = 0)) ++ [n]
    else (List.range n).filter (fun e => decide (e % k = 0))) = (List.range (n + 1)).filter (fun e => decide (e % k = 0)) := by
  rw [List.range_succ, List.filter_append]
  by_cases h : n % k = 0 <;> simp [h]

theorem fitLoop_logged (tol : K) (maxEpoch : Nat) (losses : Nat → K) (fuel e : Nat) (loss : Option K) (out out' : Outcome K)
    (he : out.steps = e) (hl : out.logged = (List.range e).filter (fun i => decide (i % 100 = 0)))
    (h : fitLoop tol maxEpoch losses fuel e loss out = some out') :
    out'.logged = (List.range out'.steps).filter (fun i => decide (i % 100 = 0)) := by
  induction fuel generalizing e loss out with
  | zero => simp [fitLoop] at h
  | succ fuel ih =>
    rw [fitLoop] at h
    split at h
    · simp only at h
      refine ih (e + 1) _ _ ?_ ?_ h
      · split <;> simp [he]
      · rw [← log_step 100 e, ← hl]
        split <;> rfl
    · obtain rfl : out = out' := by simpa using h
      rw [hl, he]

theorem aimLoop_logged (o : Options K) (c : Config K) (losses : Nat → K) (fuel e : Nat) (loss : Option K) (st : Stopper K)
    (out out' : Outcome K) (he : out.steps = e) (hl : out.logged = (List.range e).filter (fun i => decide (i % effectiveLogStep o = 0)))
    (h : aimLoop o c losses fuel e loss st out = some (.ok out')) :
    out'.logged = (List.range out'.steps).filter (fun i => decide (i % effectiveLogStep o = 0)) := by
  induction fuel generalizing e loss st out with
  | zero => simp [aimLoop] at h
  | succ fuel ih =>
    rw [aimLoop] at h
    split at h
    · simp only at h
      split at h
      · simp at h
      · split at h
        · simp at h
        · have hl' : (if e % effectiveLogStep o = 0 then { out with steps := out.steps + 1, logged := out.logged ++ [e] }
              else { out with steps := out.steps + 1 } : Outcome K).logged =
              (List.range (e + 1)).filter (fun i => decide (i % effectiveLogStep o = 0)) := by
            rw [← log_step (effectiveLogStep o) e, ← hl]; split <;> rfl
          have hs' : (if e % effectiveLogStep o = 0 then { out with steps := out.steps + 1, logged := out.logged ++ [e] }
              else { out with steps := out.steps + 1 } : Outcome K).steps = e + 1 := by
            split <;> simp [he]
          split at h
          · simp only [Option.some.injEq, Except.ok.injEq] at h
            subst h
            simp only
            rw [hl', hs']
          · exact ih (e + 1) _ _ _ (by simpa using hs') (by simpa using hl') h
    · obtain rfl : out = out' := by simpa using h
      rw [hl, he]

end Artist.Loop
