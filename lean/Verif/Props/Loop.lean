import Verif.Proofs.Loop
import Mathlib.Data.Rat.Defs
import Mathlib.Algebra.Order.Ring.Rat
import Mathlib.Tactic.NormNum
/-! Property C34: epoch limit, tolerance and histories of the optimisation loops. -/
namespace Artist.Loop
open Artist Artist.Training
variable {K : Type} [Field K] [LinearOrder K] [IsStrictOrderedRing K]

/-- C34 for surface and kinematics reconstruction, with the limit `max_epoch + 1` instead of `max_epoch`: the loop ends, after the
first epoch whose loss is within the tolerance or at which early stopping fires, or after `max_epoch + 1` epochs.  The history has
one entry per epoch, except that the epoch at which early stopping fires is missing.  Missing from the full statement: the limit
(`C34_one_epoch_too_many`) and the last history entry (`C34_history_misses_last`). -/
theorem C34_reconstruction_partial (o : Options K) (c : Config K) (hw : 0 < c.windowSize)
    (hl : 0 < o.maxEpoch ∨ 0 < o.logStep) (losses : Nat → K) :
    ∃ out n, reconstruct o c losses = some (.ok out) ∧
      EndsAfter o.tolerance (o.maxEpoch + 1) (FiresAt c losses) losses n ∧ out.steps = n ∧
      (out.stopped = true ↔ FiresAt c losses (n - 1)) ∧
      out.history = firstLosses losses (if out.stopped then n - 1 else n) := by
  have hl' : effectiveLogStep o ≠ 0 := by unfold effectiveLogStep; split <;> omega
  obtain ⟨out, n, h1, h2, h3, h4, h5, -⟩ := reconstructLoop_spec o c hw hl' losses (o.maxEpoch + 2) 0 (by omega) (by omega) fresh
    (inv_fresh c) (by omega) (by omega)
  exact ⟨out, n, h1, h2, h3, h4, h5⟩

/-- C34 for the aim point optimisation, with the limit `max_epoch + 1`: as above, and the history has one entry for every epoch. -/
theorem C34_aim_points_partial (o : Options K) (c : Config K) (hw : 0 < c.windowSize)
    (hl : 0 < o.maxEpoch ∨ 0 < o.logStep) (losses : Nat → K) :
    ∃ out n, aim o c losses = some (.ok out) ∧
      EndsAfter o.tolerance (o.maxEpoch + 1) (FiresAt c losses) losses n ∧ out.steps = n ∧
      (out.stopped = true ↔ FiresAt c losses (n - 1)) ∧ out.history = firstLosses losses n := by
  have hl' : effectiveLogStep o ≠ 0 := by unfold effectiveLogStep; split <;> omega
  exact aimLoop_spec o c hw hl' losses (o.maxEpoch + 2) 0 (by omega) (by omega) fresh (inv_fresh c) [] (by omega) (by omega)

/-- C34 for the NURBS fit, with the limit `max_epoch + 1`. -/
theorem C34_fit_partial (tol : K) (maxEpoch : Nat) (losses : Nat → K) :
    ∃ out n, fit tol maxEpoch losses = some out ∧
      EndsAfter tol (maxEpoch + 1) (fun _ => False) losses n ∧ out.steps = n :=
  fitLoop_spec tol maxEpoch losses (maxEpoch + 2) 0 (by omega) (by omega) [] [] false (by omega)

/-- The number of epochs is determined by the losses. -/
theorem C34_epochs_determined (tol : K) (limit : Nat) (fires : Nat → Prop) (losses : Nat → K) (n m : Nat)
    (hn : EndsAfter tol limit fires losses n) (hm : EndsAfter tol limit fires losses m) : n = m :=
  endsAfter_unique tol limit fires losses n m hn hm

/-- The stated limit is exceeded by every run that neither reaches the tolerance nor stops early: all three loops then execute
`max_epoch + 1` epochs. -/
theorem C34_one_epoch_too_many (o : Options K) (c : Config K) (hw : 0 < c.windowSize)
    (hl : 0 < o.maxEpoch ∨ 0 < o.logStep) (losses : Nat → K) (htol : ∀ i, o.tolerance < losses i)
    (hf : ∀ i, ¬ FiresAt c losses i) :
    (∃ out, reconstruct o c losses = some (.ok out) ∧ out.steps = o.maxEpoch + 1) ∧
    (∃ out, aim o c losses = some (.ok out) ∧ out.steps = o.maxEpoch + 1) ∧
    (∃ out, fit o.tolerance o.maxEpoch losses = some out ∧ out.steps = o.maxEpoch + 1) := by
  have key : ∀ fires : Nat → Prop, (∀ i, ¬ fires i) → ∀ n,
      EndsAfter o.tolerance (o.maxEpoch + 1) fires losses n → n = o.maxEpoch + 1 := by
    rintro fires hf n ⟨-, -, -, h | h | h⟩
    · exact absurd h (not_le.2 (htol _))
    · exact absurd h (hf _)
    · exact h
  refine ⟨?_, ?_, ?_⟩
  · obtain ⟨out, n, h1, h2, h3, -⟩ := C34_reconstruction_partial o c hw hl losses
    exact ⟨out, h1, h3.trans (key _ hf n h2)⟩
  · obtain ⟨out, n, h1, h2, h3, -⟩ := C34_aim_points_partial o c hw hl losses
    exact ⟨out, h1, h3.trans (key _ hf n h2)⟩
  · obtain ⟨out, n, h1, h2, h3⟩ := C34_fit_partial o.tolerance o.maxEpoch losses
    exact ⟨out, h1, h3.trans (key _ (fun _ => id) n h2)⟩

/-- Whenever early stopping ends a reconstruction, the history is one entry shorter than the number of executed epochs. -/
theorem C34_history_misses_last (o : Options K) (c : Config K) (hw : 0 < c.windowSize)
    (hl : 0 < o.maxEpoch ∨ 0 < o.logStep) (losses : Nat → K) (out : Outcome K)
    (h : reconstruct o c losses = some (.ok out)) (hs : out.stopped = true) : out.history.length + 1 = out.steps := by
  obtain ⟨out', n, h1, h2, h3, -, h5⟩ := C34_reconstruction_partial o c hw hl losses
  obtain rfl : out = out' := by rw [h] at h1; simpa using h1
  have := h2.1
  rw [h5, hs, if_pos rfl, firstLosses_length]
  omega

/-- C34: the NURBS fit reports exactly the executed epochs that are multiples of 100. -/
theorem C34_fit_logged (tol : K) (maxEpoch : Nat) (losses : Nat → K) (out : Outcome K) (h : fit tol maxEpoch losses = some out) (e : Nat) :
    e ∈ out.logged ↔ e < out.steps ∧ 100 ∣ e := by
  rw [fitLoop_logged tol maxEpoch losses _ 0 none start out rfl rfl h]
  simp [Nat.dvd_iff_mod_eq_zero]

/-- C34: the aim point optimisation reports exactly the executed epochs that are multiples of the log step. -/
theorem C34_aim_points_logged (o : Options K) (c : Config K) (losses : Nat → K) (out : Outcome K) (h : aim o c losses = some (.ok out)) (e : Nat) :
    e ∈ out.logged ↔ e < out.steps ∧ effectiveLogStep o ∣ e := by
  rw [aimLoop_logged o c losses _ 0 none fresh start out rfl rfl h]
  simp [Nat.dvd_iff_mod_eq_zero]

/-- Runs of both loops with several reported epochs. -/
example : aim (⟨0, 3, 2⟩ : Options ℚ) ⟨9, 9, 0, false, 1⟩ (fun _ => 3) = some (.ok ⟨4, [3, 3, 3, 3], [0, 2], false⟩) ∧
    (fit (0 : ℚ) 150 (fun _ => 3)).map (·.logged) = some [0, 100] := by
  constructor <;> decide +kernel

/-- With `max_epoch = 0` and `log_step = 0` reconstruction and aim point optimisation raise `ZeroDivisionError`. -/
theorem C34_zero_log_step (o : Options K) (c : Config K) (hw : 0 < c.windowSize) (h0 : o.maxEpoch = 0) (h1 : o.logStep = 0)
    (losses : Nat → K) : reconstruct o c losses = some (.error .zeroDivision) ∧ aim o c losses = some (.error .zeroDivision) := by
  have hl : effectiveLogStep o = 0 := by simp [effectiveLogStep, h0, h1]
  constructor
  · unfold reconstruct
    rw [reconstructLoop]
    obtain ⟨b, s', h, -, -⟩ := step_fires c hw losses 0 fresh (inv_fresh c)
    simp only [above, Bool.true_and, Nat.zero_le, decide_true, if_true, h, hl]
  · unfold aim
    rw [aimLoop]
    simp only [above, Bool.true_and, Nat.zero_le, decide_true, if_true, hl]

/-- Validation during reconstruction happens at multiples of the log step, at epoch `max_epoch - 1` and when early stopping
fires. -/
theorem C34_validated_epochs (o : Options K) (c : Config K) (hw : 0 < c.windowSize)
    (hl : 0 < o.maxEpoch ∨ 0 < o.logStep) (losses : Nat → K) (out : Outcome K)
    (h : reconstruct o c losses = some (.ok out)) (e : Nat) :
    e ∈ out.logged ↔ e < out.steps ∧ (e % effectiveLogStep o = 0 ∨ e + 1 = o.maxEpoch ∨ FiresAt c losses e) := by
  have hl' : effectiveLogStep o ≠ 0 := by unfold effectiveLogStep; split <;> omega
  obtain ⟨out', n, h1, h2, h3, h4, h5, h6⟩ := reconstructLoop_spec o c hw hl' losses (o.maxEpoch + 2) 0 (by omega) (by omega) fresh
    (inv_fresh c) (by omega) (by omega)
  obtain rfl : out = out' := by
    have : reconstruct o c losses = some (.ok out') := h1
    rw [h] at this; simpa using this
  rw [h6, h3]
  simp [loggedSpec]

/-- Consequently the last executed epoch of a run that exhausts its epochs is not validated, unless the log step divides
`max_epoch`: the reported test losses belong to an earlier state of the parameters. -/
theorem C34_last_epoch_not_validated (o : Options K) (c : Config K) (hw : 0 < c.windowSize)
    (hl : 0 < o.logStep) (hd : ¬ o.logStep ∣ o.maxEpoch) (losses : Nat → K)
    (htol : ∀ i, o.tolerance < losses i) (hf : ∀ i, ¬ FiresAt c losses i) :
    ∃ out, reconstruct o c losses = some (.ok out) ∧ out.steps = o.maxEpoch + 1 ∧ o.maxEpoch ∉ out.logged := by
  obtain ⟨out, h1, h2⟩ := (C34_one_epoch_too_many o c hw (Or.inr hl) losses htol hf).1
  refine ⟨out, h1, h2, fun hm => ?_⟩
  rw [C34_validated_epochs o c hw (Or.inr hl) losses out h1] at hm
  have he : effectiveLogStep o = o.logStep := by unfold effectiveLogStep; rw [if_neg (by omega)]
  rcases hm.2 with h | h | h
  · rw [he] at h; exact hd (Nat.dvd_of_mod_eq_zero h)
  · omega
  · exact hf _ h

/-- Stops at the first loss within the tolerance. -/
example : reconstruct (⟨1, 5, 1⟩ : Options ℚ) ⟨2, 2, 0, false, 1⟩ (fun e => 3 - (e : ℚ)) = some (.ok ⟨3, [3, 2, 1], [0, 1, 2], false⟩) := by
  decide +kernel
/-- Early stopping at the third epoch: two history entries. -/
example : reconstruct (⟨1, 5, 1⟩ : Options ℚ) ⟨2, 2, 0, false, 1⟩ (fun _ => 3) = some (.ok ⟨3, [3, 3], [0, 1, 2], true⟩) ∧
    aim (⟨1, 5, 1⟩ : Options ℚ) ⟨2, 2, 0, false, 1⟩ (fun _ => 3) = some (.ok ⟨3, [3, 3, 3], [0, 1, 2], true⟩) := by
  constructor <;> decide +kernel
/-- `max_epoch = 3`, four epochs; epoch 3 is not validated. -/
example : reconstruct (⟨0, 3, 2⟩ : Options ℚ) ⟨9, 9, 0, false, 1⟩ (fun _ => 3) = some (.ok ⟨4, [3, 3, 3, 3], [0, 2], false⟩) ∧
    fit (0 : ℚ) 3 (fun _ => 3) = some ⟨4, [], [0], false⟩ := by
  constructor <;> decide +kernel
/-- Hypotheses of `C34_one_epoch_too_many` and `C34_last_epoch_not_validated`: a loss falling from 100 by one per epoch for a
while and constant afterwards does not stagnate if the patience is larger than the tail; here simply `1 / (e + 1)` with a negative
threshold. -/
example : (∀ i : Nat, (0 : ℚ) < 1 / (i + 1)) ∧ (∀ i, ¬ FiresAt (⟨1, 1, -1, false, 1⟩ : Config ℚ) (fun e => 1 / ((e : ℚ) + 1)) i) ∧ ¬ 2 ∣ 3 := by
  refine ⟨fun i => by positivity, fun i h => ?_, by decide⟩
  have := (h.2.2 0 (by decide)).2
  norm_num [improvement] at this
example : reconstruct (⟨0, 0, 0⟩ : Options ℚ) ⟨2, 2, 0, false, 1⟩ (fun _ => 3) = some (.error .zeroDivision) := by decide +kernel

end Artist.Loop
