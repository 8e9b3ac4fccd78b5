import Verif.Proofs.Validation
/-!
# C89: validation and earlier use of a group do not influence a reconstruction
-/
namespace Artist.Validation
open Artist Artist.Group Artist.Training Artist.Loop
variable {R K O T : Type} [Field K] [LinearOrder K] [IsStrictOrderedRing K]

/-- C89: a reconstruction, with all its validations and whatever was activated on the group before, trains as if there were only the training samples: after `n` epochs the full tensors
and the optimiser are those of `n` updates with the training samples, losses are training losses, and the test losses are computed from the test samples with the full tensors after
the last validated epoch `m`.  (The full claim, for all earlier activations, is false: `C89_zero_mask_interferes`.) -/
theorem C89_reconstruction_partial (j : Job R K O T) (n k : Nat) (hk : k = 0 ∨ k = n) (train test : List Nat) (hj : Splits n k train test j) (junk : R → R) (full : Tensors R)
    (hf : Rows n k full) (history : List (Op R)) (ho : Ordinary n k history) (hz : 0 < k → NeverNone history) (o : Options K) (c : Config K) (hw : 0 < c.windowSize)
    (hl : 0 < o.maxEpoch ∨ 0 < o.logStep) (opt : O) :
    ∃ final epochs m, reconstruct j o c (run (init junk n full) history) opt = some (.ok final) ∧
      EndsAfter o.tolerance (o.maxEpoch + 1) (FiresAt c (lossAt j train (opt, (run (init junk n full) history).full))) (lossAt j train (opt, (run (init junk n full) history).full)) epochs ∧
      (final.optimiser, final.group.full) = (trained j train)^[epochs] (opt, (run (init junk n full) history).full) ∧
      final.reported = some (lossAt j train (opt, (run (init junk n full) history).full) (epochs - 1)) ∧
      m < epochs ∧
      (∀ e, m < e → e < epochs → ¬ (e % effectiveLogStep o = 0 ∨ e + 1 = o.maxEpoch ∨ FiresAt c (lossAt j train (opt, (run (init junk n full) history).full)) e)) ∧
      final.measured = some (j.measure (seen test j.testWrites ((trained j train)^[m + 1] (opt, (run (init junk n full) history).full)).2)) := by
  have hr := ready_run junk hk hf history ho hz
  generalize run (init junk n full) history = g at hr ⊢
  obtain ⟨left, epochs, m, h1, h2, h3, h4, h5, h6, h7⟩ := Result.C85_reconstruction_partial (process j train test) o c hw hl (opt, g.full)
  rcases loop_refines hj o c (o.maxEpoch + 2) 0 none fresh start g opt none hr with ⟨-, e⟩ | ⟨err, -, e⟩ | ⟨f, left', e1, e2, -, e4, e5, e6⟩
  · rw [Result.reconstruct, e] at h1; cases h1
  · rw [Result.reconstruct, e] at h1; cases h1
  · rw [Result.reconstruct, e2] at h1
    obtain rfl : left' = left := by simpa using h1
    exact ⟨f, epochs, m, e1, h2, e4.trans h4, e5.trans h3, h5, h6, e6.trans h7⟩

/-- C89: how often a reconstruction validates, and how the group was used before, does not matter: two groups with the same full tensors and two log steps lead to the same full
tensors, optimiser, reported loss, number of epochs, history of losses and reason to stop. -/
theorem C89_independent_partial (j : Job R K O T) (n k : Nat) (hk : k = 0 ∨ k = n) (train test : List Nat) (hj : Splits n k train test j) (junk junk' : R → R) (full full' : Tensors R)
    (hf : Rows n k full) (hf' : Rows n k full') (history history' : List (Op R)) (ho : Ordinary n k history) (ho' : Ordinary n k history') (hz : 0 < k → NeverNone history)
    (hz' : 0 < k → NeverNone history') (same : (run (init junk n full) history).full = (run (init junk' n full') history').full) (o : Options K) (c : Config K) (hw : 0 < c.windowSize)
    (s s' : Nat) (hs : 0 < o.maxEpoch ∨ 0 < s) (hs' : 0 < o.maxEpoch ∨ 0 < s') (opt : O) :
    ∃ a b, reconstruct j { o with logStep := s } c (run (init junk n full) history) opt = some (.ok a) ∧
      reconstruct j { o with logStep := s' } c (run (init junk' n full') history') opt = some (.ok b) ∧
      a.group.full = b.group.full ∧ a.optimiser = b.optimiser ∧ a.reported = b.reported ∧
      a.outcome.steps = b.outcome.steps ∧ a.outcome.history = b.outcome.history ∧ a.outcome.stopped = b.outcome.stopped := by
  obtain ⟨a, m, a1, a2, a3, a4, a5, a6, a7⟩ := reconstruct_outcome hj { o with logStep := s } c hw hs (ready_run junk hk hf history ho hz) opt
  obtain ⟨b, m', b1, b2, b3, b4, b5, b6, b7⟩ := reconstruct_outcome hj { o with logStep := s' } c hw hs' (ready_run junk' hk hf' history' ho' hz') opt
  rw [← same] at b2 b4 b5 b6 b7
  obtain rfl := C34_epochs_determined _ _ _ _ _ _ a2 b2
  have hstop : a.outcome.stopped = b.outcome.stopped := Bool.eq_iff_iff.2 (a4.trans b4.symm)
  have hp := a6.trans b6.symm
  simp only [Prod.mk.injEq] at hp
  exact ⟨a, b, a1, b1, hp.2, hp.1, a7.trans b7.symm, a3.trans b3.symm, by rw [a5, b5, hstop], hstop⟩

/-- Two heliostats with one number per tensor, `x` and `y` for the optimizable parameters. -/
def numbers (x y : ℚ) : Tensors ℚ := fun q => if q = .optimizable then [x, y] else [1, 2]

/-- A reconstruction of the optimizable parameters: three samples of the first and one of the second heliostat for training, one sample of each for tests; losses are sums over the
samples, and updates halve the parameters. -/
def halving : Job ℚ ℚ Nat ℚ :=
  ⟨[3, 1], [1, 1], fun t => t, fun t q => (t q).map (5 * ·), fun t => (t .optimizable).sum + (t .surfacePoints).sum, fun t => (t .optimizable).sum + (t .surfacePoints).sum,
    fun opt _ full => (opt + 1, fun q => if q = .optimizable then (full q).map (· / 2) else full q)⟩

/-- The full claim C89 is false: after an activation of no heliostat at all, a reconstruction computes its losses without the optimizable parameters. -/
theorem C89_zero_mask_interferes : ∃ a b,
    reconstruct halving ⟨0, 2, 1⟩ ⟨9, 9, 0, false, 1⟩ (run (init id 2 (numbers 8 4)) []) 0 = some (.ok a) ∧ a.outcome.history = [33, 19, 12] ∧
    reconstruct halving ⟨0, 2, 1⟩ ⟨9, 9, 0, false, 1⟩ (run (init id 2 (numbers 8 4)) [.activate (natMask [0, 0])]) 0 = some (.ok b) ∧ b.outcome.history = [5, 5, 5] := by
  have h : ∀ history w, (∀ r, reconstruct halving ⟨0, 2, 1⟩ ⟨9, 9, 0, false, 1⟩ (run (init id 2 (numbers 8 4)) history) 0 = r →
      r.map (Except.map fun f => f.outcome.history) = some (.ok w) → ∃ a, r = some (.ok a) ∧ a.outcome.history = w) := by
    intro history w r _ hr
    cases r with
    | none => cases hr
    | some r =>
      cases r with
      | error e => cases hr
      | ok f => exact ⟨f, rfl, by simpa [Except.map] using hr⟩
  obtain ⟨a, a1, a2⟩ := h [] [33, 19, 12] _ rfl (by decide +kernel)
  obtain ⟨b, b1, b2⟩ := h [.activate (natMask [0, 0])] [5, 5, 5] _ rfl (by decide +kernel)
  exact ⟨a, b, a1, a2, b1, b2⟩

theorem halving_splits : Splits 2 2 [3, 1] [1, 1] halving := by
  refine ⟨⟨rfl, rfl, 3, by simp, by simp⟩, ⟨rfl, rfl, 1, by simp, by simp⟩, ?_⟩
  intro opt active full h q
  have := h q
  simp only [ite_self] at this
  simp only [halving, ite_self]
  split
  · simpa using this
  · exact this

/-- A case for the theorems: different earlier activations and updates, and validation after every or after every second epoch. -/
example : ∃ a b, reconstruct halving { (⟨0, 2, 7⟩ : Options ℚ) with logStep := 1 } ⟨9, 9, 0, false, 1⟩ (run (init id 2 (numbers 8 4)) [.activate none, .activate (natMask [0, 7])]) 0 = some (.ok a) ∧
    reconstruct halving { (⟨0, 2, 7⟩ : Options ℚ) with logStep := 2 } ⟨9, 9, 0, false, 1⟩ (run (init id 2 (numbers 1 1)) [.update (numbers 8 4)]) 0 = some (.ok b) ∧
    a.group.full = b.group.full ∧ a.outcome.history = b.outcome.history := by
  have hr : ∀ x y, Rows 2 2 (numbers x y) := by
    intro x y q
    unfold numbers
    split <;> rfl
  obtain ⟨a, b, h1, h2, h3, -, -, -, h4, -⟩ := C89_independent_partial halving 2 2 (.inr rfl) [3, 1] [1, 1] halving_splits id id (numbers 8 4) (numbers 1 1) (hr _ _) (hr _ _)
    [.activate none, .activate (natMask [0, 7])] [.update (numbers 8 4)] (by intro f hf; simp at hf)
    (by intro f hf; simp only [List.mem_singleton, Op.update.injEq] at hf; subst hf; exact hr _ _)
    (by
      intro _ m hm
      simp only [natMask, List.mem_cons, Op.activate.injEq, List.not_mem_nil, or_false, Option.some.injEq, reduceCtorEq, false_or] at hm
      subst hm
      exact ⟨7, by simp, by decide⟩)
    (by intro _ m hm; simp at hm) rfl ⟨0, 2, 7⟩ ⟨9, 9, 0, false, 1⟩ (by decide) 1 2 (by decide) (by decide) 0
  exact ⟨a, b, h1, h2, h3, h4⟩

example : (reconstruct halving ⟨0, 2, 2⟩ ⟨9, 9, 0, false, 1⟩ (run (init id 2 (numbers 8 4)) [.activate (natMask [0, 7])]) 0).map (Except.map fun f => (f.outcome.history, f.measured, f.optimiser)) =
    some (.ok ([33, 19, 12], some (33 / 2), 3)) := by
  decide +kernel

end Artist.Validation
