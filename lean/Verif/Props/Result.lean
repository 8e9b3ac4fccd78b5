import Verif.Proofs.Result
import Verif.Props.Loop
/-!
# C85: the result of an optimisation is the one whose losses are reported
-/
namespace Artist.Result
open Artist Artist.Training Artist.Loop
variable {K : Type} [Field K] [LinearOrder K] [IsStrictOrderedRing K] {S T : Type}

/-- C85 for the aim point optimisation: if it ends after `n` epochs, the motor positions it leaves and the loss it returns both belong to the state of the last epoch. -/
theorem C85_aim_points (p : Process S K T) (o : Options K) (c : Config K) (hw : 0 < c.windowSize) (hl : 0 < o.maxEpoch ∨ 0 < o.logStep) (s : S) :
    ∃ left n, aim p o c s = some (.ok left) ∧
      EndsAfter o.tolerance (o.maxEpoch + 1) (FiresAt c fun e => p.lossOf (p.next^[e] s)) (fun e => p.lossOf (p.next^[e] s)) n ∧
      left.measured = some (p.measure (p.next^[n - 1] s)) ∧ left.reported = some (p.lossOf (p.next^[n - 1] s)) := by
  obtain ⟨out, n, h1, h2, h3, -⟩ := C34_aim_points_partial o c hw hl (fun e => p.lossOf (at' p s e))
  refine ⟨aimLeft p s out, n, by rw [aim_eq, h1]; rfl, ?_, ?_⟩
  · simpa only [at'_eq] using h2
  · obtain ⟨m, rfl⟩ : ∃ m, n = m + 1 := ⟨n - 1, by have := h2.1; omega⟩
    simp only [aimLeft, h3, storedBefore, lossBefore, at'_eq, Nat.add_sub_cancel, and_self]

/-- C85 for the reconstructions: after `n` epochs the loss belongs to the parameters before the last update, the parameters that are left are those after it, and the test
losses belong to the parameters after the last validated epoch `m`.  (The full claim, that all three belong together, is false: `C85_tolerance_lost`.) -/
theorem C85_reconstruction_partial (p : Process S K T) (o : Options K) (c : Config K) (hw : 0 < c.windowSize) (hl : 0 < o.maxEpoch ∨ 0 < o.logStep) (s : S) :
    ∃ left n m, reconstruct p o c s = some (.ok left) ∧
      EndsAfter o.tolerance (o.maxEpoch + 1) (FiresAt c fun e => p.lossOf (p.next^[e] s)) (fun e => p.lossOf (p.next^[e] s)) n ∧
      left.reported = some (p.lossOf (p.next^[n - 1] s)) ∧ left.state = p.next^[n] s ∧
      m < n ∧ (∀ e, m < e → e < n → ¬ (e % effectiveLogStep o = 0 ∨ e + 1 = o.maxEpoch ∨ FiresAt c (fun e => p.lossOf (p.next^[e] s)) e)) ∧
      left.measured = some (p.measure (p.next^[m + 1] s)) := by
  have hl' : effectiveLogStep o ≠ 0 := by unfold effectiveLogStep; split <;> omega
  obtain ⟨out, n, h1, h2, h3, h4, h5, h6⟩ := reconstructLoop_spec o c hw hl' (fun e => p.lossOf (at' p s e)) (o.maxEpoch + 2) 0 (by omega) (by omega) fresh
    (inv_fresh c) (by omega) (by omega)
  have hr : reconstruct p o c s = some (.ok (leftOf p s out)) := by
    rw [reconstruct_eq]
    have : Loop.reconstruct o c (fun e => p.lossOf (at' p s e)) = some (.ok out) := h1
    rw [this]; rfl
  have hpos := h2.1
  have hmem : ∀ e, e ∈ out.logged ↔ e < n ∧ (e % effectiveLogStep o = 0 ∨ e + 1 = o.maxEpoch ∨ FiresAt c (fun e => p.lossOf (p.next^[e] s)) e) := by
    intro e; rw [h6]; simp [loggedSpec, at'_eq]
  have hsorted : out.logged.Pairwise (· < ·) := by
    rw [h6]; exact List.Pairwise.filter _ List.pairwise_lt_range
  have hne : out.logged ≠ [] := List.ne_nil_of_mem ((hmem 0).2 ⟨hpos, .inl (Nat.zero_mod _)⟩)
  refine ⟨leftOf p s out, n, out.logged.getLast hne, hr, by simpa only [at'_eq] using h2, ?_, ?_, ((hmem _).1 (List.getLast_mem hne)).1, ?_, ?_⟩
  · obtain ⟨m, rfl⟩ : ∃ m, n = m + 1 := ⟨n - 1, by omega⟩
    simp only [leftOf, h3, lossBefore, at'_eq, Nat.add_sub_cancel]
  · simp only [leftOf, h3, at'_eq]
  · intro e h7 h8 h9
    have he := (hmem e).2 ⟨h8, h9⟩
    have hle : e ≤ out.logged.getLast hne := by
      rw [List.mem_iff_getElem] at he
      obtain ⟨i, hi, rfl⟩ := he
      rw [List.getLast_eq_getElem]
      rcases Nat.lt_or_ge i (out.logged.length - 1) with h | h
      · exact Nat.le_of_lt (List.pairwise_iff_getElem.1 hsorted i _ hi (by omega) h)
      · have : i = out.logged.length - 1 := by omega
        subst this; exact Nat.le_refl _
    omega
  · simp only [leftOf, lastTest, List.getLast?_eq_some_getLast hne, Option.map_some, at'_eq]

/-- C85: after early stopping the test losses of a reconstruction belong to the parameters that are left. -/
theorem C85_test_loss_stopped (p : Process S K T) (o : Options K) (c : Config K) (hw : 0 < c.windowSize) (hl : 0 < o.maxEpoch ∨ 0 < o.logStep) (s : S) (left : Left S K T)
    (h : reconstruct p o c s = some (.ok left)) (n : Nat)
    (hn : EndsAfter o.tolerance (o.maxEpoch + 1) (FiresAt c fun e => p.lossOf (p.next^[e] s)) (fun e => p.lossOf (p.next^[e] s)) n)
    (hf : FiresAt c (fun e => p.lossOf (p.next^[e] s)) (n - 1)) : left.measured = some (p.measure left.state) := by
  obtain ⟨left', n', m, h1, h2, -, h4, h5, h6, h7⟩ := C85_reconstruction_partial p o c hw hl s
  obtain rfl := C34_epochs_determined _ _ _ _ _ _ hn h2
  rw [h] at h1
  obtain rfl : left = left' := by simpa using h1
  have hpos := hn.1
  have : m = n - 1 := by
    by_contra hne
    exact h6 (n - 1) (by omega) (by omega) (.inr (.inr hf))
  rw [h7, h4, this, Nat.sub_add_cancel hpos]

/-- C85: the loss a reconstruction returns is the loss of the parameters it leaves exactly if the last update did not change the loss; if no update increases the loss, it is an
upper bound. -/
theorem C85_reported_iff (p : Process S K T) (o : Options K) (c : Config K) (hw : 0 < c.windowSize) (hl : 0 < o.maxEpoch ∨ 0 < o.logStep) (s : S) :
    ∃ left n, reconstruct p o c s = some (.ok left) ∧ 0 < n ∧
      (left.reported = some (p.lossOf left.state) ↔ p.lossOf (p.next (p.next^[n - 1] s)) = p.lossOf (p.next^[n - 1] s)) ∧
      ((∀ x, p.lossOf (p.next x) ≤ p.lossOf x) → ∃ r, left.reported = some r ∧ p.lossOf left.state ≤ r) := by
  obtain ⟨left, n, m, h1, h2, h3, h4, -⟩ := C85_reconstruction_partial p o c hw hl s
  have hpos := h2.1
  have e : p.next^[n] s = p.next (p.next^[n - 1] s) := by
    rw [← Function.iterate_succ_apply' p.next, show (n - 1).succ = n by omega]
  refine ⟨left, n, h1, hpos, ?_, fun hd => ⟨_, h3, by rw [h4, e]; exact hd _⟩⟩
  rw [h3, h4, e]
  simp [eq_comm]

/-- Gradient descent for the loss `x²` with step size 2. -/
def descent : Process ℚ ℚ ℚ := ⟨fun x => x ^ 2, fun x => x - 2 * (2 * x), fun x => x ^ 2⟩

/-- C85 is false for the reconstructions: one that ends because its loss is within the tolerance can leave parameters whose loss is not. -/
theorem C85_tolerance_lost : ∃ left, reconstruct descent ⟨1 / 20, 5, 1⟩ ⟨2, 2, 0, false, 1⟩ (1 / 10) = some (.ok left) ∧
    left.reported = some (1 / 100) ∧ descent.lossOf left.state = 9 / 100 := by
  refine ⟨⟨⟨1, [1 / 100], [0], false⟩, -3 / 10, some (1 / 100), some (9 / 100)⟩, ?_, rfl, by norm_num [descent]⟩
  decide +kernel

/-- A case for the theorems: four epochs of halving, reported loss 1/8, loss of the result 1/16; the aim point optimisation keeps the state of the reported loss. -/
example : (∃ left, reconstruct (⟨fun x => x, fun x => x / 2, fun x => x⟩ : Process ℚ ℚ ℚ) ⟨1 / 8, 9, 2⟩ ⟨9, 9, 0, false, 1⟩ 1 = some (.ok left) ∧
      left.reported = some (1 / 8) ∧ left.state = 1 / 16 ∧ left.measured = some (1 / 8)) ∧
    ∃ left, aim (⟨fun x => x, fun x => x / 2, fun x => x⟩ : Process ℚ ℚ ℚ) ⟨1 / 8, 9, 2⟩ ⟨9, 9, 0, false, 1⟩ 1 = some (.ok left) ∧
      left.reported = some (1 / 8) ∧ left.measured = some (1 / 8) := by
  constructor
  · refine ⟨⟨⟨4, [1, 1 / 2, 1 / 4, 1 / 8], [0, 2], false⟩, 1 / 16, some (1 / 8), some (1 / 8)⟩, ?_, rfl, rfl, rfl⟩
    decide +kernel
  · refine ⟨⟨⟨4, [1, 1 / 2, 1 / 4, 1 / 8], [0, 2], false⟩, 1 / 16, some (1 / 8), some (1 / 8)⟩, ?_, rfl, rfl⟩
    decide +kernel

end Artist.Result
