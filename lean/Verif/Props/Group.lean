import Verif.Proofs.Group
/-! # C28: activation of heliostats (`artist/field/heliostat_group.py`) -/
namespace Artist.Group
open Artist

/-- C28, everything except the optimizable actuator parameters: after any history of activations (accepted or
rejected) and changes of the tensors, an activation with mask `mask` succeeds and makes every active tensor the current full tensor with row `i`
repeated `mask[i]` times; both counters are the sum of the mask.  (The full claim, for the optimizable parameters too, is
false: `C28_optimizable_lost`; see `C28_optimizable_partial` for when it holds.) -/
theorem C28_last_activation_partial {R : Type} (junk : R → R) (n k : Nat) (hk : k = 0 ∨ k = n) (full : Tensors R)
    (hf : Rows n k full) (history : List (Op R)) (ho : Ordinary n k history) (mask : List Nat) (hm : mask.length = n) :
    let before := run (init junk n full) history
    let after := (activate before (natMask mask)).2
    (activate before (natMask mask)).1 = .ok () ∧
    after.full = before.full ∧
    (∀ q, q ≠ .optimizable → after.active q = expand (before.full q) mask) ∧
    after.numberOfActive = (mask.sum : Nat) ∧ after.kinematicsNumberOfActive = (mask.sum : Nat) ∧
    after.mask = mask.map Int.ofNat := by
  intro before after
  have hi : Inv n k before := inv_run history (inv_init junk hk hf) ho
  have e := activate_ok hi.rows (natMask mask) (accepted_natMask hm) hi.opt
  have hsum : (mask.map Int.ofNat).sum = (mask.sum : Nat) := by
    clear hm e after
    induction mask with
    | nil => rfl
    | cons c cs ih => simp only [List.map_cons, List.sum_cons, ih]; push_cast; rfl
  have ht : theMask before.numberOfHeliostats (natMask mask) = mask.map Int.ofNat := rfl
  rw [ht, counts_natMask hm, hsum] at e
  simp only [after, e]
  refine ⟨trivial, trivial, ?_, trivial, trivial, trivial⟩
  intro q hq
  simp [hq]

/-- C28: a group starts without active heliostats. -/
theorem C28_fresh {R : Type} (junk : R → R) (n : Nat) (full : Tensors R) :
    (init junk n full).numberOfActive = 0 ∧ (init junk n full).kinematicsNumberOfActive = 0 ∧ (init junk n full).mask = List.replicate n 0 ∧
    (init junk n full).numberOfHeliostats = n ∧ (init junk n full).full = full := ⟨rfl, rfl, rfl, rfl, rfl⟩

/-- C28, calling without a mask activates every heliostat once. -/
theorem C28_default_mask {R : Type} (s : State R) :
    activate s none = activate s (natMask (List.replicate s.numberOfHeliostats 1)) := by
  have : (List.replicate s.numberOfHeliostats 1).map Int.ofNat = List.replicate s.numberOfHeliostats (1 : Int) := by simp
  simp only [activate, natMask, this, Option.getD_none, Option.getD_some]

/-- C28 for the optimizable parameters of linear actuators, for histories in which no mask consists of zeros only.  Missing:
histories with such a mask, where the claim is false (`C28_optimizable_lost`). -/
theorem C28_optimizable_partial {R : Type} (junk : R → R) (n : Nat) (full : Tensors R)
    (hf : Rows n n full) (history : List (Op R)) (ho : Ordinary n n history) (hz : NeverNone history)
    (mask : List Nat) (hm : mask.length = n) :
    let before := run (init junk n full) history
    (activate before (natMask mask)).2.active .optimizable = expand (before.full .optimizable) mask := by
  intro before
  have hi : Inv n n before := inv_run history (inv_init junk (.inr rfl) hf) ho
  have e := activate_ok hi.rows (natMask mask) (accepted_natMask hm) hi.opt
  have ht : theMask before.numberOfHeliostats (natMask mask) = mask.map Int.ofNat := rfl
  rw [ht, counts_natMask hm] at e
  simp only [e]
  rcases Nat.eq_zero_or_pos n with rfl | hn
  · have hl : (before.full .optimizable) = [] := List.eq_nil_of_length_eq_zero (by simpa using hi.rows .optimizable)
    simp [hl, expand]
  · have alive : ∀ (ops : List (Op R)) (s : State R), Inv n n s → Ordinary n n ops → NeverNone ops →
        (s.active .optimizable).length > 0 → ((run s ops).active .optimizable).length > 0 := by
      intro ops
      induction ops with
      | nil => intro s _ _ _ h; exact h
      | cons op ops ih =>
        intro s hs hop hzz h
        exact ih _ (inv_step hs op (fun f hf => hop f (by simp [hf]))) (fun f hf => hop f (by simp [hf]))
          (fun m hm => hzz m (by simp [hm])) (opt_alive_step hs hn op (fun m hm => hzz m (by simp [hm])) h)
    have h0 := alive history (init junk n full) (inv_init junk (.inr rfl) hf) ho hz (by
      have := hf .optimizable
      simp only [if_true] at this
      simp only [init, List.length_map, this]
      exact hn)
    have h1 : ¬ (before.active .optimizable).length = 0 := by
      have : (before.active .optimizable).length > 0 := h0
      omega
    rw [if_neg (fun h => h1 h.2)]

/-- The full claim C28 is false: one activation with a mask of zeros makes the active optimizable actuator parameters empty for
ever, whatever is activated afterwards. -/
theorem C28_optimizable_lost {R : Type} (junk : R → R) (n : Nat) (full : Tensors R) (hf : Rows n n full)
    (history later : List (Op R)) (ho : Ordinary n n history) (hl : Ordinary n n later) :
    (run (init junk n full) (history ++ Op.activate (natMask (List.replicate n 0)) :: later)).active .optimizable = [] := by
  have hi : Inv n n (run (init junk n full) history) := inv_run history (inv_init junk (.inr rfl) hf) ho
  have hlen : (List.replicate n 0).length = n := by simp
  have e := activate_ok hi.rows (natMask (List.replicate n 0)) (accepted_natMask hlen) hi.opt
  have ht : theMask (run (init junk n full) history).numberOfHeliostats (natMask (List.replicate n 0))
      = (List.replicate n 0).map Int.ofNat := rfl
  rw [ht, counts_natMask hlen] at e
  have hz : ∀ (rows : List R) (j : Nat), expand rows (List.replicate j 0) = [] := by
    intro rows
    induction rows with
    | nil => intro j; simp [expand]
    | cons x xs ih => intro j; cases j with
      | zero => simp [expand]
      | succ j => simpa [expand, List.replicate_succ] using ih j
  have h1 : (step (run (init junk n full) history) (.activate (natMask (List.replicate n 0)))).active .optimizable = [] := by
    simp only [step, e, hz]
    simp
  have stay : ∀ (ops : List (Op R)) (s : State R), Inv n n s → Ordinary n n ops →
      s.active .optimizable = [] → (run s ops).active .optimizable = [] := by
    intro ops
    induction ops with
    | nil => intro s _ _ h; exact h
    | cons op ops ih =>
      intro s hs hop h
      refine ih _ (inv_step hs op (fun f hf => hop f (by simp [hf]))) (fun f hf => hop f (by simp [hf])) ?_
      cases op with
      | update f => exact h
      | activate m =>
        by_cases hc : Accepted n (theMask s.numberOfHeliostats m)
        · simp only [step, activate_ok hs.rows m hc hs.opt]
          simp [h]
        · simp only [step, activate_error hs.rows m hc]
          exact h
  have hrun : run (init junk n full) (history ++ Op.activate (natMask (List.replicate n 0)) :: later)
      = run (step (run (init junk n full) history) (.activate (natMask (List.replicate n 0)))) later := by
    simp [run, List.foldl_append]
  rw [hrun]
  exact stay later _ (inv_step hi _ (by intro f hf; cases hf)) hl h1

/-- C28, a mask of the wrong length or with a negative entry is rejected with `RuntimeError`; the active tensors stay as they were,
but the reported number of active heliostats and the stored mask are already those of the rejected call. -/
theorem C28_rejected_mask {R : Type} (junk : R → R) (n k : Nat) (hk : k = 0 ∨ k = n) (full : Tensors R)
    (hf : Rows n k full) (history : List (Op R)) (ho : Ordinary n k history) (mask : List Int)
    (hm : (∃ c ∈ mask, c < 0) ∨ (mask.length ≠ n ∧ mask.length ≠ 1)) :
    let before := run (init junk n full) history
    let after := (activate before (some mask)).2
    (activate before (some mask)).1 = .error .runtimeError ∧ after.active = before.active ∧
    after.kinematicsNumberOfActive = before.kinematicsNumberOfActive ∧
    after.numberOfActive = mask.sum ∧ after.mask = mask := by
  intro before after
  have hi : Inv n k before := inv_run history (inv_init junk hk hf) ho
  have hna : ¬ Accepted n (theMask before.numberOfHeliostats (some mask)) := by
    rintro ⟨h1, h2⟩
    simp only [theMask, Option.getD_some] at h1 h2
    rcases hm with ⟨c, hc, hneg⟩ | ⟨h3, h4⟩
    · have := h1 c hc; omega
    · omega
  have e := activate_error hi.rows (some mask) hna
  simp only [after, e]
  exact ⟨trivial, trivial, trivial, rfl, rfl⟩

/-- three heliostats with linear actuators whose rows are numbered -/
def sample : Tensors Nat := fun q => if q = .motorPositions then [10, 20, 30] else [1, 2, 3]

/-- the sample meets the hypotheses on shapes -/
example : Rows 3 3 sample := by intro q; cases q <;> rfl
/-- a history with a rejected mask that meets the hypotheses, and the result of the next activation -/
example :
    let s := run (init id 3 sample) [.activate (some [1, 1]), .activate none, .activate (natMask [2, 0, 1])]
    s.active .motorPositions = [10, 10, 30] ∧ s.active .optimizable = [1, 1, 3] ∧ s.numberOfActive = 3 := by decide
/-- the loss of the parameters: afterwards activating all three heliostats leaves none -/
example :
    let s := run (init id 3 sample) [.activate (natMask [0, 0, 0]), .activate (natMask [1, 1, 1])]
    s.active .optimizable = [] ∧ s.active .nonOptimizable = [1, 2, 3] := by decide
/-- a rejected mask -/
example : (activate (init id 3 sample) (some [1, 1])).1 = .error .runtimeError ∧
    (activate (init id 3 sample) (some [1, 1])).2.numberOfActive = 2 := by decide

end Artist.Group
