import Verif.Spec.Validation
import Verif.Proofs.Group
import Verif.Proofs.Result
import Verif.Props.Result
/-! Helper lemmas for C89: training and validation on one group refine the loops of C85. -/
namespace Artist.Validation
open Artist Artist.Group Artist.Training Artist.Loop
variable {R K O T : Type}

/-- Ready for activations: shapes are right, and the optimizable parameters are alive, if there are any. -/
structure Ready (n k : Nat) (g : State R) : Prop where
  inv : Inv n k g
  alive : 0 < k → 0 < (g.active .optimizable).length

theorem activate_ready {n k : Nat} {g : State R} (h : Ready n k g) (mask : List Nat) (hl : mask.length = n) (hz : ∃ c ∈ mask, c ≠ 0) :
    ∃ g', activate g (some (mask.map Int.ofNat)) = (.ok (), g') ∧ g'.full = g.full ∧ g'.active = (fun q => expand (g.full q) mask) ∧ Ready n k g' := by
  have e := activate_ok h.inv.rows (natMask mask) (accepted_natMask hl) h.inv.opt
  have ht : theMask g.numberOfHeliostats (natMask mask) = mask.map Int.ofNat := rfl
  rw [ht, counts_natMask hl] at e
  have hact : (fun q => if q = .optimizable ∧ (g.active .optimizable).length = 0 then [] else expand (g.full q) mask) = fun q => expand (g.full q) mask := by
    funext q
    split
    · rename_i hq
      obtain ⟨rfl, h0⟩ := hq
      have hk : k = 0 := by
        by_contra hk
        have := h.alive (by omega)
        omega
      have hr := h.inv.rows .optimizable
      simp only [if_true, hk] at hr
      rw [List.eq_nil_of_length_eq_zero hr]
      simp [expand]
    · rfl
  rw [hact] at e
  refine ⟨_, e, rfl, rfl, ⟨h.inv.rows, h.inv.num, ?_⟩, ?_⟩
  · intro hp
    rcases Nat.eq_zero_or_pos k with hk | hk
    · have hr := h.inv.rows .optimizable
      simp only [if_true, hk] at hr
      dsimp only at hp
      rw [List.eq_nil_of_length_eq_zero hr] at hp
      simp [expand] at hp
    · exact h.inv.opt (h.alive hk)
  · intro hk
    have hkn := h.inv.opt (h.alive hk)
    have hr := h.inv.rows .optimizable
    simp only [if_true] at hr
    exact List.length_pos_iff.2 (expand_ne_nil (by omega) hz)

theorem overwrite_optimizable (new old : Tensors R) : overwrite new old .optimizable = old .optimizable := rfl

theorem epoch_ready {n k : Nat} {train test : List Nat} {j : Job R K O T} (hj : Splits n k train test j) {g : State R} (h : Ready n k g) (opt : O) :
    ∃ g', epoch j g opt = .ok (j.loss (seen train j.trainWrites g.full), g', (trained j train (opt, g.full)).1) ∧ g'.full = (trained j train (opt, g.full)).2 ∧ Ready n k g' := by
  obtain ⟨h1, h2, h3⟩ := hj.train
  obtain ⟨g', e1, e2, e3, e4⟩ := activate_ready h train h2 h3
  unfold epoch
  rw [h1, e1]
  dsimp only
  rw [e3, e2]
  refine ⟨_, rfl, rfl, ⟨?_, e4.inv.num, ?_⟩, ?_⟩
  · exact hj.shapes _ _ _ h.inv.rows
  · intro hp
    have := e4.inv.opt
    rw [e3] at this
    exact this hp
  · intro hk
    have := e4.alive hk
    rw [e3] at this
    exact this

theorem validate_ready {n k : Nat} {train test : List Nat} {j : Job R K O T} (hj : Splits n k train test j) {g : State R} (h : Ready n k g) :
    ∃ g', validate j g = .ok (j.measure (seen test j.testWrites g.full), g') ∧ g'.full = g.full ∧ Ready n k g' := by
  obtain ⟨h1, h2, h3⟩ := hj.test
  obtain ⟨g', e1, e2, e3, e4⟩ := activate_ready h test h2 h3
  unfold validate
  rw [h1, e1]
  dsimp only
  rw [e3]
  refine ⟨_, rfl, e2, ⟨?_, e4.inv.num, ?_⟩, ?_⟩
  · exact e4.inv.rows
  · intro hp
    have := e4.inv.opt
    rw [e3] at this
    exact this hp
  · intro hk
    have := e4.alive hk
    rw [e3] at this
    exact this

/-- the abstract optimisation of C85 that belongs to a job -/
def process (j : Job R K O T) (train test : List Nat) : Result.Process (O × Tensors R) K T where
  lossOf s := j.loss (seen train j.trainWrites s.2)
  next := trained j train
  measure s := j.measure (seen test j.testWrites s.2)

section
variable [Field K] [LinearOrder K] [IsStrictOrderedRing K]

/-- the two descriptions of what is left agree -/
def Agree (r : Option (Except PyErr (Final R K O T))) (l : Option (Except PyErr (Result.Left (O × Tensors R) K T))) : Prop :=
  (r = none ∧ l = none) ∨ (∃ e, r = some (.error e) ∧ l = some (.error e)) ∨
  ∃ f left, r = some (.ok f) ∧ l = some (.ok left) ∧ f.outcome = left.outcome ∧ (f.optimiser, f.group.full) = left.state ∧ f.reported = left.reported ∧ f.measured = left.measured

theorem loop_refines {n k : Nat} {train test : List Nat} {j : Job R K O T} (hj : Splits n k train test j) (o : Options K) (c : Config K) (fuel e : Nat) (loss : Option K) (st : Stopper K)
    (out : Outcome K) (g : State R) (opt : O) (t : Option T) (h : Ready n k g) :
    Agree (loop j o c fuel e loss st out g opt t) (Result.reconstructLoop (process j train test) o c fuel e loss st out (opt, g.full) t) := by
  induction fuel generalizing e loss st out g opt t with
  | zero => exact .inl ⟨rfl, rfl⟩
  | succ fuel ih =>
    rw [loop, Result.reconstructLoop]
    split
    · obtain ⟨g1, e1, e2, e3⟩ := epoch_ready hj h opt
      rw [e1]
      dsimp only
      have hloss : (process j train test).lossOf (opt, g.full) = j.loss (seen train j.trainWrites g.full) := rfl
      rw [hloss]
      cases hstep : step c st (j.loss (seen train j.trainWrites g.full)) with
      | error err => exact .inr (.inl ⟨err, rfl, rfl⟩)
      | ok r =>
        obtain ⟨stop, st'⟩ := r
        dsimp only
        split
        · exact .inr (.inl ⟨_, rfl, rfl⟩)
        · have hnext : (process j train test).next (opt, g.full) = ((trained j train (opt, g.full)).1, g1.full) := by rw [e2]; rfl
          rw [hnext]
          generalize hlog : (decide (e % effectiveLogStep o = 0) || decide ((e : Int) = (o.maxEpoch : Int) - 1) || stop) = log
          cases log
          · have hs : stop = false := by
              revert hlog
              cases stop <;> simp
            subst hs
            simp only [Bool.false_eq_true, if_false]
            exact ih _ _ _ _ _ _ _ e3
          · simp only [if_true]
            obtain ⟨g2, f1, f2, f3⟩ := validate_ready hj e3
            rw [f1]
            dsimp only
            cases stop
            · simp only [Bool.false_eq_true, if_false]
              have := ih (e + 1) (some (j.loss (seen train j.trainWrites g.full))) st'
                { out with steps := out.steps + 1, logged := out.logged ++ [e], history := out.history ++ [j.loss (seen train j.trainWrites g.full)] } g2
                (trained j train (opt, g.full)).1 (some (j.measure (seen test j.testWrites g1.full))) f3
              rw [f2] at this
              exact this
            · simp only [if_true]
              exact .inr (.inr ⟨_, _, rfl, rfl, rfl, by rw [f2], rfl, rfl⟩)
    · exact .inr (.inr ⟨_, _, rfl, rfl, rfl, rfl, rfl, rfl⟩)

theorem ready_run (junk : R → R) {n k : Nat} (hk : k = 0 ∨ k = n) {full : Tensors R} (hf : Rows n k full) (history : List (Op R)) (ho : Ordinary n k history)
    (hz : 0 < k → NeverNone history) : Ready n k (run (init junk n full) history) := by
  refine ⟨inv_run history (inv_init junk hk hf) ho, ?_⟩
  intro hk0
  obtain rfl : k = n := by omega
  have alive : ∀ (ops : List (Op R)) (s : State R), Inv k k s → Ordinary k k ops → NeverNone ops →
      (s.active .optimizable).length > 0 → ((run s ops).active .optimizable).length > 0 := by
    intro ops
    induction ops with
    | nil => intro s _ _ _ h; exact h
    | cons op ops ih =>
      intro s hs hop hzz h
      exact ih _ (inv_step hs op (fun f hf => hop f (by simp [hf]))) (fun f hf => hop f (by simp [hf]))
        (fun m hm => hzz m (by simp [hm])) (opt_alive_step hs hk0 op (fun m hm => hzz m (by simp [hm])) h)
  refine alive history (init junk k full) (inv_init junk (.inr rfl) hf) ho (hz hk0) ?_
  have := hf .optimizable
  simp only [if_true] at this
  simp only [init, List.length_map, this]
  exact hk0

theorem reconstruct_outcome {n k : Nat} {train test : List Nat} {j : Job R K O T} (hj : Splits n k train test j) (o : Options K) (c : Config K) (hw : 0 < c.windowSize)
    (hl : 0 < o.maxEpoch ∨ 0 < o.logStep) {g : State R} (h : Ready n k g) (opt : O) :
    ∃ f m, reconstruct j o c g opt = some (.ok f) ∧ EndsAfter o.tolerance (o.maxEpoch + 1) (FiresAt c (lossAt j train (opt, g.full))) (lossAt j train (opt, g.full)) m ∧
      f.outcome.steps = m ∧ (f.outcome.stopped = true ↔ FiresAt c (lossAt j train (opt, g.full)) (m - 1)) ∧
      f.outcome.history = firstLosses (lossAt j train (opt, g.full)) (if f.outcome.stopped then m - 1 else m) ∧
      (f.optimiser, f.group.full) = (trained j train)^[m] (opt, g.full) ∧ f.reported = lossBefore (lossAt j train (opt, g.full)) m := by
  have hlosses : (fun e => (process j train test).lossOf (Result.at' (process j train test) (opt, g.full) e)) = lossAt j train (opt, g.full) := by
    funext e
    rw [Result.at'_eq]
    rfl
  obtain ⟨out, m, h1, h2, h3, h4, h5⟩ := C34_reconstruction_partial o c hw hl (lossAt j train (opt, g.full))
  have hr := Result.reconstruct_eq (process j train test) o c (opt, g.full)
  rw [hlosses, h1] at hr
  rcases loop_refines hj o c (o.maxEpoch + 2) 0 none fresh start g opt none h with ⟨-, e⟩ | ⟨err, -, e⟩ | ⟨f, left, e1, e2, e3, e4, e5, -⟩
  · rw [Result.reconstruct, e] at hr; cases hr
  · rw [Result.reconstruct, e] at hr; cases hr
  · rw [Result.reconstruct, e2] at hr
    have hle : left = Result.leftOf (process j train test) (opt, g.full) out := by simpa [Except.map] using hr
    subst hle
    refine ⟨f, m, e1, h2, by rw [e3]; exact h3, by rw [e3]; exact h4, by rw [e3]; exact h5, ?_, ?_⟩
    · rw [e4]
      show Result.at' _ _ out.steps = _
      rw [Result.at'_eq, h3]
      rfl
    · rw [e5]
      show lossBefore (fun e => (process j train test).lossOf (Result.at' (process j train test) (opt, g.full) e)) out.steps = _
      rw [hlosses, h3]

end
end Artist.Validation
