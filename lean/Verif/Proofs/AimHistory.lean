import Verif.Model.AimHistory
import Verif.Proofs.Aim
import Verif.Props.Loop
/-! # Helper lemmas for the history of the aim point optimisation -/
namespace Artist.AimHistory
open Artist Artist.Aim Artist.Training Artist.Loop
variable {K : Type} [Field K] [LinearOrder K] [IsStrictOrderedRing K]

/-- The state before epoch `n`. -/
def before (eps limit : K) (rho : Weights K) (epochs : Nat → Epoch K) : Nat → State K
  | 0 => Aim.initial
  | n + 1 => (Aim.epoch eps limit rho (decide (n = 0)) (before eps limit rho epochs n) (epochs n)).2

/-- The terms of epoch `n`. -/
def termsAt (eps limit : K) (rho : Weights K) (epochs : Nat → Epoch K) (n : Nat) : Terms K :=
  (Aim.epoch eps limit rho (decide (n = 0)) (before eps limit rho epochs n) (epochs n)).1

theorem epoch_reference (eps limit : K) (rho : Weights K) (first : Bool) (s : State K) (e : Epoch K) :
    (Aim.epoch eps limit rho first s e).2.integralReference = if first then e.integral else s.integralReference := by
  simp only [Aim.epoch, references]
  cases first <;> rfl

theorem before_reference (eps limit : K) (rho : Weights K) (epochs : Nat → Epoch K) (n : Nat) :
    (before eps limit rho epochs (n + 1)).integralReference = (epochs 0).integral := by
  induction n with
  | zero => rw [before, epoch_reference]; simp
  | succ n ih => rw [before, epoch_reference, if_neg (by simp), ih]

theorem before_nonneg (eps limit : K) (rho : Weights K) (epochs : Nat → Epoch K) (n : Nat) :
    0 ≤ (before eps limit rho epochs n).multipliers.fluxIntegral := by
  cases n with
  | zero => exact le_refl _
  | succ n => exact (epoch_multipliers _ _ _ _ _ _).2.1

theorem run_at (eps limit : K) (rho : Weights K) (epochs : Nat → Epoch K) (m : Nat) : ∀ (k i : Nat), i < m →
    (Aim.run eps limit rho (decide (k = 0)) (before eps limit rho epochs k) ((List.range' k m).map epochs))[i]? =
      some (termsAt eps limit rho epochs (k + i), before eps limit rho epochs (k + i + 1)) := by
  induction m with
  | zero => intro k i hi; omega
  | succ m ih =>
    intro k i hi
    rw [List.range'_succ, List.map_cons, Aim.run]
    cases i with
    | zero => rfl
    | succ i =>
      rw [List.getElem?_cons_succ]
      have := ih (k + 1) i (by omega)
      rw [show decide (k + 1 = 0) = false by simp] at this
      rw [show k + (i + 1) = k + 1 + i by omega]
      exact this

/-- The histories of the first `n` epochs. -/
def first (eps limit : K) (rho : Weights K) (epochs : Nat → Epoch K) (n : Nat) : History K :=
  { totalLoss := (List.range n).map fun i => (termsAt eps limit rho epochs i).loss
    fluxLoss := (List.range n).map fun i => (epochs i).fluxLoss
    fluxIntegral := (List.range n).map fun i => percentage (epochs 0).integral (epochs i).integral
    localFluxConstraint := (List.range n).map fun i => (termsAt eps limit rho epochs i).localFlux
    interceptConstraint := (List.range n).map fun i => (termsAt eps limit rho epochs i).intercept
    fluxIntegralConstraint := (List.range n).map fun i => (termsAt eps limit rho epochs i).fluxIntegral }

theorem first_succ (eps limit : K) (rho : Weights K) (epochs : Nat → Epoch K) (n : Nat) :
    record (first eps limit rho epochs n) (epochs n) (termsAt eps limit rho epochs n) (before eps limit rho epochs (n + 1)) =
      first eps limit rho epochs (n + 1) := by
  simp only [record, first, List.range_succ, List.map_append, List.map_cons, List.map_nil, before_reference]

theorem loop_lockstep (o : Options K) (c : Config K) (eps limit : K) (rho : Weights K) (epochs : Nat → Epoch K) (fuel : Nat) :
    ∀ (i : Nat) (loss : Option K) (stopper : Stopper K) (out out' : Outcome K), out.steps = i →
      aimLoop o c (fun n => (termsAt eps limit rho epochs n).loss) fuel i loss stopper out = some (.ok out') →
      loop o c eps limit rho epochs fuel i loss (before eps limit rho epochs i) stopper (first eps limit rho epochs i) =
        some (.ok (first eps limit rho epochs out'.steps)) := by
  induction fuel with
  | zero => intro i loss stopper out out' _ h; cases h
  | succ fuel ih =>
    intro i loss stopper out out' hi h
    rw [aimLoop] at h
    rw [loop]
    split at h
    · rename_i hc
      rw [if_pos hc]
      simp only at h ⊢
      split at h
      · cases h
      · rename_i hl
        rw [if_neg hl]
        have e1 : (Aim.epoch eps limit rho (decide (i = 0)) (before eps limit rho epochs i) (epochs i)).2 = before eps limit rho epochs (i + 1) := rfl
        have e2 : (Aim.epoch eps limit rho (decide (i = 0)) (before eps limit rho epochs i) (epochs i)).1 = termsAt eps limit rho epochs i := rfl
        rw [e1, e2, first_succ]
        split at h
        · cases h
        · rename_i stop stopper' hst
          rw [hst]
          simp only
          split at h
          · rename_i hstop
            rw [if_pos hstop]
            cases h
            simp only
            split <;> simp [hi]
          · rename_i hstop
            rw [if_neg hstop]
            refine ih _ _ _ _ _ ?_ h
            split <;> simp [hi]
    · rename_i hc
      rw [if_neg hc]
      cases h
      rw [hi]

end Artist.AimHistory
