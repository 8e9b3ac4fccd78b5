import Verif.Proofs.AimHistory
import Mathlib.Tactic.FieldSimp
import Mathlib.Tactic.Linarith
import Mathlib.Tactic.Positivity
/-!
# C135: the history of the aim point optimisation
-/
namespace Artist.AimHistory
open Artist Artist.Aim Artist.Training Artist.Loop
variable {K : Type} [Field K] [LinearOrder K] [IsStrictOrderedRing K]

theorem optimize_first (o : Options K) (c : Config K) (hw : 0 < c.windowSize) (hl : 0 < o.maxEpoch ∨ 0 < o.logStep) (eps limit : K) (rho : Weights K)
    (epochs : Nat → Epoch K) : ∃ n, optimize o c eps limit rho epochs = some (.ok (first eps limit rho epochs n)) ∧
      EndsAfter o.tolerance (o.maxEpoch + 1) (FiresAt c fun i => (termsAt eps limit rho epochs i).loss) (fun i => (termsAt eps limit rho epochs i).loss) n := by
  obtain ⟨out, n, h1, h2, h3, _, _⟩ := C34_aim_points_partial o c hw hl fun i => (termsAt eps limit rho epochs i).loss
  refine ⟨n, ?_, h2⟩
  rw [← h3]
  exact loop_lockstep o c eps limit rho epochs _ 0 none fresh start out rfl h1

/-- All six histories have one entry for every epoch executed: at least one and at most `max_epoch + 1`; the optimisation went on exactly while the total loss
was above the tolerance and early stopping did not fire.  In every epoch the entries belong together: the total loss is the flux loss plus the three
constraint terms, the flux loss is that epoch's, and the entry of the flux integral is the change of the power on the target in percent of the power in the
first epoch, apart from the added 1e-8. -/
theorem C135_entries (o : Options K) (c : Config K) (hw : 0 < c.windowSize) (hl : 0 < o.maxEpoch ∨ 0 < o.logStep) (eps limit : K) (rho : Weights K)
    (epochs : Nat → Epoch K) : ∃ h n losses, optimize o c eps limit rho epochs = some (.ok h) ∧
      EndsAfter o.tolerance (o.maxEpoch + 1) (FiresAt c losses) losses n ∧ h.totalLoss = firstLosses losses n ∧
      h.fluxLoss.length = n ∧ h.localFluxConstraint.length = n ∧ h.interceptConstraint.length = n ∧ h.fluxIntegralConstraint.length = n ∧
      h.fluxIntegral.length = n ∧
      ∀ i, i < n → ∃ a b d, h.fluxIntegralConstraint[i]? = some a ∧ h.interceptConstraint[i]? = some b ∧ h.localFluxConstraint[i]? = some d ∧
        h.fluxLoss[i]? = some (epochs i).fluxLoss ∧ losses i = (epochs i).fluxLoss + a + b + d ∧
        ∃ p, h.fluxIntegral[i]? = some p ∧ ((epochs 0).integral ≠ 0 →
          p = 100 * ((epochs i).integral - (epochs 0).integral) / (epochs 0).integral + 1 / 10 ^ 6 / (epochs 0).integral) := by
  obtain ⟨n, h1, h2⟩ := optimize_first o c hw hl eps limit rho epochs
  refine ⟨_, n, _, h1, h2, rfl, ?_, ?_, ?_, ?_, ?_, ?_⟩
  iterate 5 simp [first]
  intro i hi
  refine ⟨(termsAt eps limit rho epochs i).fluxIntegral, (termsAt eps limit rho epochs i).intercept, (termsAt eps limit rho epochs i).localFlux, ?_, ?_, ?_,
    ?_, rfl, percentage (epochs 0).integral (epochs i).integral, ?_, ?_⟩
  iterate 5 simp [first, hi]
  intro h0
  unfold percentage
  field_simp
  ring

/-- Every constraint has its own history: entry `i` of each is that term of epoch `i` of the Augmented-Lagrangian run over the epochs executed (which `C36`
is about). -/
theorem C135_terms (o : Options K) (c : Config K) (hw : 0 < c.windowSize) (hl : 0 < o.maxEpoch ∨ 0 < o.logStep) (eps limit : K) (rho : Weights K)
    (epochs : Nat → Epoch K) (h : History K) (hh : optimize o c eps limit rho epochs = some (.ok h)) (i : Nat) (hi : i < h.totalLoss.length) :
    ∃ r, (Aim.run eps limit rho true Aim.initial ((List.range h.totalLoss.length).map epochs))[i]? = some r ∧
      h.totalLoss[i]? = some r.1.loss ∧ h.localFluxConstraint[i]? = some r.1.localFlux ∧ h.interceptConstraint[i]? = some r.1.intercept ∧
      h.fluxIntegralConstraint[i]? = some r.1.fluxIntegral := by
  obtain ⟨n, h1, _⟩ := optimize_first o c hw hl eps limit rho epochs
  rw [h1] at hh
  simp only [Option.some.injEq, Except.ok.injEq] at hh
  subst hh
  have hn : (first eps limit rho epochs n).totalLoss.length = n := by simp [first]
  rw [hn] at hi ⊢
  have := run_at eps limit rho epochs n 0 i hi
  rw [← List.range_eq_range', zero_add] at this
  refine ⟨_, this, ?_⟩
  simp [first, hi]

/-- The sign can be trusted: with power in the first epoch, a later entry of the flux integral is below the first entry exactly if power was lost, and
exactly then (if the constraint has a positive weight) the flux integral constraint is penalised. -/
theorem C135_sign (o : Options K) (c : Config K) (hw : 0 < c.windowSize) (hl : 0 < o.maxEpoch ∨ 0 < o.logStep) (eps limit : K) (heps : 0 ≤ eps)
    (rho : Weights K) (hr : 0 < rho.fluxIntegral) (epochs : Nat → Epoch K) (hI : 0 < (epochs 0).integral) (h : History K)
    (hh : optimize o c eps limit rho epochs = some (.ok h)) (i : Nat) (p q a : K) (hq : h.fluxIntegral[0]? = some q) (hp : h.fluxIntegral[i]? = some p)
    (ha : h.fluxIntegralConstraint[i]? = some a) :
    (p < q ↔ (epochs i).integral < (epochs 0).integral) ∧ (0 < a ↔ (epochs i).integral < (epochs 0).integral) ∧ 0 ≤ a := by
  obtain ⟨n, h1, _⟩ := optimize_first o c hw hl eps limit rho epochs
  rw [h1] at hh
  simp only [Option.some.injEq, Except.ok.injEq] at hh
  subst hh
  simp only [first, List.getElem?_map, Option.map_eq_some_iff, List.getElem?_eq_some_iff, List.length_range, List.getElem_range] at hp hq ha
  obtain ⟨j, ⟨hj, rfl⟩, rfl⟩ := hp
  obtain ⟨j', ⟨hj', rfl⟩, rfl⟩ := hq
  obtain ⟨j'', ⟨_, rfl⟩, rfl⟩ := ha
  have h100 : 0 < 100 / (epochs 0).integral := div_pos (by norm_num) hI
  refine ⟨?_, ?_⟩
  · unfold percentage
    rw [mul_lt_mul_iff_right₀ h100]
    constructor <;> intro h <;> linarith
  · have hm := before_nonneg eps limit rho epochs i
    have href : (references (decide (i = 0)) (before eps limit rho epochs i) (epochs i)).integralReference = (epochs 0).integral := by
      cases i with
      | zero => rfl
      | succ i => exact before_reference eps limit rho epochs i
    have hmul : (references (decide (i = 0)) (before eps limit rho epochs i) (epochs i)).multipliers = (before eps limit rho epochs i).multipliers := by
      unfold references; split <;> rfl
    have hval : (termsAt eps limit rho epochs i).fluxIntegral =
        penalty (before eps limit rho epochs i).multipliers.fluxIntegral rho.fluxIntegral
          (clamp0 (((epochs 0).integral - (epochs i).integral) / ((epochs 0).integral + eps))) := by
      simp only [termsAt, Aim.epoch, integralDifference, href, hmul]
    rw [hval]
    generalize (before eps limit rho epochs i).multipliers.fluxIntegral = lam at hm
    have hden : 0 < (epochs 0).integral + eps := by linarith
    by_cases hlt : (epochs i).integral < (epochs 0).integral
    · have hx : 0 < ((epochs 0).integral - (epochs i).integral) / ((epochs 0).integral + eps) := div_pos (by linarith) hden
      have hpos : 0 < penalty lam rho.fluxIntegral (clamp0 (((epochs 0).integral - (epochs i).integral) / ((epochs 0).integral + eps))) := by
        rw [clamp0, max_eq_left hx.le, penalty]
        have := mul_nonneg hm hx.le
        positivity
      exact ⟨⟨fun _ => hlt, fun _ => hpos⟩, hpos.le⟩
    · have hx : ((epochs 0).integral - (epochs i).integral) / ((epochs 0).integral + eps) ≤ 0 :=
        div_nonpos_of_nonpos_of_nonneg (by linarith) hden.le
      rw [clamp0, max_eq_right hx, penalty]
      simp [hlt]

/-- The first entry of the flux integral is not zero but 1e-6 divided by the power. -/
theorem C135_first_entry (o : Options K) (c : Config K) (hw : 0 < c.windowSize) (hl : 0 < o.maxEpoch ∨ 0 < o.logStep) (eps limit : K)
    (rho : Weights K) (epochs : Nat → Epoch K) : ∃ h, optimize o c eps limit rho epochs = some (.ok h) ∧
      h.fluxIntegral[0]? = some (1 / 10 ^ 6 / (epochs 0).integral) := by
  obtain ⟨n, h1, h2⟩ := optimize_first o c hw hl eps limit rho epochs
  refine ⟨_, h1, ?_⟩
  have : 0 < n := h2.1
  simp only [first, List.getElem?_map, List.getElem?_range this, Option.map_some, Option.some.injEq]
  unfold percentage
  rw [sub_self, zero_add, div_mul_eq_mul_div]
  congr 1
  norm_num

/-- Two epochs of an optimisation over rationals, which meet the hypotheses of all four theorems: a quarter of the power is lost in the second, which ends the optimisation at `max_epoch = 1`. -/
example : optimize (⟨1 / 10, 1, 1⟩ : Options ℚ) ⟨1, 10, 1 / 1000, true, 1 / 1000⟩ 0 100 ⟨1, 2, 1⟩
    (fun i => if i = 0 then ⟨5, 4, [4], [1]⟩ else ⟨3, 2, [4], [1 / 2]⟩) =
    some (.ok ⟨[5, 3 + 1 / 16 + 1 / 8], [5, 3], [0, 0], [0, 1 / 8], [0, 1 / 16], [1 / 8000000, -25 + 1 / 8000000]⟩) := by decide +kernel

end Artist.AimHistory
