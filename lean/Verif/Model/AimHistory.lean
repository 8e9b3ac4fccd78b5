import Verif.Model.Aim
import Verif.Model.Loop
/-!
# Model of the history returned by the aim point optimisation

`artist/optim/aim_point_optimizer.py` 811-960 for the KL-divergence loss (other losses raise, see `C59`).  What tracing gives in every epoch is an arbitrary
sequence `epochs : Nat → Epoch K`.  Arithmetic is exact; values are finite.
-/
namespace Artist.AimHistory
open Artist Artist.Aim Artist.Training Artist.Loop
variable {K : Type} [Field K] [LinearOrder K] [IsStrictOrderedRing K]

/-- `loss_history` (`aim_point_optimizer.py` 953-960). -/
structure History (K : Type) where
  totalLoss : List K
  fluxLoss : List K
  localFluxConstraint : List K
  interceptConstraint : List K
  fluxIntegralConstraint : List K
  fluxIntegral : List K
  deriving DecidableEq, Repr

/-- The histories before the first epoch (`aim_point_optimizer.py` 823-829). -/
def empty : History K := ⟨[], [], [], [], [], []⟩

/-- The entry of `flux_integral` (`aim_point_optimizer.py` 924-933). -/
def percentage (reference integral : K) : K := 100 / reference * (integral - reference + 1 / 10 ^ 8)

/-- What an epoch appends (`aim_point_optimizer.py` 921-942).  `s` is the state after `_compute_kl_constraints`. -/
def record (h : History K) (e : Epoch K) (t : Terms K) (s : State K) : History K :=
  { totalLoss := h.totalLoss ++ [t.loss]
    fluxLoss := h.fluxLoss ++ [e.fluxLoss]
    fluxIntegral := h.fluxIntegral ++ [percentage s.integralReference e.integral]
    localFluxConstraint := h.localFluxConstraint ++ [t.localFlux]
    interceptConstraint := h.interceptConstraint ++ [t.intercept]
    fluxIntegralConstraint := h.fluxIntegralConstraint ++ [t.fluxIntegral] }

/-- The loop (`aim_point_optimizer.py` 839-951), like `Loop.aimLoop`, with constraints and histories.  `fuel` bounds the recursion as there. -/
def loop (o : Options K) (c : Config K) (eps limit : K) (rho : Weights K) (epochs : Nat → Epoch K) :
    Nat → Nat → Option K → State K → Stopper K → History K → Option (Except PyErr (History K))
  | 0, _, _, _, _, _ => none
  | fuel + 1, i, loss, s, stopper, h =>
    if above o.tolerance loss && decide (i ≤ o.maxEpoch) then
      let r := Aim.epoch eps limit rho (decide (i = 0)) s (epochs i)
      if effectiveLogStep o = 0 then some (.error .zeroDivision)
      else
        let h := record h (epochs i) r.1 r.2
        match step c stopper r.1.loss with
        | .error e => some (.error e)
        | .ok (stop, stopper) =>
          if stop then some (.ok h)
          else loop o c eps limit rho epochs fuel (i + 1) (some r.1.loss) r.2 stopper h
    else some (.ok h)

/-- `optimize` (`aim_point_optimizer.py` 811-960): the history it returns. -/
def optimize (o : Options K) (c : Config K) (eps limit : K) (rho : Weights K) (epochs : Nat → Epoch K) : Option (Except PyErr (History K)) :=
  loop o c eps limit rho epochs (o.maxEpoch + 2) 0 none Aim.initial fresh empty

end Artist.AimHistory
