import Verif.Model.Training
/-!
# Model of the optimisation loops

`artist/optim/surface_reconstructor.py` 960-1124, `artist/optim/kinematics_reconstructor.py` 799-860 and 969-1027,
`artist/optim/aim_point_optimizer.py` 832-951, `artist/scenario/surface_generator.py` 194-221.

The loss of every epoch is an arbitrary sequence `losses : Nat → K` (whatever parameters, gradients and schedules produce).
Losses are finite; `NaN` and infinity are not modelled, apart from the initial `torch.inf`, which is `none`.
-/
namespace Artist.Loop
open Artist Artist.Training
variable {K : Type} [Field K] [LinearOrder K] [IsStrictOrderedRing K]

/-- `optimizer_dict` entries used by the loop.  `max_epoch` and `log_step` are natural numbers.  Source: `surface_reconstructor.py` 962-970, `aim_point_optimizer.py` 834-842. -/
structure Options (K : Type) where
  tolerance : K
  maxEpoch : Nat
  logStep : Nat

/-- What is observable after the loop: number of executed epochs (optimiser steps), the recorded history, the epochs at which
a validation/log entry was made, and whether early stopping ended the loop.  Source: `surface_reconstructor.py` 967-1124, `kinematics_reconstructor.py` 806-860 and 976-1027. -/
structure Outcome (K : Type) where
  steps : Nat
  history : List K
  logged : List Nat
  stopped : Bool
  deriving DecidableEq, Repr

/-- `loss > tolerance`, with `loss = torch.inf` before the first epoch.  Source: `surface_reconstructor.py` 968, `kinematics_reconstructor.py` 807, `aim_point_optimizer.py` 840. -/
def above (tol : K) : Option K → Bool
  | none => true
  | some l => decide (l > tol)

/-- `log_step = max_epoch if log_step == 0 else log_step`
(`surface_reconstructor.py` 962-966, `kinematics_reconstructor.py` 801-805 and 971-975, `aim_point_optimizer.py` 834-838). -/
def effectiveLogStep (o : Options K) : Nat := if o.logStep = 0 then o.maxEpoch else o.logStep

/-- The loop of the surface and kinematics reconstructions (`surface_reconstructor.py` 967-1124,
`kinematics_reconstructor.py` 806-860 and 976-1027).  The optimiser step comes before the early-stopping test, the history
entry after it.  `epoch % log_step` with `log_step = 0` raises `ZeroDivisionError`.  `fuel` bounds the recursion; `none` means
that it was used up, which does not happen for `fuel > max_epoch + 1`. -/
def reconstructLoop (o : Options K) (c : Config K) (losses : Nat → K) :
    Nat → Nat → Option K → Stopper K → Outcome K → Option (Except PyErr (Outcome K))
  | 0, _, _, _, _ => none
  | fuel + 1, epoch, loss, stopper, out =>
    if above o.tolerance loss && decide (epoch ≤ o.maxEpoch) then
      let loss := losses epoch
      let out := { out with steps := out.steps + 1 }
      match step c stopper loss with
      | .error e => some (.error e)
      | .ok (stop, stopper) =>
        if effectiveLogStep o = 0 then some (.error .zeroDivision)
        else
          let isLast := decide ((epoch : Int) = (o.maxEpoch : Int) - 1)
          let out := if decide (epoch % effectiveLogStep o = 0) || isLast || stop then { out with logged := out.logged ++ [epoch] } else out
          if stop then some (.ok { out with stopped := true })
          else reconstructLoop o c losses fuel (epoch + 1) (some loss) stopper { out with history := out.history ++ [loss] }
    else some (.ok out)

/-- The loop of the aim point optimisation (`aim_point_optimizer.py` 839-951): the history entry comes before the
early-stopping test; logging only by `log_step`. -/
def aimLoop (o : Options K) (c : Config K) (losses : Nat → K) :
    Nat → Nat → Option K → Stopper K → Outcome K → Option (Except PyErr (Outcome K))
  | 0, _, _, _, _ => none
  | fuel + 1, epoch, loss, stopper, out =>
    if above o.tolerance loss && decide (epoch ≤ o.maxEpoch) then
      let loss := losses epoch
      let out := { out with steps := out.steps + 1 }
      if effectiveLogStep o = 0 then some (.error .zeroDivision)
      else
        let out := if epoch % effectiveLogStep o = 0 then { out with logged := out.logged ++ [epoch] } else out
        let out := { out with history := out.history ++ [loss] }
        match step c stopper loss with
        | .error e => some (.error e)
        | .ok (stop, stopper) =>
          if stop then some (.ok { out with stopped := true })
          else aimLoop o c losses fuel (epoch + 1) (some loss) stopper out
    else some (.ok out)

/-- The loop of `fit_nurbs` (`surface_generator.py` 194-221): no early stopping and no history; logging every 100 epochs. -/
def fitLoop (tol : K) (maxEpoch : Nat) (losses : Nat → K) : Nat → Nat → Option K → Outcome K → Option (Outcome K)
  | 0, _, _, _ => none
  | fuel + 1, epoch, loss, out =>
    if above tol loss && decide (epoch ≤ maxEpoch) then
      let out := { out with steps := out.steps + 1 }
      let out := if epoch % 100 = 0 then { out with logged := out.logged ++ [epoch] } else out
      fitLoop tol maxEpoch losses fuel (epoch + 1) (some (losses epoch)) out
    else some out

/-- Before the first epoch.  Source: `surface_reconstructor.py` 960-966, `kinematics_reconstructor.py` 799-805, `aim_point_optimizer.py` 832-838. -/
def start : Outcome K := ⟨0, [], [], false⟩

/-- The whole reconstruction loop.  Source: `surface_reconstructor.py` 967-1124, `kinematics_reconstructor.py` 806-860 and 976-1027. -/
def reconstruct (o : Options K) (c : Config K) (losses : Nat → K) : Option (Except PyErr (Outcome K)) :=
  reconstructLoop o c losses (o.maxEpoch + 2) 0 none fresh start

/-- The whole aim point loop.  Source: `aim_point_optimizer.py` 832-951. -/
def aim (o : Options K) (c : Config K) (losses : Nat → K) : Option (Except PyErr (Outcome K)) :=
  aimLoop o c losses (o.maxEpoch + 2) 0 none fresh start

/-- The whole fitting loop.  Source: `surface_generator.py` 194-221. -/
def fit (tol : K) (maxEpoch : Nat) (losses : Nat → K) : Option (Outcome K) :=
  fitLoop tol maxEpoch losses (maxEpoch + 2) 0 none start

end Artist.Loop
