import Verif.Model.Loop
/-!
# Model of what the optimisation loops leave behind

`artist/optim/surface_reconstructor.py` 960-1155, `artist/optim/kinematics_reconstructor.py` 799-880 and 969-1045, `artist/optim/aim_point_optimizer.py` 350-408 and 832-970.

The loops of `Verif.Model.Loop`, now with the state that they change.  `S` stands for everything that changes from epoch to epoch: the parameters, the state of optimiser and
schedule, the multipliers.  What one epoch computes from it (alignment, tracing, loss, gradients, update) is arbitrary.
-/
namespace Artist.Result
open Artist Artist.Training Artist.Loop
variable {K : Type} [Field K] [LinearOrder K] [IsStrictOrderedRing K] {S T : Type}

/-- One optimisation: the loss computed from a state, the state after the update (`optimizer.step()`, `scheduler.step()`, multipliers), the test losses of a state
(`_validate`; in the aim point optimisation: the motor positions that the alignment stores).  Source: `surface_reconstructor.py` 967-1124, `kinematics_reconstructor.py` 806-860 and 976-1027, `aim_point_optimizer.py` 839-951. -/
structure Process (S K T : Type) where
  lossOf : S → K
  next : S → S
  measure : S → T

/-- What is left: counters and histories, the state whose parameters the scenario holds, the loss that is returned, and the stored measurement
(`test_loss` of the loss history; in the aim point optimisation: `kinematics.motor_positions`).  Source: `surface_reconstructor.py` 967-1124, `kinematics_reconstructor.py` 806-860 and 976-1027, `aim_point_optimizer.py` 839-964. -/
structure Left (S K T : Type) where
  outcome : Outcome K
  state : S
  reported : Option K
  measured : Option T
  deriving DecidableEq

/-- Reconstruction of surfaces and kinematics (`surface_reconstructor.py` 967-1124 and 1153, `kinematics_reconstructor.py` 806-875 and 976-1042): the loss is computed, then the
update is made, then the test losses are determined; the loss variable of the last epoch is returned (`total_loss_per_heliostat`, `loss_per_heliostat`; here their mean). -/
def reconstructLoop (p : Process S K T) (o : Options K) (c : Config K) :
    Nat → Nat → Option K → Stopper K → Outcome K → S → Option T → Option (Except PyErr (Left S K T))
  | 0, _, _, _, _, _, _ => none
  | fuel + 1, epoch, loss, stopper, out, s, test =>
    if above o.tolerance loss && decide (epoch ≤ o.maxEpoch) then
      let loss := p.lossOf s
      let s := p.next s
      let out := { out with steps := out.steps + 1 }
      match step c stopper loss with
      | .error e => some (.error e)
      | .ok (stop, stopper) =>
        if effectiveLogStep o = 0 then some (.error .zeroDivision)
        else
          let isLast := decide ((epoch : Int) = (o.maxEpoch : Int) - 1)
          let log := decide (epoch % effectiveLogStep o = 0) || isLast || stop
          let out := if log then { out with logged := out.logged ++ [epoch] } else out
          let test := if log then some (p.measure s) else test
          if stop then some (.ok ⟨{ out with stopped := true }, s, some loss, test⟩)
          else reconstructLoop p o c fuel (epoch + 1) (some loss) stopper { out with history := out.history ++ [loss] } s test
    else some (.ok ⟨out, s, loss, test⟩)

/-- Aim point optimisation (`aim_point_optimizer.py` 839-970): the alignment stores the motor positions of the current state (389-391), then loss and update; the stored motor
positions are what is broadcast and kept (963-964), the parameters of the optimiser are dropped. -/
def aimLoop (p : Process S K T) (o : Options K) (c : Config K) :
    Nat → Nat → Option K → Stopper K → Outcome K → S → Option T → Option (Except PyErr (Left S K T))
  | 0, _, _, _, _, _, _ => none
  | fuel + 1, epoch, loss, stopper, out, s, stored =>
    if above o.tolerance loss && decide (epoch ≤ o.maxEpoch) then
      let stored := some (p.measure s)
      let loss := p.lossOf s
      let s := p.next s
      let out := { out with steps := out.steps + 1 }
      if effectiveLogStep o = 0 then some (.error .zeroDivision)
      else
        let out := if epoch % effectiveLogStep o = 0 then { out with logged := out.logged ++ [epoch] } else out
        let out := { out with history := out.history ++ [loss] }
        match step c stopper loss with
        | .error e => some (.error e)
        | .ok (stop, stopper) =>
          if stop then some (.ok ⟨{ out with stopped := true }, s, some loss, stored⟩)
          else aimLoop p o c fuel (epoch + 1) (some loss) stopper out s stored
    else some (.ok ⟨out, s, loss, stored⟩)

/-- A reconstruction from its initial state.  Source: `surface_reconstructor.py` 967-1124, `kinematics_reconstructor.py` 806-860 and 976-1027. -/
def reconstruct (p : Process S K T) (o : Options K) (c : Config K) (s : S) : Option (Except PyErr (Left S K T)) :=
  reconstructLoop p o c (o.maxEpoch + 2) 0 none fresh start s none

/-- An aim point optimisation from its initial state.  Source: `aim_point_optimizer.py` 832-970. -/
def aim (p : Process S K T) (o : Options K) (c : Config K) (s : S) : Option (Except PyErr (Left S K T)) :=
  aimLoop p o c (o.maxEpoch + 2) 0 none fresh start s none

end Artist.Result
