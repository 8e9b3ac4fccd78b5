import Verif.Model.Collective
import Verif.Model.Schedule
/-!
# Model of the training of one heliostat group by several processes

`artist/optim/surface_reconstructor.py` 455-474, 766-790 and 1052-1074, `artist/optim/kinematics_reconstructor.py` 393-419, 637-660 and 978-1001: every process has its own copy of the
parameters, its own optimizer and its own scheduler.  In each epoch it computes loss and gradients for its part of the heliostats; the gradients are averaged over the processes, the loss is
not.  What the loss, the gradients and an optimizer step are is arbitrary.
-/
namespace Artist.Shared
open Artist Artist.Collective Artist.Schedule
variable {P O K : Type} [Field K] [LinearOrder K] [IsStrictOrderedRing K]

/-- What the processes compute: process `r` has gradients (one tensor for each parameter tensor) and a loss for its heliostats; one optimizer step with a learning rate, the state of the
optimizer and (locked, see C27) gradients. -/
structure Training (P O K : Type) where
  grad : Nat → P → List (List K)
  loss : Nat → P → K
  move : K → O → List (Option (List K)) → P → P × O

/-- What one process holds.  Source: `surface_reconstructor.py` 451-474, `kinematics_reconstructor.py` 393-419. -/
structure Worker (P O K : Type) where
  parameters : P
  memory : O
  schedule : Schedule.State K

/-- One epoch of all processes `members` that share the group.  Source: `surface_reconstructor.py` 766-777 and 971-1074, `kinematics_reconstructor.py` 637-648 and 980-1001. -/
def epoch (t : Training P O K) (s : Scheduler K) (members : List Nat) (ws : List (Worker P O K)) : Except Failure (List (Worker P O K)) :=
  match averageGradients members.length (List.zipWith (fun r (w : Worker P O K) => (t.grad r w.parameters).map some) members ws) with
  | .error e => .error e
  | .ok grads =>
    .ok (List.zipWith (fun (rw : Nat × Worker P O K) g =>
      let m := t.move rw.2.schedule.rate rw.2.memory g rw.2.parameters
      ⟨m.1, m.2, Schedule.step s rw.2.schedule (t.loss rw.1 rw.2.parameters)⟩) (members.zip ws) grads)

/-- Several epochs.  Source: `surface_reconstructor.py` 967-1124, `kinematics_reconstructor.py` 976-1027. -/
def epochs (t : Training P O K) (s : Scheduler K) (members : List Nat) : Nat → List (Worker P O K) → Except Failure (List (Worker P O K))
  | 0, ws => .ok ws
  | n + 1, ws =>
    match epoch t s members ws with
    | .error e => .error e
    | .ok ws => epochs t s members n ws

end Artist.Shared
