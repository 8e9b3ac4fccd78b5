import Verif.Model.Shared
import Mathlib.Logic.Function.Iterate
/-! Specification vocabulary for training with shared groups (C91). -/
namespace Artist.Shared
open Artist Artist.Schedule
variable {P O K : Type} [Field K] [LinearOrder K] [IsStrictOrderedRing K]

/-- The mean over the processes of gradient entry `i` of parameter tensor `p` at parameters `x`. -/
def meanEntry (t : Training P O K) (members : List Nat) (x : P) (p i : Nat) : K := (members.map fun r => ((t.grad r x).getD p []).getD i 0).sum / (members.length : K)

/-- The mean gradients, for parameter tensors with `shape` entries. -/
def meanGradient (t : Training P O K) (members : List Nat) (shape : List Nat) (x : P) : List (Option (List K)) :=
  shape.zipIdx.map fun mp => some ((List.range mp.1).map (meanEntry t members x mp.2))

/-- One epoch of training by a single process with the mean gradients and with the loss of process `r`. -/
def solo (t : Training P O K) (members : List Nat) (shape : List Nat) (s : Scheduler K) (r : Nat) (w : Worker P O K) : Worker P O K :=
  let m := t.move w.schedule.rate w.memory (meanGradient t members shape w.parameters) w.parameters
  ⟨m.1, m.2, Schedule.step s w.schedule (t.loss r w.parameters)⟩

/-- The scheduler looks at the losses. -/
def Watches (s : Scheduler K) : Prop := ∃ factor patience threshold cooldown lrMin, s = .plateau factor patience threshold cooldown lrMin

end Artist.Shared
