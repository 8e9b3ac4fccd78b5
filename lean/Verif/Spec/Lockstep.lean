import Verif.Model.Lockstep
import Verif.Spec.Env
import Verif.Spec.Loop
import Mathlib.Logic.Relation
/-! Specification vocabulary for runs of several processes (C88). -/
namespace Artist.Lockstep
open Artist

/-- After any number of collective operations. -/
def Reaches (worldSize : Nat) : State → State → Prop := Relation.ReflTransGen (Step worldSize)

/-- All processes have made all their calls. -/
def Finished (s : State) : Prop := ∀ r, s r = []

/-- Whatever order the operations take place in, the processes never get stuck, and they do finish. -/
def AlwaysFinishes (worldSize : Nat) (s : State) : Prop :=
  (∀ s', Reaches worldSize s s' → ∃ s'', Reaches worldSize s' s'' ∧ Finished s'') ∧
  ∃ bound, ∀ (n : Nat) (run : Nat → State), run 0 = s → (∀ i, i < n → Step worldSize (run i) (run (i + 1))) → n ≤ bound

/-- Whatever order the operations take place in, the processes do not finish: they wait for calls that never come. -/
def NeverFinishes (worldSize : Nat) (s : State) : Prop := ∀ s', Reaches worldSize s s' → ¬ Finished s'

/-- Two processes leave their loops after the same number of epochs. -/
def SameEpochs {K : Type} [Field K] [LinearOrder K] [IsStrictOrderedRing K] (o : Loop.Options K) (c : Training.Config K) (losses losses' : Nat → K) : Prop :=
  ∃ n, Loop.EndsAfter o.tolerance (o.maxEpoch + 1) (Loop.FiresAt c losses) losses n ∧
    Loop.EndsAfter o.tolerance (o.maxEpoch + 1) (Loop.FiresAt c losses') losses' n

end Artist.Lockstep
