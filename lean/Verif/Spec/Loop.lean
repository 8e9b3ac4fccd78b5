import Verif.Model.Loop
import Verif.Spec.Training
/-! Specification vocabulary for the optimisation loops (C34). -/
namespace Artist.Loop
open Artist Artist.Training
variable {K : Type} [Field K] [LinearOrder K] [IsStrictOrderedRing K]

/-- Early stopping fires at epoch `t`: `window_size` losses were seen, and at each of the last `patience` epochs the window was
full and the loss had not improved enough over it. -/
def FiresAt (c : Config K) (losses : Nat → K) (t : Nat) : Prop :=
  c.windowSize ≤ t + 1 ∧ c.patience ≤ t + 1 ∧
    ∀ j, j < c.patience → c.windowSize ≤ t - j + 1 ∧
      improvement c (losses (t - j + 1 - c.windowSize)) (losses (t - j)) ≤ c.minImprovement

/-- `n` is the number of epochs of a loop that stops after the first epoch whose loss is within the tolerance or at which
`fires` holds, and at the latest after `limit` epochs. -/
def EndsAfter (tol : K) (limit : Nat) (fires : Nat → Prop) (losses : Nat → K) (n : Nat) : Prop :=
  0 < n ∧ n ≤ limit ∧ (∀ i, i + 1 < n → tol < losses i ∧ ¬ fires i) ∧ (losses (n - 1) ≤ tol ∨ fires (n - 1) ∨ n = limit)

/-- The losses of the first `n` epochs. -/
def firstLosses (losses : Nat → K) (n : Nat) : List K := (List.range n).map losses

end Artist.Loop
