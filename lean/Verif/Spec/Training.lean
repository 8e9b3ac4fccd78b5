import Verif.Model.Training
/-! Specification vocabulary for early stopping (C31) and the train/test split (C32). -/
namespace Artist.Training
variable {K : Type} [Field K] [LinearOrder K] [IsStrictOrderedRing K]

/-- Improvement from the loss `a` at the start of a window to the loss `b` at its end. -/
def improvement (c : Config K) (a b : K) : K := if c.relative then (a - b) / max |a| c.eps else a - b

/-- At step `t` (counted from 0) a whole window has been seen and the improvement over it does not exceed the threshold. -/
def Stagnant (c : Config K) (losses : List K) (t : Nat) : Prop :=
  c.windowSize ≤ t + 1 ∧ ∃ a b, losses[t + 1 - c.windowSize]? = some a ∧ losses[t]? = some b ∧
    improvement c a b ≤ c.minImprovement

/-- Owner of every sample: heliostat `i` owns `mask[i]` consecutive samples; heliostats are numbered from `i`. -/
def ownersFrom (i : Nat) : List Nat → List Nat
  | [] => []
  | c :: cs => List.replicate c i ++ ownersFrom (i + 1) cs

/-- Owner of every row of a tensor whose rows are laid out according to a mask. -/
def owners (mask : List Nat) : List Nat := ownersFrom 0 mask

end Artist.Training
