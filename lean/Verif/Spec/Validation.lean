import Verif.Model.Validation
import Verif.Spec.Group
import Verif.Spec.Loop
import Mathlib.Logic.Function.Iterate
/-! Specification vocabulary for training and validation on one group (C89). -/
namespace Artist.Validation
open Artist Artist.Group
variable {R K O T : Type}

/-- The tensors a computation sees that uses heliostat `i` exactly `mask[i]` times: the rows of the full tensors, except for what it has computed itself. -/
def seen (mask : List Nat) (writes : Tensors R → Tensors R) (full : Tensors R) : Tensors R :=
  overwrite (writes fun q => expand (full q) mask) fun q => expand (full q) mask

/-- Optimiser and full tensors after one more epoch of training with the samples counted by `mask`. -/
def trained (j : Job R K O T) (mask : List Nat) (s : O × Tensors R) : O × Tensors R := j.update s.1 (seen mask j.trainWrites s.2) s.2

/-- The training loss before epoch `e`. -/
def lossAt (j : Job R K O T) (mask : List Nat) (s : O × Tensors R) (e : Nat) : K := j.loss (seen mask j.trainWrites ((trained j mask)^[e] s).2)

/-- The job splits `n` heliostats by the two masks, neither of them zero everywhere; updates keep the shapes. -/
structure Splits (n k : Nat) (train test : List Nat) (j : Job R K O T) : Prop where
  train : j.trainMask = train.map Int.ofNat ∧ train.length = n ∧ ∃ c ∈ train, c ≠ 0
  test : j.testMask = test.map Int.ofNat ∧ test.length = n ∧ ∃ c ∈ test, c ≠ 0
  shapes : ∀ opt active full, Rows n k full → Rows n k (j.update opt active full).2

end Artist.Validation
