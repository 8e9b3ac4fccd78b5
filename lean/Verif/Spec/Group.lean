import Verif.Model.Group
/-! Specification vocabulary for activation (C28). -/
namespace Artist.Group

/-- Row `i` of `rows` repeated `mask[i]` times, in order. -/
def expand {R : Type} (rows : List R) (mask : List Nat) : List R :=
  (List.zipWith (fun r c => List.replicate c r) rows mask).flatten

/-- All tensors have one row per heliostat, except that there are `k` rows of optimizable actuator parameters: `k = n` for
linear, `k = 0` for ideal actuators. -/
def Rows {R : Type} (n k : Nat) (t : Tensors R) : Prop :=
  ∀ q, (t q).length = if q = .optimizable then k else n

/-- Updates in the history keep the shapes of the tensors. -/
def Ordinary {R : Type} (n k : Nat) (ops : List (Op R)) : Prop := ∀ f, Op.update f ∈ ops → Rows n k f

/-- No activation of the history has a mask of zeros only. -/
def NeverNone {R : Type} (ops : List (Op R)) : Prop :=
  ∀ m, Op.activate (some m) ∈ ops → ∃ c ∈ m, c ≠ 0

/-- A mask given as natural numbers. -/
def natMask (mask : List Nat) : Option (List Int) := some (mask.map Int.ofNat)

end Artist.Group
