import Verif.Model.Py
import Mathlib.Algebra.Order.Field.Basic
/-!
# Model of early stopping and of the train/test split (`artist/optim/training.py`)
-/
namespace Artist.Training
open Artist

section
variable {K : Type} [Field K] [LinearOrder K] [IsStrictOrderedRing K]

/-- `EarlyStopping.__init__` (`artist/optim/training.py` 147-151). -/
structure Config (K : Type) where
  windowSize : Nat
  patience : Nat
  minImprovement : K
  relative : Bool
  eps : K

/-- Mutable state: the `deque(maxlen=window_size)` (oldest first) and the counter (lines 153-154). -/
structure Stopper (K : Type) where
  history : List K
  counter : Nat
  deriving DecidableEq, Repr

/-- Initial state (lines 153-154). -/
def fresh : Stopper K := ⟨[], 0⟩

/-- `deque(maxlen=n).append(x)`: appends and drops from the left what exceeds `n`.  As used in `training.py` 153 and 170. -/
def push (n : Nat) (h : List K) (x : K) : List K := (h ++ [x]).drop (h.length + 1 - n)

/-- `step` (lines 170-185).  With window size 0 the deque stays empty and `loss_history[0]` raises `IndexError`. -/
def step (c : Config K) (s : Stopper K) (loss : K) : Except PyErr (Bool × Stopper K) :=
  let h := push c.windowSize s.history loss
  if h.length < c.windowSize then .ok (false, ⟨h, s.counter⟩)
  else
    match h.head?, h.getLast? with
    | some first, some last =>
      let improvement := first - last
      let improvement := if c.relative then improvement / max |first| c.eps else improvement
      let counter := if improvement > c.minImprovement then 0 else s.counter + 1
      .ok (decide (counter ≥ c.patience), ⟨h, counter⟩)
    | _, _ => .error .indexError

/-- Consecutive calls; the returned flags.  Source: `training.py` 156-185, called once per epoch. -/
def flags (c : Config K) : Stopper K → List K → Except PyErr (List Bool × Stopper K)
  | s, [] => .ok ([], s)
  | s, l :: ls =>
    match step c s l with
    | .error e => .error e
    | .ok (b, s') =>
      match flags c s' ls with
      | .error e => .error e
      | .ok (bs, s'') => .ok (b :: bs, s'')
end

/-- What `train_test_split` returns, without the tensors, which are indexed by the index lists (lines 349-367). -/
structure Split where
  trainIndices : List Int
  testIndices : List Int
  maskTrain : List Int
  maskTest : List Int
  perHeliostat : Nat
  numberOfTest : Nat
  deriving DecidableEq, Repr

/-- `train_test_split` (lines 320-347).  Masks are natural numbers; `testOf s` is `int(s * test_fraction)` for the number `s` of samples per heliostat
(float product and truncation are abstract).  No active heliostat raises `ZeroDivisionError`; `torch.arange(n)` with a negative
`n` raises `RuntimeError`.  `int(total / heliostats)` is the floor of the quotient.
The tensors have one row per sample; an index past the end raises `IndexError` (lines 350-359). -/
def split (testOf : Nat → Int) (mask : List Nat) : Except PyErr Split :=
  let total := mask.sum
  let heliostats := mask.countP (fun c => decide (c > 0))
  if heliostats = 0 then .error .zeroDivision
  else
    let per := total / heliostats
    let test : Int := max 1 (testOf per)
    let train : Int := (per : Int) - test
    if train < 0 then .error .runtimeError
    else
      let trainIndices : List Int := (List.range ((total + per - 1) / per)).flatMap
        (fun b => (List.range train.toNat).map (fun (o : Nat) => ((b * per : Nat) : Int) + (o : Int)))
      let testIndices : List Int := (List.range heliostats).flatMap
        (fun b => (List.range (per - train.toNat)).map (fun (o : Nat) => ((b * per : Nat) : Int) + (train + (o : Int))))
      if (trainIndices ++ testIndices).any (fun i => decide (i ≥ (total : Int))) then .error .indexError
      else .ok
        { trainIndices := trainIndices
          testIndices := testIndices
          maskTrain := mask.map (fun (c : Nat) => max ((c : Int) - test) 0)
          maskTest := mask.map (fun (c : Nat) => max ((c : Int) - train) 0)
          perHeliostat := per
          numberOfTest := test.toNat }

end Artist.Training
