import Verif.Model.Env
import Mathlib.Algebra.Field.Defs
/-!
# Model of the collective operations between processes

`artist/optim/aim_point_optimizer.py` 681-722, `artist/optim/surface_reconstructor.py` 766-777 and 790-838,
`artist/optim/kinematics_reconstructor.py` 640-648 and 676-691.

The n-th collective call of a process on a process group meets the n-th call of every other member of that group
(documented behaviour of `torch.distributed`).  If some member calls fewer times, the others wait forever; if the shapes
differ, the operation fails.
-/
namespace Artist.Collective
open Artist
variable {K : Type}

/-- Why a sequence of collectives does not complete.  Stands for what `torch.distributed` does at `aim_point_optimizer.py` 698-700, `surface_reconstructor.py` 772-776, `kinematics_reconstructor.py` 643-647. -/
inductive Failure
  /-- some processes wait for calls that never come -/
  | hang
  /-- tensors of different shapes meet -/
  | shape
  deriving DecidableEq, Repr

/-- Sum of equally long vectors, `all_reduce(op=SUM)`; `zero` has the common length.  As used in `surface_reconstructor.py` 772-776. -/
def sumVectors [Add K] (zero : List K) (vs : List (List K)) : List K := vs.foldl (List.zipWith (· + ·)) zero

/-- The `n`-th tensor of every process.  No counterpart in the code: selects the call with the same number. -/
def column (calls : List (List (List K))) (n : Nat) : List (List K) := calls.map (fun c => c.getD n [])

/-- Puts the results of the calls back to the parameters that took part (`param.grad is not None`).  Source: `surface_reconstructor.py` 769-777, `kinematics_reconstructor.py` 640-648, `aim_point_optimizer.py` 695-702. -/
def putBack {α : Type} : List (Option α) → List α → List (Option α)
  | [], _ => []
  | none :: gs, rs => none :: putBack gs rs
  | some _ :: gs, r :: rs => some r :: putBack gs rs
  | some g :: gs, [] => some g :: putBack gs []

/-- Averaging of gradients over the members of a process group (`aim_point_optimizer.py` 695-702; `surface_reconstructor.py`
768-777; `kinematics_reconstructor.py` 640-648): every process walks through its parameters and calls `all_reduce` for those with a
gradient, then divides by `size`.  `grads` has, per process, the gradient of every parameter. -/
def averageGradients [Field K] (size : Nat) (grads : List (List (Option (List K)))) :
    Except Failure (List (List (Option (List K)))) :=
  let calls := grads.map (fun g => g.filterMap id)
  match calls with
  | [] => .ok []
  | first :: _ =>
    if calls.any (fun c => decide (c.length ≠ first.length)) then .error .hang
    else if calls.any (fun c => decide (c.map List.length ≠ first.map List.length)) then .error .shape
    else
      let results := (List.range first.length).map (fun n =>
        (sumVectors (List.replicate (first.getD n []).length 0) (column calls n)).map (· / (size : K)))
      .ok (grads.map (fun g => putBack g results))

/-- The gradients of one process in the aim point optimisation: one parameter per heliostat group, with a gradient exactly for the
groups traced by this process (`aim_point_optimizer.py` 378-392, 843; `zero_grad` resets gradients to `None`). -/
def rankGradients (table : List (List Nat)) (numberOfGroups : Nat) (grad : Nat → Nat → List K) (rank : Nat) : List (Option (List K)) :=
  (List.range numberOfGroups).map (fun g => if g ∈ table.getD rank [] then some (grad rank g) else none)

/-- `_synchronize_distributed_gradients` of all processes (`aim_point_optimizer.py` 694-702), over the global process group. -/
def aimGradients [Field K] (table : List (List Nat)) (worldSize numberOfGroups : Nat) (grad : Nat → Nat → List K) :
    Except Failure (List (List (Option (List K)))) :=
  averageGradients worldSize ((List.range worldSize).map (rankGradients table numberOfGroups grad))

/-- Gradient averaging of the reconstructions for one heliostat group (`surface_reconstructor.py` 766-777,
`kinematics_reconstructor.py` 639-648): only in nested mode, over the processes that share the group; every parameter of the
optimiser has a gradient. -/
def groupGradients [Field K] (isNested : Bool) (members : List Nat) (grad : Nat → List (List K)) :
    Except Failure (List (List (Option (List K)))) :=
  let grads := members.map (fun r => (grad r).map some)
  if isNested then averageGradients members.length grads else .ok grads

/-- `torch.distributed.broadcast(parameter, src)` for one group: every process receives the value of the source.  As used in `surface_reconstructor.py` 821-823, `kinematics_reconstructor.py` 681-688, `aim_point_optimizer.py` 717-720. -/
def broadcast {P : Type} (source : Nat) (values : List P) : List P :=
  match values[source]? with
  | some v => values.map (fun _ => v)
  | none => values

/-- The final synchronisation of parameters (`aim_point_optimizer.py` 712-720, `surface_reconstructor.py` 816-824,
`kinematics_reconstructor.py` 676-688): for every group the value of the first process in `ranks_to_groups_mapping`.
`params g` lists the values of all processes for group `g`.  A group missing from the dictionary raises `KeyError`, an empty list
`IndexError`. -/
def synchronise {P : Type} (inverse : List (Nat × List Nat)) (params : Nat → List P) : List Nat → Except PyErr (List (List P))
  | [] => .ok []
  | g :: gs =>
    match dictGet inverse g with
    | none => .error .keyError
    | some [] => .error .indexError
    | some (source :: _) =>
      match synchronise inverse params gs with
      | .error e => .error e
      | .ok rest => .ok (broadcast source (params g) :: rest)

/-- Parameters of all processes before synchronisation: a process changes the groups it works on, all others keep the value they were
loaded with (`surface_reconstructor.py` 885, `kinematics_reconstructor.py` 748 and 927, `aim_point_optimizer.py` 378). -/
def localParams {P : Type} (table : List (List Nat)) (worldSize : Nat) (loaded : Nat → P) (trained : Nat → Nat → P) (g : Nat) : List P :=
  (List.range worldSize).map (fun r => if g ∈ table.getD r [] then trained r g else loaded g)

end Artist.Collective
