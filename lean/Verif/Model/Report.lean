import Verif.Model.Env
import Verif.Model.Trace
import Verif.Model.Training
/-!
# Model of the loss bookkeeping of the reconstructions

`artist/optim/surface_reconstructor.py` 305-341, 585-591, 790-838, 885-1160, `artist/optim/kinematics_reconstructor.py` 297-330,
472-700, 743-884, 921-1063, `artist/optim/loss.py` 509-549.

Predictions, measurements and the loss of one prediction/measurement pair are abstract; so is the reduction over the samples of a
heliostat (mean or median).  Only the last epoch's losses are reported, so one evaluation per group is modelled.
A loss of infinity is `none`.
-/
namespace Artist.Report
open Artist Artist.Training

/-- `tensor[indices]` for a list of row indices.  As used in `surface_reconstructor.py` 305-341 and 585-591. -/
def gather {α : Type} (rows : List α) : List Nat → Except PyErr (List α)
  | [] => .ok []
  | i :: is =>
    match rows[i]? with
    | none => .error .indexError
    | some x =>
      match gather rows is with
      | .error e => .error e
      | .ok xs => .ok (x :: xs)

/-- `tensor[get_sampler_indices()]` (`artist/raytracing/heliostat_ray_tracer.py` 205-218): the indices are `torch.tensor(rank_indices)`; an
empty list gives a tensor of floats, which is not accepted as an index (`IndexError`). -/
def gatherOwn {α : Type} (rows : List α) (samplerIndices : List Nat) : Except PyErr (List α) :=
  if samplerIndices = [] then .error .indexError else gather rows samplerIndices

/-- The losses compare `prediction` and `ground_truth` row by row with broadcasting in the first dimension
(`artist/optim/loss.py`: `MSELoss(reduction="none")`, `kl_div(reduction="none")` etc. followed by sums over the other dimensions):
equal row counts are paired, a single row is compared with every row of the other side, anything else raises `RuntimeError`.  Lines 79-121, 271-319, 338-410, 431-459, 480-506. -/
def pairLoss {P G L : Type} (loss : P → G → L) (predictions : List P) (truth : List G) : Except PyErr (List L) :=
  if predictions.length = truth.length then .ok (List.zipWith loss predictions truth)
  else
    match predictions, truth with
    | _, [t] => .ok (predictions.map (fun p => loss p t))
    | [p], _ => .ok (truth.map (fun t => loss p t))
    | _, _ => .error .runtimeError

/-- `reduce_loss_per_sample` (`artist/optim/loss.py` 535-549): rows of `k` consecutive samples, a remainder is dropped;
`// 0` raises `ZeroDivisionError`. -/
def reduceLoss {L : Type} (reduction : List L → L) (k : Nat) (losses : List L) : Except PyErr (List L) :=
  if k = 0 then .error .zeroDivision
  else .ok ((List.range (losses.length / k)).map (fun h => reduction ((losses.drop (h * k)).take k)))

/-- `vector[indices] = values` (`surface_reconstructor.py` 1149, `kinematics_reconstructor.py` 875 and 1049): one value per index, or a
single value for all; otherwise `RuntimeError`.  With repeated indices the last value wins. -/
def writeAt {L : Type} (vector : List (Option L)) (idx : List Nat) (values : List L) : Except PyErr (List (Option L)) :=
  if idx.any (fun i => decide (vector.length ≤ i)) then .error .indexError
  else if values.length = idx.length then
    .ok ((idx.zip values).foldl (fun v p => v.set p.1 (some p.2)) vector)
  else
    match values with
    | [x] => .ok (idx.foldl (fun v i => v.set i (some x)) vector)
    | _ => .error .runtimeError

/-- `final_loss_start_indices[group]` (`kinematics_reconstructor.py` 322-329, `surface_reconstructor.py` 333-340): prefix sum of the group sizes. -/
def startIndex (sizes : List Nat) (group : Nat) : Nat := (sizes.take group).sum

/-- Bookkeeping of the flux-driven reconstructions after the last epoch of a group (`surface_reconstructor.py` 585-589 and 1138-1149,
`kinematics_reconstructor.py` 1033-1049): the heliostats of this rank are derived from the sampler indices, mapped to the active
heliostats of the group and shifted by the group's start index.  A step of 0 in the slice raises `ValueError`. -/
def record {L : Type} (mask : List Nat) (train : Nat) (samplerIndices : List Nat) (start : Nat) (perHeliostat : List L)
    (vector : List (Option L)) : Except PyErr (List (Option L)) :=
  if train = 0 then .error .valueError
  else
    let localIndices := (stride train samplerIndices).map (· / train)
    match gatherOwn (Trace.nonzero mask) localIndices with
    | .error e => .error e
    | .ok heliostats => writeAt vector (heliostats.map (· + start)) perHeliostat

/-- The loss per sample on one rank in a flux-driven reconstruction (`surface_reconstructor.py` 911-919 and 975-999,
`kinematics_reconstructor.py` 949-957 and 599-614).  `measured` has one row per sample of the group, `predict n` are the rows returned by
the ray tracer for the `n` training samples (all of them, whatever the rank works on, `heliostat_ray_tracer.py` 303-310), while the
measurements are those of this rank's samples.  Returns also the number of training samples per heliostat and the sampler indices. -/
def sampleLosses {P G L : Type} (testOf : Nat → Int) (loss : P → G → L) (mask : List Nat) (predict : Nat → List P)
    (measured : List G) (groupWorldSize groupRank : Nat) : Except PyErr (Nat × List Nat × List L) :=
  match split testOf mask with
  | .error e => .error e
  | .ok s =>
    let train := s.perHeliostat - s.numberOfTest
    let maskTrain := s.maskTrain.map Int.toNat
    let samplerIndices := Sampler.tracerRankIndices maskTrain groupWorldSize groupRank
    match gather measured (s.trainIndices.map Int.toNat) with
    | .error e => .error e
    | .ok measuredTrain =>
      match gatherOwn measuredTrain samplerIndices with
      | .error e => .error e
      | .ok measuredLocal =>
        match pairLoss loss (predict maskTrain.sum) measuredLocal with
        | .error e => .error e
        | .ok losses => .ok (train, samplerIndices, losses)

/-- One group of a flux-driven reconstruction on one rank (`surface_reconstructor.py` 910-1149,
`kinematics_reconstructor.py` 948-1049).  The constraint and regularisation terms that the surface reconstruction adds per heliostat
are part of `reduction` here. -/
def fluxGroup {P G L : Type} (testOf : Nat → Int) (loss : P → G → L) (reduction : List L → L) (mask : List Nat)
    (predict : Nat → List P) (measured : List G) (groupWorldSize groupRank start : Nat) (vector : List (Option L)) :
    Except PyErr (List (Option L)) :=
  if mask.sum = 0 then .ok vector
  else
    match sampleLosses testOf loss mask predict measured groupWorldSize groupRank with
    | .error e => .error e
    | .ok (train, samplerIndices, losses) =>
      match reduceLoss reduction train losses with
      | .error e => .error e
      | .ok perHeliostat => record mask train samplerIndices start perHeliostat vector

/-- A step per group that may fail, over the groups of a rank.  Source: the loops `surface_reconstructor.py` 893-1150, `kinematics_reconstructor.py` 754-880 and 933-1050. -/
def overGroups {V : Type} (step : Nat → V → Except PyErr V) : List Nat → V → Except PyErr V
  | [], v => .ok v
  | g :: gs, v =>
    match step g v with
    | .error e => .error e
    | .ok v' => overGroups step gs v'

/-- The vector of one rank before synchronisation (`surface_reconstructor.py` 885-1149, `kinematics_reconstructor.py` 748-875 and 927-1049): the groups assigned to the rank in the table of
`setup_distributed_environment`, starting from infinity. `step rank info group` processes one group. -/
def rankVector {L : Type} (step : Nat → Env.SubgroupInfo → Nat → List (Option L) → Except PyErr (List (Option L))) (total : Nat)
    (worldSize numberOfGroups rank : Nat) : Except PyErr (List (Option L)) :=
  match Env.setupInfo rank worldSize numberOfGroups with
  | .error e => .error e
  | .ok (table, _, info, _) => overGroups (step rank info) (table.getD rank []) (List.replicate total none)

section
variable {L : Type} [LinearOrder L]

/-- Minimum with infinity.  As used in `surface_reconstructor.py` 825-827, `kinematics_reconstructor.py` 689-691 (`ReduceOp.MIN`). -/
def minInf : Option L → Option L → Option L
  | none, y => y
  | x, none => x
  | some a, some b => some (min a b)

/-- `all_reduce(vector, op=MIN)` (`surface_reconstructor.py` 825-827, `kinematics_reconstructor.py` 689-691): every rank receives the
pointwise minimum. -/
def allReduceMin : List (List (Option L)) → List (Option L)
  | [] => []
  | [v] => v
  | v :: w :: vs => List.zipWith minInf v (allReduceMin (w :: vs))

/-- Collects the vectors of all ranks; a rank that raises ends the run.  No counterpart in the code: the processes of a run side by side. -/
def collect {A : Type} (f : Nat → Except PyErr A) : List Nat → Except PyErr (List A)
  | [] => .ok []
  | r :: rs =>
    match f r with
    | .error e => .error e
    | .ok v =>
      match collect f rs with
      | .error e => .error e
      | .ok vs => .ok (v :: vs)

/-- What every rank returns after a flux-driven reconstruction (`_synchronize_reconstruction_across_ranks`).  Lines: `surface_reconstructor.py` 790-838. -/
def reported (step : Nat → Env.SubgroupInfo → Nat → List (Option L) → Except PyErr (List (Option L))) (total : Nat)
    (worldSize numberOfGroups : Nat) : Except PyErr (List (Option L)) :=
  match collect (rankVector step total worldSize numberOfGroups) (List.range worldSize) with
  | .error e => .error e
  | .ok vs => .ok (allReduceMin vs)
end

/-- Bookkeeping of the alignment-driven reconstruction (`kinematics_reconstructor.py` 866-875): every active heliostat of the group.
The loss per heliostat is computed for the whole group on every rank (lines 472-536).  The vector is returned without any reduction
over the ranks (line 884). -/
def alignmentGroup {L : Type} (mask : List Nat) (start : Nat) (perHeliostat : List L) (vector : List (Option L)) :
    Except PyErr (List (Option L)) :=
  if mask.sum = 0 then .ok vector
  else writeAt vector ((Trace.nonzero mask).map (· + start)) perHeliostat

end Artist.Report
