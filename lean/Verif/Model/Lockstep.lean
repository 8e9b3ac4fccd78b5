import Verif.Model.Env
import Verif.Model.Loop
/-!
# Model of the collective calls of whole optimisations

`artist/optim/surface_reconstructor.py` 766-838 and 967-1124, `artist/optim/kinematics_reconstructor.py` 637-705 and 976-1056,
`artist/optim/aim_point_optimizer.py` 515-519, 694-720 and 839-964.

Every process runs through its own list of collective calls.  A collective operation takes place when all members of its process
group have reached it (documented behaviour of `torch.distributed`); a process cannot go on before.  Calls that do not fit (other
operation, other size) do not take place: what `torch` does then (waiting, an error, or wrong values) is not modelled.  The end of
waiting by a timeout is not modelled either.
-/
namespace Artist.Lockstep
open Artist Artist.Env

/-- A process group: the default group of all processes, or one created for the listed ranks (`artist/util/env.py` 134). -/
inductive Comm
  | world
  | ranks (members : List Nat)
  deriving DecidableEq, Repr

/-- Kinds of collective operations.  Calls: `surface_reconstructor.py` 772, 821, 825; `kinematics_reconstructor.py` 643, 681, 685, 689; `aim_point_optimizer.py` 516, 698, 717. -/
inductive Op
  /-- `all_reduce(op=SUM)` -/
  | sum
  /-- `all_reduce(op=MIN)` -/
  | min
  /-- `broadcast` -/
  | broadcast
  /-- `all_gather_object` -/
  | gather
  deriving DecidableEq, Repr

/-- A collective call of one process; `size` stands for the shape of the tensor.  Calls: as listed for `Op`. -/
structure Call where
  comm : Comm
  op : Op
  size : Nat
  deriving DecidableEq, Repr

/-- The ranks that take part in a call, among `worldSize` processes.  Groups: `surface_reconstructor.py` 773-776, `kinematics_reconstructor.py` 644-647; the other calls use all processes. -/
def Call.members (worldSize : Nat) (c : Call) : List Nat :=
  match c.comm with
  | .world => List.range worldSize
  | .ranks l => l

/-- The calls every process has still to make.  No counterpart in the code: the state of the run as a whole. -/
abbrev State := Nat → List Call

/-- One collective operation takes place: all members have reached it, and go on.  No counterpart in the code: documented behaviour of `torch.distributed`. -/
inductive Step (worldSize : Nat) : State → State → Prop
  | collective (s : State) (c : Call) (hne : c.members worldSize ≠ []) (h : ∀ r ∈ c.members worldSize, (s r).head? = some c) :
    Step worldSize s (fun r => if r ∈ c.members worldSize then (s r).tail else s r)

/-- The process group handed to the `all_reduce` of the gradients (`ddp_setup["process_subgroup"]`; `None` is the default group).  Source: `surface_reconstructor.py` 775, `kinematics_reconstructor.py` 646; created in `env.py` 133-141. -/
def subgroup (info : SubgroupInfo) : Comm :=
  match info.processSubgroup with
  | none => .world
  | some l => .ranks l

/-- Number of epochs of one reconstruction loop.  (Runs that raise are excluded where this is used.).  Source: `surface_reconstructor.py` 967-1124, `kinematics_reconstructor.py` 806-860 and 976-1027. -/
def epochs {K : Type} [Field K] [LinearOrder K] [IsStrictOrderedRing K] (o : Loop.Options K) (c : Training.Config K) (losses : Nat → K) : Nat :=
  match Loop.reconstruct o c losses with
  | some (.ok out) => out.steps
  | _ => 0

/-- Number of epochs of the aim point loop.  Source: `aim_point_optimizer.py` 839-951. -/
def aimEpochs {K : Type} [Field K] [LinearOrder K] [IsStrictOrderedRing K] (o : Loop.Options K) (c : Training.Config K) (losses : Nat → K) : Nat :=
  match Loop.aim o c losses with
  | some (.ok out) => out.steps
  | _ => 0

/-- What is the same for all processes in a reconstruction: the loop, the sizes of the optimised parameters of a heliostat group
(for which `all_reduce` is called), whether the group has measurements, the sizes of the parameters that are broadcast, the total
number of heliostats.  Source: `surface_reconstructor.py` 766-838 and 893-1155. -/
structure Setting (K : Type) where
  options : Loop.Options K
  stopping : Training.Config K
  parameters : Nat → List Nat
  measured : Nat → Bool
  broadcast : Nat → List Nat
  heliostats : Nat

/-- The collective calls of one process in a reconstruction (`surface_reconstructor.py` 883-1128, `kinematics_reconstructor.py`
933-1056): for every heliostat group of the process that has measurements, in nested mode, one `all_reduce` per parameter and epoch
over the process group (766-778 and 637-648); finally, for all groups, the broadcasts, the minimum of the losses and the loss
histories (816-833 and 676-698).  `losses g` are the losses this process computes for group `g` from its own samples. -/
def reconstructionCalls {K : Type} [Field K] [LinearOrder K] [IsStrictOrderedRing K] (s : Setting K) (numberOfGroups : Nat) (isNested : Bool)
    (info : SubgroupInfo) (groups : List Nat) (losses : Nat → Nat → K) : List Call :=
  groups.flatMap (fun g =>
    if s.measured g && isNested then
      (List.replicate (epochs s.options s.stopping (losses g)) ((s.parameters g).map fun n => ⟨subgroup info, .sum, n⟩)).flatten
    else []) ++
  (List.range numberOfGroups).flatMap (fun g => (s.broadcast g).map fun n => ⟨.world, .broadcast, n⟩) ++
  [⟨.world, .min, s.heliostats⟩, ⟨.world, .gather, 0⟩]

/-- All processes at the start of a reconstruction; `losses r g` are the losses of process `r` for group `g`.  Source: `surface_reconstructor.py` 893-1155, `kinematics_reconstructor.py` 933-1056. -/
def reconstruction {K : Type} [Field K] [LinearOrder K] [IsStrictOrderedRing K] (s : Setting K) (worldSize numberOfGroups : Nat)
    (losses : Nat → Nat → Nat → K) : State := fun r =>
  if r < worldSize then
    match setupInfo r worldSize numberOfGroups with
    | .ok (table, isNested, info, _) => reconstructionCalls s numberOfGroups isNested info (table.getD r []) (losses r)
    | .error _ => []
  else []

/-- The collective calls of one process in the aim point optimisation: in every epoch the sum of the fluxes (515-519), the same
operation backwards (the gradient of the differentiable `all_reduce`), and one `all_reduce` for the motor positions of every group
traced by the process (694-702; see `Collective.rankGradients`); finally one broadcast per heliostat group (712-720).
`pixels` is the size of the flux image, `motors g` that of the motor positions of group `g`, `losses` those of this process. -/
def aimCalls {K : Type} [Field K] [LinearOrder K] [IsStrictOrderedRing K] (o : Loop.Options K) (c : Training.Config K) (pixels : Nat) (motors : Nat → Nat)
    (numberOfGroups : Nat) (groups : List Nat) (losses : Nat → K) : List Call :=
  (List.replicate (aimEpochs o c losses)
    (⟨.world, .sum, pixels⟩ :: ⟨.world, .sum, pixels⟩ :: groups.map fun g => ⟨.world, .sum, motors g⟩)).flatten ++
  (List.range numberOfGroups).map fun g => ⟨.world, .broadcast, motors g⟩

/-- All processes at the start of the aim point optimisation.  Source: `aim_point_optimizer.py` 839-964. -/
def aimPoints {K : Type} [Field K] [LinearOrder K] [IsStrictOrderedRing K] (o : Loop.Options K) (c : Training.Config K) (pixels : Nat) (motors : Nat → Nat)
    (worldSize numberOfGroups : Nat) (losses : Nat → Nat → K) : State := fun r =>
  if r < worldSize then
    match distribute worldSize numberOfGroups with
    | .ok (table, _) => aimCalls o c pixels motors numberOfGroups (table.getD r []) (losses r)
    | .error _ => []
  else []

end Artist.Lockstep
