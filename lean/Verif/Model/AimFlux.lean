import Verif.Model.Report
/-!
# Model of the flux accumulation of the aim point optimisation

`artist/optim/aim_point_optimizer.py` 187-219 (all heliostats active, all on one target), 350-412 (`_align_all_groups`) and 414-521
(`_trace_and_accumulate_flux`).

Bitmaps are elements of an additive structure `B`; the factors of a heliostat (intercept, on target, not blocked) are one value of type `F`.
What the tracer computes for one heliostat is an abstract function of the surfaces of all groups (heliostats of all groups block each
other), the random seed, the group and the heliostat.
-/
namespace Artist.AimFlux
open Artist

/-- Surfaces a process sees when it traces: at the start every process aligns all groups (187-219), in an epoch only its own (378-412). -/
def view {S : Type} (table : List (List Nat)) (rank : Nat) (initial current : Nat → S) (group : Nat) : S :=
  if group ∈ table.getD rank [] then current group else initial group

/-- Addition of tensors of which a part may be uninitialised (`none`).  As used in `aim_point_optimizer.py` 506; the uninitialised part comes from `torch.empty` in `heliostat_ray_tracer.py` 302-313. -/
def addOption {B : Type} [Add B] : Option B → Option B → Option B
  | some a, some b => some (a + b)
  | _, _ => none

/-- `get_bitmaps_per_target(rows, targets)[index]` (`heliostat_ray_tracer.py` 590-608, `aim_point_optimizer.py` 499-505): the boolean mask
made of `targets` selects rows; if it has another length than the rows, indexing raises `IndexError` (only reached for target areas that
occur in `targets`). -/
def bitmapOfTarget {B : Type} [Add B] [Zero B] (numberOfTargets : Nat) (rows : List (Option B)) (targets : List Int) (index : Nat) :
    Except PyErr (Option B) :=
  if rows.length ≠ targets.length ∧ (List.range numberOfTargets).any (fun (i : Nat) => targets.any (fun t => decide (t = (i : Int)))) then
    .error .indexError
  else
    match (Trace.bitmapsPerTarget (some 0) addOption numberOfTargets rows targets)[index]? with
    | none => .error .indexError
    | some b => .ok b

/-- One group in `_trace_and_accumulate_flux` (461-513): all `n` heliostats are active with one sample each and aim at target `index`.
`trace seed s` is what the tracer computes for heliostat `s`; `offset` is `group_offsets[group]`.  In the factor vector `none`
marks an entry that still has its initial value zero, `some none` one that received uninitialised memory. -/
def groupStep {B F : Type} [Add B] [Zero B] (numberOfTargets index batchSize n offset : Nat) (info : Env.SubgroupInfo)
    (trace : Nat → Nat → B × F) (state : Option B × List (Option (Option F))) : Except PyErr (Option B × List (Option (Option F))) :=
  let idx := Sampler.tracerRankIndices (List.replicate n 1) info.groupWorldSize info.groupRank
  match Trace.traceRays (fun (_ : Nat) s => trace info.groupRank s) id (List.range n) idx batchSize with
  | .error e => .error e
  | .ok rows =>
    match Report.gatherOwn (List.replicate n (index : Int)) idx with
    | .error e => .error e
    | .ok targets =>
      match bitmapOfTarget numberOfTargets (rows.map (·.map Prod.fst)) targets index with
      | .error e => .error e
      | .ok bitmap =>
        match Report.writeAt state.2 (idx.map (offset + ·)) (rows.map (·.map Prod.snd)) with
        | .error e => .error e
        | .ok factors => .ok (addOption state.1 bitmap, factors)

/-- `_trace_and_accumulate_flux` on one process before the reduction (446-513). -/
def rankFlux {S B F : Type} [Add B] [Zero B] (numberOfTargets index batchSize : Nat) (sizes : List Nat) (initial current : Nat → S)
    (trace : (Nat → S) → Nat → Nat → Nat → B × F) (worldSize rank : Nat) : Except PyErr (Option B × List (Option (Option F))) :=
  match Env.setupInfo rank worldSize sizes.length with
  | .error e => .error e
  | .ok (table, _, info, _) =>
    Report.overGroups (fun g => groupStep numberOfTargets index batchSize (sizes.getD g 0) (Report.startIndex sizes g) info
        (fun seed s => trace (view table rank initial current) seed g s))
      (table.getD rank []) (some 0, List.replicate sizes.sum none)

/-- `_trace_and_accumulate_flux` on all processes (446-521): the flux is summed over the processes and is the same everywhere, the factors stay
as each process computed them. -/
def run {S B F : Type} [Add B] [Zero B] (numberOfTargets index batchSize : Nat) (sizes : List Nat) (initial current : Nat → S)
    (trace : (Nat → S) → Nat → Nat → Nat → B × F) (worldSize : Nat) : Except PyErr (Option B × List (List (Option (Option F)))) :=
  match Report.collect (rankFlux numberOfTargets index batchSize sizes initial current trace worldSize) (List.range worldSize) with
  | .error e => .error e
  | .ok results => .ok ((results.map Prod.fst).foldl addOption (some 0), results.map Prod.snd)

end Artist.AimFlux
