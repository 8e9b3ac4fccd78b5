import Verif.Model.Py
/-!
# Model of `artist/util/env.py`
-/
namespace Artist.Env
open Artist

/-- The loop `for group in groups: next(group_iters).append(group)` with
`group_iters = cycle(mapping.values())` (`artist/util/env.py` 262-264).  `table` is the dictionary
`{0: [...], ..., W-1: [...]}` as the list of its values, `pos` the position of the cyclic iterator.
`next` on the cycle of an empty dictionary raises `StopIteration`. -/
def deal : List (List Nat) → Nat → List Nat → Except PyErr (List (List Nat))
  | table, _, [] => .ok table
  | table, pos, group :: groups =>
    if table.length = 0 then .error .stopIteration
    else
      let pos := if pos < table.length then pos else 0
      deal (table.modify pos (· ++ [group])) (pos + 1) groups

/-- `distribute_groups_among_ranks` (`artist/util/env.py` 231-266).  Sizes are natural numbers (the
code is only called with counts).  Result: table rank → groups, and the nested flag. -/
def distribute (worldSize numberOfGroups : Nat) : Except PyErr (List (List Nat) × Bool) :=
  let table := List.replicate worldSize []
  let groups := List.range numberOfGroups
  let isNested := decide (worldSize > numberOfGroups)
  let groups := if isNested then cycleTakeFrom groups groups worldSize else groups
  match deal table 0 groups with
  | .ok t => .ok (t, isNested)
  | .error e => .error e

/-- The inversion loop, lines 120-123 and 204-207 of `artist/util/env.py`: group → ranks, keys in order
of first appearance.  The rank counter starts at `rank`. -/
def invertFrom (rank : Nat) (table : List (List Nat)) (d : List (Nat × List Nat)) :
    List (Nat × List Nat) :=
  match table with
  | [] => d
  | groups :: rest => invertFrom (rank + 1) rest (groups.foldl (fun d g => dictAppend d g rank) d)

/-- Inverse table `ranks_to_groups_mapping` (lines 120-123 / 204-207). -/
def invert (table : List (List Nat)) : List (Nat × List Nat) := invertFrom 0 table []

/-- What one process learns about its subgroup.  The process-group handle is represented by the list
of ranks it was created for.  Source: `env.py` 96-154. -/
structure SubgroupInfo where
  groupRank : Nat
  groupWorldSize : Nat
  processSubgroup : Option (List Nat)
  deriving DecidableEq, Repr

/-- Default values, `artist/util/env.py` 128-130. -/
def defaultInfo : SubgroupInfo := ⟨0, 1, none⟩

/-- The loop over groups in `create_subgroups_for_nested_ddp` (`artist/util/env.py` 133-141); a later
match overwrites an earlier one.  `torch.distributed.new_group` is represented by the identity. -/
def findSubgroup (rank : Nat) (d : List (Nat × List Nat)) : SubgroupInfo :=
  d.foldl (fun info entry =>
    if rank ∈ entry.2 then ⟨entry.2.idxOf rank, entry.2.length, some entry.2⟩ else info) defaultInfo

/-- `create_subgroups_for_nested_ddp` (`artist/util/env.py` 96-154). -/
def createSubgroups (rank : Nat) (table : List (List Nat)) :
    SubgroupInfo × List (Nat × List Nat) :=
  let d := invert table
  (findSubgroup rank d, d)

/-- The part of `setup_distributed_environment` that computes the numbers handed to the user
(`artist/util/env.py` 188-207). -/
def setupInfo (rank worldSize numberOfGroups : Nat) :
    Except PyErr (List (List Nat) × Bool × SubgroupInfo × List (Nat × List Nat)) :=
  match distribute worldSize numberOfGroups with
  | .error e => .error e
  | .ok (table, isNested) =>
    if isNested then
      let r := createSubgroups rank table
      .ok (table, isNested, r.1, r.2)
    else .ok (table, isNested, defaultInfo, invert table)

/-! ## Crash points of the context manager -/

/-- An exception object; `isException` tells whether it derives from `Exception` (and so is caught by
`except Exception`) or only from `BaseException` (`KeyboardInterrupt`, `SystemExit`).  No counterpart in the code: Python's exception classes, as caught in `env.py` 157-228. -/
structure Exc where
  isException : Bool
  tag : Nat
  deriving DecidableEq, Repr

/-- For each step that can fail, the exception it raises (if any).  Source: the calls in `env.py` 157-228 that may raise. -/
structure Faults where
  /-- `get_device`, line 63 -/
  getDevice : Option Exc := none
  /-- `init_process_group`, line 72; when it fails no process group is left behind -/
  initGroup : Option Exc := none
  /-- `get_world_size` / `get_rank` / logging, lines 74-81 -/
  query : Option Exc := none
  /-- choosing the cuda device, lines 88-91 -/
  cuda : Option Exc := none
  /-- `distribute_groups_among_ranks`, line 188 -/
  distribute : Option Exc := none
  /-- `create_subgroups_for_nested_ddp` (`new_group`), line 197; only reached when nested -/
  subgroups : Option Exc := none
  /-- the body of the `with` block -/
  body : Option Exc := none
  /-- `is_initialized` / `destroy_process_group`, lines 225-226; the group then stays initialised -/
  destroy : Option Exc := none
  deriving DecidableEq, Repr

/-- Observable end of a run: was a group initialised at some time, is it still initialised, which
exception reaches the caller, and was the body entered.  Source: `env.py` 157-228. -/
structure Outcome where
  wasInitialised : Bool
  stillInitialised : Bool
  raised : Option Exc
  bodyEntered : Bool
  deriving DecidableEq, Repr

/-- The `finally` block (`artist/util/env.py` 222-228) after the body ended with `pending`.
An `Exception` in the clean-up is logged and swallowed; anything else replaces `pending`. -/
def cleanup (f : Faults) (isDistributed initialised : Bool) (pending : Option Exc) : Outcome :=
  if isDistributed then
    match f.destroy with
    | none => ⟨initialised, false, pending, true⟩
    | some e => if e.isException then ⟨initialised, initialised, pending, true⟩
                else ⟨initialised, initialised, some e, true⟩
  else ⟨initialised, initialised, pending, true⟩

/-- Lines 188-228 of `artist/util/env.py`: everything after `initialize_ddp_environment`. -/
def afterInit (f : Faults) (isDistributed initialised isNested : Bool) : Outcome :=
  match f.distribute with
  | some e => ⟨initialised, initialised, some e, false⟩
  | none =>
    match (if isNested then f.subgroups else none) with
    | some e => ⟨initialised, initialised, some e, false⟩
    | none => cleanup f isDistributed initialised f.body

/-- `with setup_distributed_environment(...)` (`artist/util/env.py` 157-228 including
`initialize_ddp_environment` 33-93) with the given faults.  `isNested` and `isCuda` are the branches
taken. -/
def runWith (f : Faults) (isNested isCuda : Bool) : Outcome :=
  match f.getDevice with
  | some e => ⟨false, false, some e, false⟩
  | none =>
    match f.initGroup with
    | some e =>
      if e.isException then afterInit f false false isNested
      else ⟨false, false, some e, false⟩
    | none =>
      match f.query with
      | some e =>
        if e.isException then
          -- `except Exception`: is_distributed is already True
          match (if isCuda then f.cuda else none) with
          | some e => ⟨true, true, some e, false⟩
          | none => afterInit f true true isNested
        else ⟨true, true, some e, false⟩
      | none =>
        match (if isCuda then f.cuda else none) with
        | some e => ⟨true, true, some e, false⟩
        | none => afterInit f true true isNested

end Artist.Env
