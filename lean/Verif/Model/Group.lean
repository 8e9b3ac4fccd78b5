import Verif.Model.Py
/-!
# Model of heliostat activation (`artist/field/heliostat_group.py`, `artist/field/actuators.py`)
-/
namespace Artist.Group
open Artist

/-- The per-heliostat tensors of a group that have an active counterpart: `HeliostatGroup.__init__`
(`artist/field/heliostat_group.py` 128-136), the kinematics tensors read in lines 276-300 and the actuator tensors of
`artist/field/actuators.py` 72-73. -/
inductive Quantity where
  | surfacePoints
  | surfaceNormals
  | canting
  | facetTranslations
  | nurbsControlPoints
  | heliostatPositions
  | initialOrientations
  | translationDeviations
  | rotationDeviations
  | motorPositions
  | nonOptimizable
  | optimizable
  deriving DecidableEq, Repr

/-- Tensors: for each quantity the list of its rows along dimension 0; the contents of a row are abstract.  Ideal actuators
have no rows of optimizable parameters (`torch.tensor([])`). -/
abbrev Tensors (R : Type) := Quantity → List R

/-- A group: the full tensors, the active tensors, and the bookkeeping of the last activation.  Source: `heliostat_group.py` 78-159. -/
structure State (R : Type) where
  numberOfHeliostats : Nat
  full : Tensors R
  active : Tensors R
  numberOfActive : Int
  kinematicsNumberOfActive : Int
  mask : List Int

/-- `HeliostatGroup.__init__` (`heliostat_group.py` 140-159) and `Actuators.__init__` (`actuators.py` 72-77): the active
tensors are `empty_like` of the full ones, i.e. have the same shape and arbitrary content, modelled by the full tensors
with every row mapped through an arbitrary `junk`. -/
def init {R : Type} (junk : R → R) (n : Nat) (full : Tensors R) : State R :=
  { numberOfHeliostats := n
    full := full
    active := fun q => (full q).map junk
    numberOfActive := 0
    kinematicsNumberOfActive := 0
    mask := List.replicate n 0 }

/-- `tensor.repeat_interleave(mask, dim=0)`: a negative count raises `RuntimeError`, a mask of length one is broadcast,
any other length that differs from the number of rows raises `RuntimeError` (`heliostat_group.py` 258 ff.). -/
def repeatRows {R : Type} (rows : List R) (mask : List Int) : Except PyErr (List R) :=
  if mask.any (fun c => decide (c < 0)) then .error .runtimeError
  else
    let mask := if mask.length = 1 then List.replicate rows.length (mask.headD 0) else mask
    if mask.length = rows.length then .ok (repeatInterleave rows (mask.map Int.toNat))
    else .error .runtimeError

/-- Consecutive statements `self.active_q = self.q.repeat_interleave(mask, dim=0)` for the listed quantities; an exception
ends the function and keeps the assignments made so far. -/
def assignAll {R : Type} (mask : List Int) : List Quantity → State R → Except PyErr Unit × State R
  | [], s => (.ok (), s)
  | q :: qs, s =>
    match repeatRows (s.full q) mask with
    | .error e => (.error e, s)
    | .ok x => assignAll mask qs { s with active := fun q' => if q' = q then x else s.active q' }

/-- `activate_heliostats` (`heliostat_group.py` 249-315): outcome of the call and the state it leaves; lines 251-257,
258-272, 273-275, 276-305 and 306-315.  The last part tests the number of elements of the *previously active* optimizable
parameters; a tensor has elements iff it has rows (rows of linear actuators are `2 × 2`). -/
def activate {R : Type} (s : State R) (mask? : Option (List Int)) : Except PyErr Unit × State R :=
  let mask := mask?.getD (List.replicate s.numberOfHeliostats 1)
  match assignAll mask [.surfacePoints, .surfaceNormals, .canting, .facetTranslations, .nurbsControlPoints]
      { s with numberOfActive := mask.sum, mask := mask } with
  | (.error e, s) => (.error e, s)
  | (.ok (), s) =>
    match assignAll mask [.heliostatPositions, .initialOrientations, .translationDeviations, .rotationDeviations,
        .motorPositions, .nonOptimizable] { s with kinematicsNumberOfActive := mask.sum } with
    | (.error e, s) => (.error e, s)
    | (.ok (), s) =>
      if (s.active .optimizable).length > 0 then assignAll mask [.optimizable] s
      else (.ok (), { s with active := fun q => if q = .optimizable then [] else s.active q })

/-- What can happen to a group between two looks at it: an activation, or a change of the full tensors (optimiser steps,
`HeliostatField.update_surfaces`, `artist/field/heliostat_field.py` 494-503). -/
inductive Op (R : Type) where
  | activate (mask? : Option (List Int))
  | update (f : Tensors R)

/-- One step of a history; the caller catches the exception, if any.  Source: `heliostat_group.py` 225-315, one call. -/
def step {R : Type} (s : State R) : Op R → State R
  | .activate m => (Group.activate s m).2
  | .update f => { s with full := f }

/-- A history.  No counterpart in the code: a program that calls the methods one after the other. -/
def run {R : Type} (s : State R) (ops : List (Op R)) : State R := ops.foldl step s

end Artist.Group
