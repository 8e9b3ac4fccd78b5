import Verif.Model.Tower
import Mathlib.Data.Real.Sqrt
/-!
# Model of `Scenario.index_mapping` (`artist/scenario/scenario.py` 261-419)
-/
namespace Artist.Mapping
open Artist

/-- `torch.allclose(x, y, rtol, atol)` for scalars: `|x - y| ≤ atol + rtol * |y|`.  As used in `scenario.py` 320-330 and 364-375. -/
def allclose (x y rtol atol : ℝ) : Prop := |x - y| ≤ atol + rtol * |y|

/-- Check of the light direction of one mapping entry passes (lines 362-376): four components, the last close to 0,
norm of all four close to 1. -/
def LightOk (d : List ℝ) : Prop :=
  d.length = 4 ∧ allclose (d.getD 3 0) 0 (1 / 10 ^ 2) (1 / 10 ^ 2) ∧
    allclose (Real.sqrt (d.map (· ^ 2)).sum) 1 (1 / 10 ^ 4) (1 / 10 ^ 4)

/-- Check of the single incident ray direction passes (lines 318-331; default `rtol = 1e-5` for the last component). -/
def SingleLightOk (d : List ℝ) : Prop :=
  d.length = 4 ∧ allclose (d.getD 3 0) 0 (1 / 10 ^ 5) (1 / 10 ^ 8) ∧
    allclose (Real.sqrt ((d.take 3).map (· ^ 2)).sum) 1 (1 / 10 ^ 5) (1 / 10 ^ 8)

/-- One entry of the user's mapping: heliostat name, target name, incident ray direction.  Source: `scenario.py` 355-357. -/
structure Entry (N D : Type) where
  heliostat : N
  target : N
  light : D
  deriving DecidableEq, Repr

/-- The returned tensors; `none` marks a row of `torch.empty` that was never written (lines 390-395). -/
structure Result (D : Type) where
  mask : List Nat
  targets : List (Option Int)
  lights : List (Option D)
  deriving DecidableEq, Repr

/-- `{name: index for index, name in enumerate(names)}` (lines 383-386). -/
def heliostatIndex {N : Type} [DecidableEq N] (names : List N) : List (N × Nat) := Tower.nameToIndexFrom 0 names []

/-- First loop over the filtered mapping (lines 396-405): mask and `data_per_heliostat`.  The lookups cannot miss after the filter and
the check, and raise `KeyError` otherwise. -/
def collect {N D : Type} [DecidableEq N] (index : List (N × Nat)) (targetIndex : List (N × Nat)) :
    List (Entry N D) → List Nat → List (N × List (Nat × D)) → Except PyErr (List Nat × List (N × List (Nat × D)))
  | [], mask, data => .ok (mask, data)
  | e :: rest, mask, data =>
    match dictGet index e.heliostat, dictGet targetIndex e.target with
    | some i, some t => collect index targetIndex rest (mask.modify i (· + 1)) (dictAppend data e.heliostat (t, e.light))
    | _, _ => .error .keyError

/-- Inner loop (lines 408-413): consecutive rows are written; an index past the end raises `IndexError`. -/
def write {D : Type} : List (Nat × D) → Nat → List (Option Int) → List (Option D) →
    Except PyErr (Nat × List (Option Int) × List (Option D))
  | [], index, ts, ls => .ok (index, ts, ls)
  | (t, l) :: rest, index, ts, ls =>
    if index < ts.length ∧ index < ls.length then write rest (index + 1) (ts.set index (some (t : Int))) (ls.set index (some l))
    else .error .indexError

/-- Outer loop over the names of the group (lines 406-413). -/
def writeAll {N D : Type} [DecidableEq N] (data : List (N × List (Nat × D))) : List N → Nat → List (Option Int) → List (Option D) →
    Except PyErr (List (Option Int) × List (Option D))
  | [], _, ts, ls => .ok (ts, ls)
  | name :: names, index, ts, ls =>
    match write ((dictGet data name).getD []) index ts ls with
    | .error e => .error e
    | .ok (index, ts, ls) => writeAll data names index ts ls

/-- `index_mapping` with a mapping (lines 349-419).  `lightOk` is the check of the direction, see `LightOk`; the error messages are not modelled. -/
def indexMapping {N D : Type} [DecidableEq N] (lightOk : D → Bool) (names : List N) (targetIndex : List (N × Nat))
    (mapping : List (Entry N D)) : Except PyErr (Result D) :=
  let filtered := mapping.filter (fun e => decide (e.heliostat ∈ names))
  if filtered.any (fun e => (dictGet targetIndex e.target).isNone || !lightOk e.light) then .error .valueError
  else
    match collect (heliostatIndex names) targetIndex filtered (List.replicate names.length 0) [] with
    | .error e => .error e
    | .ok (mask, data) =>
      match writeAll data names 0 (List.replicate filtered.length none) (List.replicate filtered.length none) with
      | .error e => .error e
      | .ok (ts, ls) => .ok ⟨mask, ts, ls⟩

/-- `index_mapping` without a mapping (lines 317-347). -/
def defaultMapping {D : Type} (singleLightOk : D → Bool) (numberOfHeliostats numberOfTargets : Nat) (light : D) (target : Int) :
    Except PyErr (Result D) :=
  if !singleLightOk light then .error .valueError
  else if target ≥ numberOfTargets then .error .valueError
  else .ok ⟨List.replicate numberOfHeliostats 1, List.replicate numberOfHeliostats (some target),
    List.replicate numberOfHeliostats (some light)⟩

end Artist.Mapping
