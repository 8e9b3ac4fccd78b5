import Verif.Model.Fit
import Mathlib.Analysis.SpecialFunctions.Pow.Real
/-!
# Model of the learning rate schedulers (`artist/optim/training.py` 13-90)

Created for a new Adam optimizer (`artist/optim/surface_reconstructor.py` 451-464, `artist/optim/kinematics_reconstructor.py` 393-410, `artist/optim/aim_point_optimizer.py` 281-293)
and advanced once per epoch after the update (`surface_reconstructor.py` 1068-1074, `kinematics_reconstructor.py` 828-834 and 995-1001, `aim_point_optimizer.py` 910-914).  The classes
of `torch.optim.lr_scheduler` are modelled from their documentation.  Arithmetic is exact.  Not modelled: `CyclicLR` also moves the momentum (Adam: `betas[0]`) between 0.8 and 0.9.
-/
namespace Artist.Schedule
open Artist Artist.Fit

/-- The scheduler types and what `training.py` reads from their parameters (32-34, 56-61, 83-90). -/
inductive Scheduler (K : Type)
  | exponential (gamma : K)
  | cyclic (lrMin lrMax : K) (stepSizeUp : Nat)
  | plateau (factor : K) (patience : Nat) (threshold : K) (cooldown : Nat) (lrMin : K)

/-- The learning rate of the optimizer, the number of steps of the scheduler and the state of `ReduceLROnPlateau`.  Source: torch classes created in `training.py` 32-34, 56-61, 83-90. -/
structure State (K : Type) where
  rate : K
  iteration : Nat
  plateau : SchedulerState K

variable {K : Type} [Field K] [LinearOrder K] [IsStrictOrderedRing K]

/-- Learning rate of `CyclicLR` (mode "triangular", `step_size_down = step_size_up`) after `it` steps: with `total_size = 2 step_size_up`, `cycle = floor(1 + it / total_size)` and
`x = 1 + it / total_size - cycle`, which is `(it % total_size) / total_size`. -/
def triangle (lrMin lrMax : K) (up it : Nat) : K :=
  let x : K := ((it % (2 * up) : Nat) : K) / ((2 * up : Nat) : K)
  let scale := if x ≤ 1 / 2 then x / (1 / 2) else (x - 1) / (1 / 2 - 1)
  lrMin + (lrMax - lrMin) * scale

/-- Creation of the scheduler for an optimizer with learning rate `initial`.  `CyclicLR` sets the learning rate of the optimizer and divides by the size of the cycle;
`ReduceLROnPlateau` rejects factors that are not below one.  Source: `training.py` 13-90. -/
def create (s : Scheduler K) (initial : K) : Except PyErr (State K) :=
  match s with
  | .exponential _ => .ok ⟨initial, 0, newScheduler⟩
  | .cyclic lrMin lrMax up => if up = 0 then .error .zeroDivision else .ok ⟨triangle lrMin lrMax up 0, 0, newScheduler⟩
  | .plateau factor _ _ _ _ => if 1 ≤ factor then .error .valueError else .ok ⟨initial, 0, newScheduler⟩

/-- `is_better` of `ReduceLROnPlateau` in the default threshold mode "rel".  As used through `training.py` 83-90. -/
def isBetterRel (threshold loss : K) (best : Option K) : Bool :=
  match best with
  | none => true
  | some b => decide (loss < b * (1 - threshold))

/-- `ReduceLROnPlateau.step(loss)` in threshold mode "rel", with the default `eps` of 1e-8. -/
def plateauStep (factor : K) (patience : Nat) (threshold : K) (cooldown : Nat) (lrMin : K) (s : SchedulerState K) (rate loss : K) : SchedulerState K × K :=
  let s := if isBetterRel threshold loss s.best then { s with best := some loss, bad := 0 } else { s with bad := s.bad + 1 }
  let s := if 0 < s.cool then { s with cool := s.cool - 1, bad := 0 } else s
  if s.bad > patience then ({ s with cool := cooldown, bad := 0 }, reduceRate ⟨factor, patience, threshold, cooldown, lrMin, 1 / 10 ^ 8⟩ rate) else (s, rate)

/-- One step of the scheduler after an epoch with loss `loss`, as called by the optimisations: only `ReduceLROnPlateau` is given the loss.  Source: `surface_reconstructor.py` 1068-1074, `kinematics_reconstructor.py` 828-834 and 995-1001, `aim_point_optimizer.py` 910-914. -/
def step (s : Scheduler K) (z : State K) (loss : K) : State K :=
  match s with
  | .exponential gamma => { z with rate := z.rate * gamma, iteration := z.iteration + 1 }
  | .cyclic lrMin lrMax up => { z with rate := triangle lrMin lrMax up (z.iteration + 1), iteration := z.iteration + 1 }
  | .plateau factor patience threshold cooldown lrMin =>
    let r := plateauStep factor patience threshold cooldown lrMin z.plateau z.rate loss
    ⟨r.2, z.iteration + 1, r.1⟩

/-- State before epoch `e`.  Source: as for `step`, once per epoch. -/
def before (s : Scheduler K) (z : State K) (losses : Nat → K) : Nat → State K
  | 0 => z
  | e + 1 => step s (before s z losses e) (losses e)

/-- `ExponentialLR.step(epoch)` as called by `fit_nurbs` with the loss (`artist/scenario/surface_generator.py` 215-216): a number given to `step` is taken as the epoch, and the learning
rate is `base_lr * gamma ** epoch`. -/
noncomputable def fitExponential (base gamma loss : ℝ) : ℝ := base * gamma ^ loss

/-- Learning rate before epoch `e` of a fit with `ExponentialLR`; the first epoch has the rate of the optimizer.  Source: `training.py` 32-34. -/
noncomputable def fitRate (base gamma : ℝ) (losses : Nat → ℝ) : Nat → ℝ
  | 0 => base
  | e + 1 => fitExponential base gamma (losses e)

end Artist.Schedule
