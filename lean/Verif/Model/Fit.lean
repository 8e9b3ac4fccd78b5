import Verif.Model.Loop
/-!
# Model of the fits of all facets of a surface with one optimizer and one scheduler

`artist/scenario/surface_generator.py` 186-223 (`fit_nurbs`) and 337-372 (the loop over facets).  All facets share the optimizer and the
scheduler object.  `optimizer.param_groups.clear()` and `add_param_group` give every facet a new parameter with the default learning rate
of the optimizer and no optimizer state; the scheduler keeps its state.

The scheduler is `torch.optim.lr_scheduler.ReduceLROnPlateau` (mode "min", threshold mode "abs"), the one used in the tutorials; its `step` is
modelled from its documentation.  Arithmetic is exact.  Not modelled: what the loss of a NURBS surface is; a facet is any optimisation problem.
-/
namespace Artist.Fit
open Artist
variable {K : Type} [Field K] [LinearOrder K] [IsStrictOrderedRing K]

/-- Arguments of `ReduceLROnPlateau`.  Source: class `ReduceLROnPlateau` of torch, created in `surface_generator.py` 189-193 and called in 194-221. -/
structure Plateau (K : Type) where
  factor : K
  patience : Nat
  threshold : K
  cooldown : Nat
  minRate : K
  eps : K

/-- State of the scheduler object; `best = none` is infinity.  Source: class `ReduceLROnPlateau` of torch, created in `surface_generator.py` 189-193 and called in 194-221. -/
structure SchedulerState (K : Type) where
  best : Option K
  bad : Nat
  cool : Nat
  deriving DecidableEq, Repr

/-- A scheduler that was not used yet.  Source: class `ReduceLROnPlateau` of torch, created in `surface_generator.py` 189-193 and called in 194-221. -/
def newScheduler : SchedulerState K := ⟨none, 0, 0⟩

/-- `is_better(metrics, best)`.  Source: class `ReduceLROnPlateau` of torch, created in `surface_generator.py` 189-193 and called in 194-221. -/
def isBetter (c : Plateau K) (loss : K) (best : Option K) : Bool :=
  match best with
  | none => true
  | some b => decide (loss < b - c.threshold)

/-- `_reduce_lr`.  Source: class `ReduceLROnPlateau` of torch, created in `surface_generator.py` 189-193 and called in 194-221. -/
def reduceRate (c : Plateau K) (rate : K) : K :=
  let new := max (rate * c.factor) c.minRate
  if rate - new > c.eps then new else rate

/-- `ReduceLROnPlateau.step(metrics)`: state and learning rate afterwards.  Source: class `ReduceLROnPlateau` of torch, created in `surface_generator.py` 189-193 and called in 194-221. -/
def schedule (c : Plateau K) (s : SchedulerState K) (rate loss : K) : SchedulerState K × K :=
  let s := if isBetter c loss s.best then { s with best := some loss, bad := 0 } else { s with bad := s.bad + 1 }
  let s := if 0 < s.cool then { s with cool := s.cool - 1, bad := 0 } else s
  if s.bad > c.patience then ({ s with cool := c.cooldown, bad := 0 }, reduceRate c rate) else (s, rate)

/-- The optimisation problem of a facet: initial parameters and optimizer state, loss, and one optimizer step with a learning rate.  Source: `surface_generator.py` 71-193. -/
structure Problem (P O K : Type) where
  parameters : P
  memory : O
  loss : P → K
  move : K → O → P → P × O

/-- `if scheduler: scheduler.step(...)` (`surface_generator.py` 215-216). -/
def scheduleIf (c : Option (Plateau K)) (s : SchedulerState K) (rate loss : K) : SchedulerState K × K :=
  match c with
  | none => (s, rate)
  | some c => schedule c s rate loss

/-- The loop of `fit_nurbs` (lines 194-221): parameters and scheduler state at the end.  `fuel` bounds the number of epochs. -/
def loop {P O : Type} (c : Option (Plateau K)) (tolerance : K) (maxEpoch : Nat) (p : Problem P O K) :
    Nat → Nat → Option K → P → O → K → SchedulerState K → P × SchedulerState K
  | 0, _, _, x, _, _, s => (x, s)
  | fuel + 1, epoch, loss, x, o, rate, s =>
    if Loop.above tolerance loss && decide (epoch ≤ maxEpoch) then
      let l := p.loss x
      let y := p.move rate o x
      let t := scheduleIf c s rate l
      loop c tolerance maxEpoch p fuel (epoch + 1) (some l) y.1 y.2 t.2 t.1
    else (x, s)

/-- `fit_nurbs` for one facet, with a scheduler in state `s`.  Source: `surface_generator.py` 189-223. -/
def fitOne {P O : Type} (c : Option (Plateau K)) (rate tolerance : K) (maxEpoch : Nat) (s : SchedulerState K) (p : Problem P O K) :
    P × SchedulerState K :=
  loop c tolerance maxEpoch p (maxEpoch + 2) 0 none p.parameters p.memory rate s

/-- The loop over facets of `generate_fitted_surface_config` (lines 337-372). -/
def fitAll {P O : Type} (c : Option (Plateau K)) (rate tolerance : K) (maxEpoch : Nat) :
    SchedulerState K → List (Problem P O K) → List P
  | _, [] => []
  | s, p :: ps =>
    let r := fitOne c rate tolerance maxEpoch s p
    r.1 :: fitAll c rate tolerance maxEpoch r.2 ps

/-- The learning rates of consecutive epochs with the given losses: the rate used in each of them and the rate left at the end.  Source: `surface_generator.py` 194-221. -/
def rates (c : Plateau K) : SchedulerState K → K → List K → List K
  | _, rate, [] => [rate]
  | s, rate, l :: ls => rate :: rates c (schedule c s rate l).1 (schedule c s rate l).2 ls

end Artist.Fit
