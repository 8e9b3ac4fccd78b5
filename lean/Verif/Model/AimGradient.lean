import Verif.Model.Aim
/-!
# Model of the epochs of the aim point optimisation with their gradients

`artist/optim/aim_point_optimizer.py` 832-951 with 606-679, and `artist/raytracing/heliostat_ray_tracer.py` 496-506.

The flux depends on the parameters in a way that is differentiated (`pixels`).  The intercept factors are numbers of rays that satisfy a comparison
(`(intensities > 0).sum(...) / number_of_rays_per_heliostat`, `heliostat_ray_tracer.py` 504-506); tensors made by a comparison do not belong to the
graph, so for `backward` they are constants.  References and multipliers are detached or computed without gradients (`aim_point_optimizer.py` 608-609, 655).
`grad f x` stands for what `backward` leaves in the parameters for the function `f` at `x`.
-/
namespace Artist.AimGradient
open Artist Aim

/-- How an epoch sees the plant: the pixels of the flux (the first and the others) and the intercept factors for given parameters, and the flux loss of a flux.
Source: `aim_point_optimizer.py` 846-877. -/
structure Plant (K P : Type) where
  firstPixel : P → K
  pixels : P → List K
  factors : P → List K
  fluxLoss : K → List K → K

section
variable {K P G O : Type} [Field K] [LinearOrder K]

/-- What `_compute_kl_constraints` gets (`aim_point_optimizer.py` 890-904): flux for the parameters `y`, intercept factors for the parameters `x`. -/
def Plant.epoch (p : Plant K P) (x y : P) : Epoch K :=
  ⟨p.fluxLoss (p.firstPixel y) (p.pixels y), p.firstPixel y, p.pixels y, p.factors x⟩

/-- The total loss as `backward` differentiates it at the parameters `x` (`aim_point_optimizer.py` 606-653, 906): references and intercept factors are constants. -/
def graph (eps limit : K) (rho : Weights K) (first : Bool) (s : State K) (p : Plant K P) (x y : P) : K :=
  (Aim.epoch eps limit rho false (references first s (p.epoch x x)) (p.epoch x y)).1.loss

/-- State of the loop: epoch 0 or not, references and multipliers, the state of optimiser and scheduler, the parameters, the losses so far.  Source: `aim_point_optimizer.py` 811-833. -/
structure Run (K P O : Type) where
  first : Bool
  state : State K
  optimiser : O
  parameters : P
  losses : List K

/-- One epoch (`aim_point_optimizer.py` 843-951): loss, gradient, `optimizer.step()` and `scheduler.step(...)` (together `update`, which gets the loss because `ReduceLROnPlateau`
does). -/
def step (eps limit : K) (rho : Weights K) (p : Plant K P) (grad : (P → K) → P → G) (update : O → K → G → P → O × P) (r : Run K P O) : Run K P O :=
  let x := r.parameters
  let result := Aim.epoch eps limit rho r.first r.state (p.epoch x x)
  let next := update r.optimiser result.1.loss (grad (graph eps limit rho r.first r.state p x) x) x
  ⟨false, result.2, next.1, next.2, r.losses ++ [result.1.loss]⟩

/-- The loop (839-951): `continues` decides from the losses so far whether another epoch is executed (tolerance, epoch limit, early stopping); the
parameters with which the flux was computed in every epoch.  `fuel` bounds the number of epochs. -/
def train (eps limit : K) (rho : Weights K) (p : Plant K P) (grad : (P → K) → P → G) (update : O → K → G → P → O × P) (continues : List K → Bool) :
    Nat → Run K P O → List P
  | 0, _ => []
  | fuel + 1, r =>
    if continues r.losses then r.parameters :: train eps limit rho p grad update continues fuel (step eps limit rho p grad update r) else []
end

end Artist.AimGradient
