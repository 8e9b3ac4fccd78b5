import Verif.Model.Report
import Mathlib.Analysis.Complex.Trigonometric
/-!
# Model of the aim point optimisation and of the Augmented-Lagrangian constraints

`artist/optim/aim_point_optimizer.py` 223-242, 383-392, 606-679, 811-821, 866-906 and
`artist/optim/surface_reconstructor.py` 593-654 and 1056-1061.  Arithmetic is exact.
-/
namespace Artist.Aim
open Artist

/-! ## Reparameterised motor positions -/

/-- One entry of the reparameterisation scales (`aim_point_optimizer.py` 238-242):
`torch.minimum(initial - minimum, maximum - initial).clamp(min=1.0)`. -/
noncomputable def scale (lowest highest initial : ℝ) : ℝ := max (min (initial - lowest) (highest - initial)) 1

/-- The motor position applied for an optimisation parameter (`aim_point_optimizer.py` 384-392), one entry. -/
noncomputable def motor (lowest highest initial parameter : ℝ) : ℝ :=
  initial + Real.tanh parameter * scale lowest highest initial

/-! ## Constraints -/
section
variable {K : Type} [Field K] [LinearOrder K] [IsStrictOrderedRing K]

/-- `torch.clamp(x, min=0.0)`. -/
def clamp0 (x : K) : K := max x 0

/-- `tensor.mean()`; the mean of an empty tensor is `NaN`, so statements are about non-empty lists.  As used in `aim_point_optimizer.py` 635. -/
def mean (l : List K) : K := l.sum / (l.length : K)

/-- `torch.max` of a non-empty tensor, given by its first and its other entries.  As used in `aim_point_optimizer.py` 643. -/
def maxOf (x : K) (xs : List K) : K := xs.foldl max x

/-- `lambda * clamped + 0.5 * rho * clamped**2` for an already clamped violation
(`aim_point_optimizer.py` 619-622, 632-635, 643-646; `surface_reconstructor.py` 646-649). -/
def penalty (lam rho clamped : K) : K := lam * clamped + 1 / 2 * rho * clamped ^ 2

/-- Multipliers or penalty parameters of the three constraints (`aim_point_optimizer.py` 813-818). -/
structure Weights (K : Type) where
  localFlux : K
  fluxIntegral : K
  intercept : K
  deriving DecidableEq, Repr

/-- What one epoch delivers: the flux loss, the pixels of the total flux (at least one) and the intercept factors per heliostat.  Source: `aim_point_optimizer.py` 515-521 and 606-643. -/
structure Epoch (K : Type) where
  fluxLoss : K
  firstPixel : K
  pixels : List K
  factors : List K

/-- `total_flux.sum()`.  Source: `aim_point_optimizer.py` 608-613. -/
def Epoch.integral (e : Epoch K) : K := e.firstPixel + e.pixels.sum

/-- State carried from epoch to epoch: references of epoch 0 and multipliers. -/
structure State (K : Type) where
  integralReference : K
  factorsReference : List K
  multipliers : Weights K

/-- The values returned for one epoch: total loss and the three terms.  Source: `aim_point_optimizer.py` 644-679. -/
structure Terms (K : Type) where
  loss : K
  fluxIntegral : K
  intercept : K
  localFlux : K
  deriving DecidableEq, Repr

/-- References: those of the first epoch, afterwards unchanged (`aim_point_optimizer.py` 607-609). -/
def references (first : Bool) (s : State K) (e : Epoch K) : State K :=
  if first then { s with integralReference := e.integral, factorsReference := e.factors } else s

/-- `flux_integral_difference` (lines 613-615). -/
def integralDifference (eps : K) (s : State K) (e : Epoch K) : K :=
  (s.integralReference - e.integral) / (s.integralReference + eps)

/-- `intercept_factors_differences` (lines 626-628), per heliostat. -/
def factorDifferences (eps : K) (s : State K) (e : Epoch K) : List K :=
  List.zipWith (fun r f => (r - f) / (r + eps)) s.factorsReference e.factors

/-- `local_flux_violation` (lines 639-641) of one pixel. -/
def pixelViolation (eps limit pixel : K) : K := (pixel - limit) / (limit + eps)

/-- `_compute_kl_constraints` (lines 606-679).  The multipliers are updated with the unclamped violations. -/
def epoch (eps limit : K) (rho : Weights K) (first : Bool) (s : State K) (e : Epoch K) : Terms K × State K :=
  let s := references first s e
  let d := integralDifference eps s e
  let fluxIntegral := penalty s.multipliers.fluxIntegral rho.fluxIntegral (clamp0 d)
  let ds := factorDifferences eps s e
  let intercept := mean (ds.map (fun d => penalty s.multipliers.intercept rho.intercept (clamp0 d)))
  let v := pixelViolation eps limit
  let term := fun p => penalty s.multipliers.localFlux rho.localFlux (clamp0 (v p))
  let localFlux := maxOf (term e.firstPixel) (e.pixels.map term)
  let loss := e.fluxLoss + fluxIntegral + intercept + localFlux
  (⟨loss, fluxIntegral, intercept, localFlux⟩,
    { s with multipliers :=
        { localFlux := clamp0 (s.multipliers.localFlux + rho.localFlux * maxOf (v e.firstPixel) (e.pixels.map v))
          intercept := clamp0 (s.multipliers.intercept + rho.intercept * mean ds)
          fluxIntegral := clamp0 (s.multipliers.fluxIntegral + rho.fluxIntegral * d) } })

/-- Before the first epoch (lines 811-815). -/
def initial : State K := ⟨0, [], ⟨0, 0, 0⟩⟩

/-- The states and terms along a history of epochs; `first` tells whether the next epoch is epoch 0. -/
def run (eps limit : K) (rho : Weights K) : Bool → State K → List (Epoch K) → List (Terms K × State K)
  | _, _, [] => []
  | first, s, e :: es =>
    let r := epoch eps limit rho first s e
    r :: run eps limit rho false r.2 es

/-! ## Surface reconstruction -/

/-- `flux_constraint_per_sample` (`surface_reconstructor.py` 631-640) for the flux integral of one sample. -/
def sampleConstraint (eps tolerance reference integral : K) : K :=
  clamp0 (-tolerance - (integral - reference) / (reference + eps))

/-- `_compute_flux_integral_constraint` and the multiplier update (`surface_reconstructor.py` 631-654 and 1056-1061): constraint terms
and new multipliers per heliostat.  `samples` is the number of training samples per heliostat, `multipliers` has one entry per
heliostat (initially the scalar 0.0, i.e. zeros). -/
def surfaceConstraint (eps tolerance rho : K) (samples : Nat) (references multipliers integrals : List K) :
    Except PyErr (List K × List K) :=
  match Report.reduceLoss mean samples (List.zipWith (sampleConstraint eps tolerance) references integrals) with
  | .error e => .error e
  | .ok perHeliostat =>
    .ok (List.zipWith (fun l c => penalty l rho c) multipliers perHeliostat,
         List.zipWith (fun l c => clamp0 (l + rho * c)) multipliers perHeliostat)

/-- The multipliers after each epoch of a history of flux integrals.  Source: `surface_reconstructor.py` 1056-1061 inside the loop 967-1124. -/
def surfaceRun (eps tolerance rho : K) (samples : Nat) (references : List K) :
    List K → List (List K) → Except PyErr (List (List K × List K))
  | _, [] => .ok []
  | multipliers, integrals :: rest =>
    match surfaceConstraint eps tolerance rho samples references multipliers integrals with
    | .error e => .error e
    | .ok r =>
      match surfaceRun eps tolerance rho samples references r.2 rest with
      | .error e => .error e
      | .ok rs => .ok (r :: rs)
end

/-! ## Accepted losses -/

/-- A tensor that `backward` may be called on: value (`none` is infinity) and whether it is part of a graph.  Source: `aim_point_optimizer.py` 866-906. -/
structure LossTensor (K : Type) where
  value : Option K
  requiresGrad : Bool

/-- The loss of one epoch (`aim_point_optimizer.py` 832 and 866-906): the variable `loss` is only assigned for a KL-divergence loss, and
`backward` on a tensor outside of any graph raises `RuntimeError`. -/
def backward {K : Type} (isKL : Bool) (previous : LossTensor K) (total : K) : Except PyErr (LossTensor K) :=
  let loss := if isKL then ⟨some total, true⟩ else previous
  if loss.requiresGrad then .ok loss else .error .runtimeError

/-- The loop of `optimize` (lines 832-951) without early stopping: losses of the executed epochs.  `fuel` bounds the number of epochs. -/
def optimizeLosses {K : Type} [LinearOrder K] (isKL : Bool) (tolerance : K) (maxEpoch : Nat) (totals : Nat → K) :
    Nat → Nat → LossTensor K → Except PyErr (List (Option K))
  | 0, _, _ => .ok []
  | fuel + 1, epoch, loss =>
    if (match loss.value with | none => true | some l => decide (l > tolerance)) && decide (epoch ≤ maxEpoch) then
      match backward isKL loss (totals epoch) with
      | .error e => .error e
      | .ok loss =>
        match optimizeLosses isKL tolerance maxEpoch totals fuel (epoch + 1) loss with
        | .error e => .error e
        | .ok ls => .ok (loss.value :: ls)
    else .ok []

end Artist.Aim
