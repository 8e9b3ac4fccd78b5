import Verif.Model.Py
import Mathlib.Analysis.SpecialFunctions.Sqrt
/-!
# Model of the optimiser steps of the surface reconstruction

`artist/optim/surface_reconstructor.py` 430-475 (Adam over the control points of the group), 749-788 (synchronisation and locking of the
gradients), 1053-1075 (order of the calls) and 1162-1224 (`lock_control_points_on_outer_edges`).  Adam is the published algorithm as
implemented by `torch.optim.Adam` with `weight_decay = 0`, `amsgrad = False`, over exact reals; `eps` is `1e-8` and the
second moment factor `0.999` by default.  The first moment factor is a parameter of every step, since the cyclic scheduler of
`artist/optim/training.py` 55-60 changes it (`cycle_momentum`).  The gradients are arbitrary.
-/
namespace Artist.Lock
noncomputable section

/-- Position in the control point tensor `[heliostat, facet, u, v, coordinate]`.  Source: `surface_reconstructor.py` 1162-1224. -/
structure Ix where
  heliostat : Nat
  facet : Nat
  u : Nat
  v : Nat
  coord : Nat
  deriving DecidableEq

/-- `edge_mask` (`surface_reconstructor.py` 1197-1213) for `height × width` control points. -/
def edge (height width : Nat) (x : Ix) : Bool :=
  decide (x.u = 0) || decide ((x.u : Int) = (height : Int) - 1) || decide (x.v = 0) || decide ((x.v : Int) = (width : Int) - 1)

/-- `lock_control_points_on_outer_edges` (lines 1193-1224): coordinates `: z_coordinates` (the first two) are zeroed where the mask holds. -/
def lock (height width : Nat) (gradients : Ix → ℝ) (x : Ix) : ℝ :=
  if x.coord < 2 then (if edge height width x then 0 else gradients x) else gradients x

/-- Gradient averaging over the processes of the group (lines 765-774): `all_reduce` with `SUM`, then division by the group world
size.  `ranks` are the gradients of the processes of the group. -/
def average (ranks : List (Ix → ℝ)) (x : Ix) : ℝ := (ranks.map (fun g => g x)).sum / (ranks.length : ℝ)

/-- `_synchronize_and_lock_gradients` (lines 749-788).  `own` is the gradient of this process. -/
def finalGradient (height width : Nat) (nested : Bool) (own : Ix → ℝ) (ranks : List (Ix → ℝ)) : Ix → ℝ :=
  lock height width (if nested then average ranks else own)

/-- State of Adam for every entry: parameter, first and second moment; `count` is the number of steps taken.  Source: `surface_reconstructor.py` 451-458. -/
structure Adam where
  count : Nat
  param : Ix → ℝ
  m : Ix → ℝ
  v : Ix → ℝ

/-- Fresh optimiser for given parameters (lines 452-455). -/
def Adam.init (param : Ix → ℝ) : Adam := ⟨0, param, fun _ => 0, fun _ => 0⟩

/-- Settings of one step: what the scheduler provides, and the gradients computed in that epoch.  Source: `surface_reconstructor.py` 1053-1075. -/
structure Epoch where
  lr : ℝ
  beta1 : ℝ
  own : Ix → ℝ
  ranks : List (Ix → ℝ)

/-- `torch.optim.Adam.step` for a given gradient.  As used in `surface_reconstructor.py` 1068. -/
def Adam.step (beta2 eps lr beta1 : ℝ) (g : Ix → ℝ) (s : Adam) : Adam :=
  let t := s.count + 1
  let m := fun x => s.m x + (1 - beta1) * (g x - s.m x)
  let v := fun x => beta2 * s.v x + (1 - beta2) * (g x) ^ 2
  { count := t
    param := fun x => s.param x - lr / (1 - beta1 ^ t) * (m x / (Real.sqrt (v x) / Real.sqrt (1 - beta2 ^ t) + eps))
    m := m
    v := v }

/-- One epoch of the loop (lines 1064-1075), without the parts that do not touch the control points. -/
def epochStep (height width : Nat) (nested : Bool) (beta2 eps : ℝ) (s : Adam) (e : Epoch) : Adam :=
  s.step beta2 eps e.lr e.beta1 (finalGradient height width nested e.own e.ranks)

/-- One reconstruction of a group: fresh optimiser, then any number of epochs.  Source: `surface_reconstructor.py` 928-1075. -/
def reconstruct (height width : Nat) (nested : Bool) (beta2 eps : ℝ) (param : Ix → ℝ) (epochs : List Epoch) : Ix → ℝ :=
  (epochs.foldl (epochStep height width nested beta2 eps) (Adam.init param)).param

/-- Several reconstructions one after the other.  No counterpart in the code: calls of `reconstruct_surfaces` one after the other. -/
def reconstructAll (height width : Nat) (nested : Bool) (beta2 eps : ℝ) (param : Ix → ℝ) (runs : List (List Epoch)) : Ix → ℝ :=
  runs.foldl (reconstruct height width nested beta2 eps) param

end
end Artist.Lock
