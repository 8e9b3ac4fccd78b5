import Verif.Model.Group
import Verif.Model.Loop
/-!
# Model of training and validation on one heliostat group

`artist/optim/surface_reconstructor.py` 157-303, 476-620 and 967-1124, `artist/optim/kinematics_reconstructor.py` 184-295, 472-622, 806-860 and 976-1027.

Training epochs and validations activate, align and trace the heliostats of the same group object, one after the other.  What is computed from the active tensors (surfaces,
alignment, tracing, losses, gradients) is arbitrary; the order of the calls and what they leave in the group is modelled.  Random numbers are not part of the state: distortions are
drawn anew from a fixed seed by every ray tracer (see C74).
-/
namespace Artist.Validation
open Artist Artist.Group Artist.Training Artist.Loop
variable {R K O T : Type}

/-- One reconstruction: the masks of the two splits; the values that surface evaluation and alignment write into the active tensors (`surface_reconstructor.py` 218-236 and 534-554,
`kinematics_reconstructor.py` 219-223 and 573-577); the training loss and the test losses computed from the active tensors; the update of optimiser state and full tensors
(`optimizer.step()`), with gradients that depend on the active tensors. -/
structure Job (R K O T : Type) where
  trainMask : List Int
  testMask : List Int
  trainWrites : Tensors R → Tensors R
  testWrites : Tensors R → Tensors R
  loss : Tensors R → K
  measure : Tensors R → T
  update : O → Tensors R → Tensors R → O × Tensors R

/-- Surface evaluation and alignment assign active surface points, normals (`surface_reconstructor.py` 218-227 and 534-543, `heliostat_group_rigid_body.py` 217-222 and 265-270) and
motor positions (`kinematics_rigid_body.py` 632). -/
def overwrite (new old : Tensors R) : Tensors R := fun q =>
  match q with
  | .surfacePoints => new q
  | .surfaceNormals => new q
  | .motorPositions => new q
  | _ => old q

/-- Computation of the training loss, and the update (`surface_reconstructor.py` 509-554 and 970-1063, `kinematics_reconstructor.py` 506-533, 568-622, 812-834 and 982-1001). -/
def epoch (j : Job R K O T) (g : State R) (opt : O) : Except PyErr (K × State R × O) :=
  match activate g (some j.trainMask) with
  | (.error e, _) => .error e
  | (.ok (), g) =>
    let active := overwrite (j.trainWrites g.active) g.active
    let u := j.update opt active g.full
    .ok (j.loss active, { g with active := active, full := u.2 }, u.1)

/-- `_validate` (`surface_reconstructor.py` 197-303, `kinematics_reconstructor.py` 214-295). -/
def validate (j : Job R K O T) (g : State R) : Except PyErr (T × State R) :=
  match activate g (some j.testMask) with
  | (.error e, _) => .error e
  | (.ok (), g) =>
    let active := overwrite (j.testWrites g.active) g.active
    .ok (j.measure active, { g with active := active })

/-- What a reconstruction leaves.  Source: `surface_reconstructor.py` 967-1124, `kinematics_reconstructor.py` 806-860 and 976-1027. -/
structure Final (R K O T : Type) where
  outcome : Outcome K
  group : State R
  optimiser : O
  reported : Option K
  measured : Option T

variable [Field K] [LinearOrder K] [IsStrictOrderedRing K]

/-- The loop of the reconstructions (see `Loop.reconstructLoop`) on the group.  Source: `surface_reconstructor.py` 967-1124, `kinematics_reconstructor.py` 806-860 and 976-1027. -/
def loop (j : Job R K O T) (o : Options K) (c : Config K) :
    Nat → Nat → Option K → Stopper K → Outcome K → State R → O → Option T → Option (Except PyErr (Final R K O T))
  | 0, _, _, _, _, _, _, _ => none
  | fuel + 1, e, loss, stopper, out, g, opt, test =>
    if above o.tolerance loss && decide (e ≤ o.maxEpoch) then
      match epoch j g opt with
      | .error err => some (.error err)
      | .ok (loss, g, opt) =>
        let out := { out with steps := out.steps + 1 }
        match step c stopper loss with
        | .error err => some (.error err)
        | .ok (stop, stopper) =>
          if effectiveLogStep o = 0 then some (.error .zeroDivision)
          else
            let isLast := decide ((e : Int) = (o.maxEpoch : Int) - 1)
            if decide (e % effectiveLogStep o = 0) || isLast || stop then
              match validate j g with
              | .error err => some (.error err)
              | .ok (t, g) =>
                let out := { out with logged := out.logged ++ [e] }
                if stop then some (.ok ⟨{ out with stopped := true }, g, opt, some loss, some t⟩)
                else loop j o c fuel (e + 1) (some loss) stopper { out with history := out.history ++ [loss] } g opt (some t)
            else loop j o c fuel (e + 1) (some loss) stopper { out with history := out.history ++ [loss] } g opt test
    else some (.ok ⟨out, g, opt, loss, test⟩)

/-- A whole reconstruction of one group.  Source: `surface_reconstructor.py` 893-1150, `kinematics_reconstructor.py` 754-880 and 933-1050. -/
def reconstruct (j : Job R K O T) (o : Options K) (c : Config K) (g : State R) (opt : O) : Option (Except PyErr (Final R K O T)) :=
  loop j o c (o.maxEpoch + 2) 0 none fresh start g opt none

end Artist.Validation
