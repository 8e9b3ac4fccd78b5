import Verif.Model.Kinematics
import Verif.Model.Losses
import Verif.Model.Group
import Verif.Model.Report
/-!
# Model of the alignment-driven kinematics reconstruction loss (`artist/optim/kinematics_reconstructor.py` 421-535, 767-787)
-/
namespace Artist.AlignmentLoss
open Artist Matrix Kinematics Transforms

/-- The measured normal of one sample (`_compute_measured_normals`, lines 452-470): the bisector of the direction towards the sun and the
direction from the heliostat's *position* to the measured focal spot.  Both normalisations use the default `eps = 1e-12`. -/
noncomputable def measuredNormal (position focal incident : Fin 4 → ℝ) : Fin 4 → ℝ :=
  let r := normalizeEps (1 / 10 ^ 12) ![focal 0 - position 0, focal 1 - position 1, focal 2 - position 2]
  let d := normalizeEps (1 / 10 ^ 12) ![r 0 - incident 0, r 1 - incident 1, r 2 - incident 2]
  ![d 0, d 1, d 2, 0]

/-- One measurement: focal spot, incident ray direction and motor positions (one row of each tensor, lines 767-775). -/
structure Sample where
  focal : Fin 4 → ℝ
  incident : Fin 4 → ℝ
  motors : ℝ × ℝ

/-- `tensor.repeat_interleave(mask, dim=0)` for a mask without negative entries. -/
def repeatCounts {R : Type} (rows : List R) (mask : List Nat) : Except PyErr (List R) :=
  Group.repeatRows rows (mask.map Int.ofNat)

/-- `_compute_measured_normals` for a group (lines 452-470): positions repeated by the mask, combined row by row with the samples (row
counts that do not broadcast raise `RuntimeError`). -/
noncomputable def measuredNormals (heliostats : List Heliostat) (mask : List Nat) (samples : List Sample) :
    Except PyErr (List (Fin 4 → ℝ)) :=
  match repeatCounts (heliostats.map Heliostat.position) mask with
  | .error e => .error e
  | .ok positions => Report.pairLoss (fun s p => measuredNormal p s.focal s.incident) samples positions

/-- `torch.mean(dim=-1)` of one row (line 529). -/
noncomputable def mean (l : List ℝ) : ℝ := l.sum / l.length

/-- The predicted normal of one sample (lines 511-518). -/
noncomputable def predictedNormal (h : Heliostat) (motors : ℝ × ℝ) : Fin 4 → ℝ := h.motorToOrientation motors *ᵥ up

/-- The loss per heliostat of one group in one epoch (`train_test_split` and `_compute_measured_normals` at lines 767-787,
`_compute_alignment_loss` at lines 506-531; the loss of an epoch is the mean of these, line 533).  The heliostats are activated with the mask
of the training samples. -/
noncomputable def perHeliostat (testOf : Nat → Int) (loss : (Fin 4 → ℝ) → (Fin 4 → ℝ) → ℝ) (heliostats : List Heliostat)
    (mask : List Nat) (samples : List Sample) : Except PyErr (List ℝ) :=
  match Training.split testOf mask with
  | .error e => .error e
  | .ok s =>
    let trainIndices := s.trainIndices.map Int.toNat
    match Report.gather samples trainIndices with
    | .error e => .error e
    | .ok samplesTrain =>
      match measuredNormals heliostats mask samples with
      | .error e => .error e
      | .ok normals =>
        match repeatCounts heliostats (s.maskTrain.map Int.toNat) with
        | .error e => .error e
        | .ok active =>
          match Report.pairLoss (fun h (x : Sample) => predictedNormal h x.motors) active samplesTrain with
          | .error e => .error e
          | .ok predicted =>
            match Report.gather normals trainIndices with
            | .error e => .error e
            | .ok measured =>
              match Report.pairLoss loss predicted measured with
              | .error e => .error e
              | .ok losses => Report.reduceLoss mean (s.perHeliostat - s.numberOfTest) losses

/-- `AngleLoss.__call__` on one pair of 4D vectors (`artist/optim/loss.py` 457-459): the first three components. -/
noncomputable def angleLoss (prediction truth : Fin 4 → ℝ) : ℝ :=
  Losses.angle (1 / 10 ^ 12) ![prediction 0, prediction 1, prediction 2] ![truth 0, truth 1, truth 2]

end Artist.AlignmentLoss
