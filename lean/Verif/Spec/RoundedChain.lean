import Verif.Model.RoundedChain
import Verif.Spec.RoundedKinematics
import Verif.Spec.RoundedLanding
/-! Specification vocabulary for C131. -/
namespace Artist.RoundedChain
open Artist Transforms Kinematics Intersect RoundedRay RoundedKinematics RoundedLanding Matrix
noncomputable section

/-- Every sum adds up what it should. -/
structure Plans.Complete (P : Plans) : Prop where
  matrices : AllComplete P.matrices
  point : ∀ i, (P.point i).Complete
  normal : ∀ i, (P.normal i).Complete
  reflection : P.reflection.Complete
  scattering : ∀ i, (P.scattering i).Complete

/-- A ray from a heliostat of size `s` with a unit normal, at most `R` from the origin and with lever arms of at most `ρ`. -/
structure Ray.Regular (ε R ρ s : ℝ) (fcos fsin : ℝ → ℝ) (f : Fin 3 → ℝ) (x : Ray) : Prop where
  sized : Sized ε R ρ x.heliostat
  angles : Angles ε fcos fsin f x.heliostat x.first x.second
  scattering : Faithful ε fcos fsin x.e ∧ Faithful ε fcos fsin x.u
  point : x.point 3 = 1 ∧ length3 x.point ≤ s
  normal : x.normal 3 = 0 ∧ length3 x.normal = 1
  incident : AtMostUnit x.incident
  magnitude : 0 ≤ x.magnitude ∧ x.magnitude ≤ 1

/-- It arrives at a plane target: in a scene of size `r` that contains the heliostat, from the front, with a cosine of at least `κ`; `ε` is small against `κ`. -/
def Ray.Arrives (ε R ρ s r κ : ℝ) (p : Plane ℝ) (t : ℝ) (x : Ray) : Prop :=
  Arriving ε r κ x.start x.leave p t ∧ (s ≤ r ∧ R ≤ 2 * r ∧ ρ ≤ r) ∧ 200000 * ε ≤ κ

/-- How far rounding can move a ray on the plane of the target, in metres. -/
def reach (ε R ρ s r κ : ℝ) : ℝ := (1000 * s + 193 * R + 1760 * ρ + 577 + 5980 * r) * (ε / κ)

/-- The same in pixels. -/
def pixels (ε R ρ s r κ size : ℝ) (n : Nat) : ℝ := reach ε R ρ s r κ * (((n : ℝ) - 1) / size)

/-- It lands on the target, further from the edges than rounding can move it. -/
def Ray.Inside (ε R ρ s r κ : ℝ) (W H : Nat) (p : Plane ℝ) (t : ℝ) (x : Ray) : Prop :=
  (pixels ε R ρ s r κ p.width W < column W x.start x.leave p t ∧ column W x.start x.leave p t < (W : ℝ) - 1 - pixels ε R ρ s r κ p.width W) ∧
  (pixels ε R ρ s r κ p.height H < row H x.start x.leave p t ∧ row H x.start x.leave p t < (H : ℝ) - 1 - pixels ε R ρ s r κ p.height H)

/-- It passes beside the target, further from the edges than rounding can move it. -/
def Ray.Outside (ε R ρ s r κ : ℝ) (W H : Nat) (p : Plane ℝ) (t : ℝ) (x : Ray) : Prop :=
  column W x.start x.leave p t < -pixels ε R ρ s r κ p.width W ∨ (W : ℝ) - 1 + pixels ε R ρ s r κ p.width W < column W x.start x.leave p t ∨
  row H x.start x.leave p t < -pixels ε R ρ s r κ p.height H ∨ (H : ℝ) - 1 + pixels ε R ρ s r κ p.height H < row H x.start x.leave p t

end
end Artist.RoundedChain
