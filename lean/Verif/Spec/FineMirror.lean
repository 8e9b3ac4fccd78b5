import Verif.Spec.MotorImage
import Verif.Spec.Resolution
import Verif.Model.Surfaces
import Mathlib.MeasureTheory.Integral.IntervalIntegral.Basic
/-!
Specification vocabulary for C121: mirrors as surfaces, not as lists of points.
-/
namespace Artist.FineMirror
open Artist Intersect Flux Splat Surfaces Resolution Transforms
noncomputable section

/-- Point and normal of a facet at the parameters `x` and `y`, canted and translated; zero if the evaluation raises. -/
def mirrorAt (p q : Nat) (f : Facet) (x y : ℝ) : Sample :=
  match sampleAt p q true f (x, y) with
  | .ok s => s
  | .error _ => (0, 0)

/-- The ray that leaves a point of a mirror with a given orientation if light comes from `incident` and is scattered by `d`. -/
def rayFrom (incident : Fin 4 → ℝ) (orientation : Mat) (d : ℝ × ℝ) (s : Sample) : V3 ℝ × V3 ℝ :=
  (⟨orientation.mulVec s.1 0, orientation.mulVec s.1 1, orientation.mulVec s.1 2⟩, direction incident (orientation.mulVec s.2) d.1 d.2)

/-- What a ray brings to the pixel in row `r` and column `c`: all of its light if it lands in the middle of the pixel, nothing if it lands a pixel or more away, and
linearly in between. -/
def brings (W H : Nat) (m ext refl : ℝ) (t : Plane ℝ) (r c : Nat) (ray : V3 ℝ × V3 ℝ) : ℝ :=
  arriving m ext refl t (fun _ => 0) ray * (tent (column W t (meets t ray).e - c) * tent (row H t (meets t ray).u - r))

/-- The mean over the parameters of a facet, as far as the program samples them. -/
def mean (g : ℝ → ℝ → ℝ) : ℝ := (∫ x in gridEps..1 - gridEps, ∫ y in gridEps..1 - gridEps, g x y) / (1 - 2 * gridEps) ^ 2

end
end Artist.FineMirror
