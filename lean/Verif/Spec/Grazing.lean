import Verif.Model.SoftMask
import Mathlib.Topology.Instances.Real.Lemmas
/-! Specification vocabulary for C118: scenes that change with a parameter, and rays that only just meet a box. -/
namespace Artist.Grazing
open Artist LBVH SoftMask

/-- the four corners of a mirror -/
abbrev Corners := V3 ℝ × V3 ℝ × V3 ℝ × V3 ℝ

/-- The three coordinates follow the parameter without a jump. -/
def Smooth {X : Type} [TopologicalSpace X] (x₀ : X) (v : X → V3 ℝ) : Prop :=
  ContinuousAt (fun x => (v x).e) x₀ ∧ ContinuousAt (fun x => (v x).n) x₀ ∧ ContinuousAt (fun x => (v x).u) x₀

/-- The four corners of a mirror do. -/
def SmoothMirror {X : Type} [TopologicalSpace X] (x₀ : X) (c : X → Corners) : Prop :=
  (Smooth x₀ fun x => (c x).1) ∧ (Smooth x₀ fun x => (c x).2.1) ∧ (Smooth x₀ fun x => (c x).2.2.1) ∧ Smooth x₀ fun x => (c x).2.2.2

/-- A ray does, and it keeps its heliostat. -/
def SmoothRay {X : Type} [TopologicalSpace X] (x₀ : X) (r : X → BRay) : Prop :=
  (Smooth x₀ fun x => (r x).origin) ∧ (Smooth x₀ fun x => (r x).dir) ∧ ContinuousAt (fun x => (r x).targetDistance) x₀ ∧ ∀ x, (r x).owner = (r x₀).owner

/-- the distances at which the line of a ray, with its direction shifted by 1e-12 as in the filter, enters and leaves a box -/
noncomputable def passage (ray : BRay) (b : Box ℝ) : ℝ × ℝ :=
  rayAabb ray.origin ⟨1 / (ray.dir.e + 1 / 10 ^ 12), 1 / (ray.dir.n + 1 / 10 ^ 12), 1 / (ray.dir.u + 1 / 10 ^ 12)⟩ b

/-- A ray only just meets a box: it enters where it leaves, or it starts on the far side, or the target stands on the near side. -/
def Grazes (ray : BRay) (b : Box ℝ) : Prop :=
  (passage ray b).1 = (passage ray b).2 ∨ (passage ray b).2 = 1 / 10 ^ 6 ∨ (passage ray b).1 = ray.targetDistance

/-- the rectangle that blocks in place of a mirror -/
noncomputable def rectangle (c : Corners) : Rect := rectOfCorners c.1 c.2.1 c.2.2.1 c.2.2.2

end Artist.Grazing
