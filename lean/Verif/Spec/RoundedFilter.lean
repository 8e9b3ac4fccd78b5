import Verif.Model.RoundedFilter
import Verif.Spec.LBVH
/-! Specification vocabulary for C104: when does a ray clear a box by more than a given margin? -/
namespace Artist.RoundedFilter
open Artist LBVH

/-- The coordinate of a vector along one of the three axes. -/
def comp (v : V3 ℝ) : Fin 3 → ℝ
  | 0 => v.e
  | 1 => v.n
  | 2 => v.u

/-- The moments at which the ray from `o` with velocity `d` passes the two planes that bound the box along axis `i`: the first … -/
noncomputable def enter (o d : V3 ℝ) (b : Box ℝ) (i : Fin 3) : ℝ :=
  min ((comp b.mn i - comp o i) / comp d i) ((comp b.mx i - comp o i) / comp d i)
/-- … and the second. -/
noncomputable def leave (o d : V3 ℝ) (b : Box ℝ) (i : Fin 3) : ℝ :=
  max ((comp b.mn i - comp o i) / comp d i) ((comp b.mx i - comp o i) / comp d i)

/-- A moment, later by the margin … -/
noncomputable def later (γ η t : ℝ) : ℝ := t + (γ * |t| + η)
/-- … or earlier by the margin. -/
noncomputable def earlier (γ η t : ℝ) : ℝ := t - (γ * |t| + η)

/-- The direction the code tests a ray with: `1e-12` is added to every component. -/
noncomputable def shifted (d : V3 ℝ) : V3 ℝ := ⟨d.e + 1 / 10 ^ 12, d.n + 1 / 10 ^ 12, d.u + 1 / 10 ^ 12⟩

/-- The ray passes the box, ahead of its origin and before the target, and does so by more than the margin.  Nothing is asked for the two planes of one axis, so that the box may be flat. -/
structure ClearHit (γ η : ℝ) (ray : Ray ℝ) (b : Box ℝ) : Prop where
  cross : ∀ i j, i ≠ j → later γ η (enter ray.origin (shifted ray.dir) b i) ≤ earlier γ η (leave ray.origin (shifted ray.dir) b j)
  ahead : ∀ j, later γ η (1 / 10 ^ 6) < earlier γ η (leave ray.origin (shifted ray.dir) b j)
  before : ∀ i, later γ η (enter ray.origin (shifted ray.dir) b i) ≤ ray.targetDistance

/-- The ray passes the box up to the margin. -/
structure NearHit (γ η : ℝ) (ray : Ray ℝ) (b : Box ℝ) : Prop where
  cross : ∀ i j, earlier γ η (enter ray.origin (shifted ray.dir) b i) ≤ later γ η (leave ray.origin (shifted ray.dir) b j)
  ahead : ∀ j, earlier γ η (1 / 10 ^ 6) < later γ η (leave ray.origin (shifted ray.dir) b j)
  before : ∀ i, earlier γ η (enter ray.origin (shifted ray.dir) b i) ≤ ray.targetDistance

/-- A ray given by numbers of the format, with a direction of length about one and no component within `1e-12` of cancelling the shift. -/
structure FloatRay (rnd : ℝ → ℝ) (ray : Ray ℝ) : Prop where
  origin : ∀ i, rnd (comp ray.origin i) = comp ray.origin i
  dir : ∀ i, rnd (comp ray.dir i) = comp ray.dir i
  size : ∀ i, |comp ray.dir i| ≤ 2
  apart : ∀ i, 1 / 10 ^ 12 ≤ |comp (shifted ray.dir) i|

/-- A box given by numbers of the format. -/
def FloatBox (rnd : ℝ → ℝ) (b : Box ℝ) : Prop := (∀ i, rnd (comp b.mn i) = comp b.mn i) ∧ ∀ i, rnd (comp b.mx i) = comp b.mx i

/-- A point given by numbers of the format with coordinates up to `B`. -/
def FloatPoint (rnd : ℝ → ℝ) (B : ℝ) (p : V3 ℝ) : Prop := ∀ i, rnd (comp p i) = comp p i ∧ |comp p i| ≤ B

/-- Testing every ray against the box of every primitive with the rounded test. -/
noncomputable def bruteForce (rnd : ℝ → ℝ) (boxes : List (Box ℝ)) (rays : List (Ray ℝ)) : List Nat :=
  (List.range boxes.length).filter (fun p =>
    rays.any (fun ray => decide (ray.owner ≠ p) && hits rnd ray (boxes.getD p zeroBox)))

end Artist.RoundedFilter
