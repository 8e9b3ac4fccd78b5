import Verif.Spec.MotorImage
import Verif.Model.Surfaces
/-! Specification vocabulary for C109: mirrors whose control points change with a parameter `x`. -/
namespace Artist.SurfaceImage
open Artist Surfaces

variable {X : Type}

/-- All control points vary as `P` says (for example continuously); numbers of control points and the placing of the facet are kept. -/
structure Bends (P : (X → ℝ) → Prop) (f : X → Facet) : Prop where
  nu : ∀ x y, (f x).net.nu = (f y).net.nu
  nv : ∀ x y, (f x).net.nv = (f y).net.nv
  translation : ∀ x y, (f x).translation = (f y).translation
  cantE : ∀ x y, (f x).cantE = (f y).cantE
  cantN : ∀ x y, (f x).cantN = (f y).cantN
  points : ∀ i j c, P fun x => (f x).net.at' i j c

/-- A facet one of whose control points is lifted by `ε`. -/
noncomputable def lift (i₀ j₀ : Nat) (ε : ℝ) (f : Facet) : Facet :=
  { f with net := ⟨f.net.nu, f.net.nv, fun i j c => f.net.at' i j c + if i = i₀ ∧ j = j₀ ∧ c = 2 then ε else 0⟩ }

end Artist.SurfaceImage
