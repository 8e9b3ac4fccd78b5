import Verif.Spec.Rigid
/-! Specification for C69. -/
namespace Artist.AlignmentLoss
open Artist Matrix

/-- Unit direction from the point `a` to the point `b`. -/
noncomputable def direction (a b : Fin 4 → ℝ) : Fin 4 → ℝ :=
  let v : Fin 4 → ℝ := ![b 0 - a 0, b 1 - a 1, b 2 - a 2, 0]
  (length3 v)⁻¹ • v

/-- The rows whose mask entry is positive, in order. -/
def activeRows {R : Type} (rows : List R) (mask : List Nat) : List R :=
  ((rows.zip mask).filter (fun p => decide (0 < p.2))).map Prod.fst
end Artist.AlignmentLoss
