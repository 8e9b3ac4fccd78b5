import Verif.Model.Blockers
/-! Specification vocabulary for blocking surfaces (C87). -/
namespace Artist.Blockers
open Artist

variable {P : Type}

/-- A group as it is loaded: one position and a surface of `c` points for every heliostat. -/
def Loaded (c : Nat) (g : Group P) : Prop :=
  g.surfaces ≠ [] ∧ g.positions.length = g.surfaces.length ∧ ∀ s ∈ g.surfaces, s.length = c

/-- The mask has an entry 0 or 1 for every heliostat, and there is one active row of `c` points for every entry 1. -/
def Masked (c : Nat) (g : Group P) : Prop :=
  g.mask.length = g.surfaces.length ∧ (∀ m ∈ g.mask, m ≤ 1) ∧ (g.mask.sum ≠ 0 → g.active.length = g.mask.sum ∧ ∀ s ∈ g.active, s.length = c)

/-- Number of heliostats in the groups before group `k`. -/
def before (field : List (Group P)) (k : Nat) : Nat := ((field.take k).map fun g => g.surfaces.length).sum

/-- The lying mirror `i` of a group at its position. -/
def lying [Add P] (g : Group P) (i : Nat) : Option (List P) :=
  match g.surfaces[i]?, g.positions[i]? with
  | some s, some p => some (s.map (· + p))
  | _, _ => none

/-- One task for every group: a mask with an entry 0 or 1 for every heliostat, and the motions of the active rows. -/
def Fits (field : List (Group P)) (tasks : List (List Nat × (Nat → P → P))) : Prop :=
  tasks.length = field.length ∧ ∀ (k : Nat) (g : Group P) (t : List Nat × (Nat → P → P)), field[k]? = some g → tasks[k]? = some t →
    t.1.length = g.surfaces.length ∧ ∀ m ∈ t.1, m ≤ 1

end Artist.Blockers
