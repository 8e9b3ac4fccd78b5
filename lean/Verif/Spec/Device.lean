import Verif.Model.Device
/-! Specification vocabulary for C137. -/
namespace Artist.Device

/-- Where the tensors of a process are if it asks for a device: a GPU without a number is the one that the process has set. -/
def place (d : Dev) (current : Nat) : Kind × Nat :=
  (d.kind, if d.kind = .cuda then d.index.getD current else 0)

/-- The GPU that a started process computes on. -/
def Started.gpu (s : Started) : Nat := (place s.device s.current).2

/-- A computer on which a GPU is chosen if no device is given. -/
def Computer.HasGpus (c : Computer) : Prop := (c.os = "Linux" ∨ c.os = "Windows") ∧ c.available = true ∧ 0 < c.count

/-- The process with rank `r` of `w` joins its group. -/
def joining (r w : Nat) : Backend → Option (Nat × Nat) := fun _ => some (r, w)

end Artist.Device
