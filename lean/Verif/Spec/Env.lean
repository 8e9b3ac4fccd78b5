import Verif.Model.Env
/-! Specification vocabulary for the distributed environment (C01-C03). -/
namespace Artist.Env

/-- Rank `r` works on group `g` in the table. -/
def WorksOn (table : List (List Nat)) (r g : Nat) : Prop := ∃ gs, table[r]? = some gs ∧ g ∈ gs

/-- How many ranks hold group `g`. -/
def ranksPerGroup (table : List (List Nat)) (g : Nat) : Nat := table.countP (fun gs => decide (g ∈ gs))

/-- Every exception derives from `Exception` (no `KeyboardInterrupt`/`SystemExit` during clean-up). -/
def OrdinaryCleanup (f : Faults) : Prop := ∀ e, f.destroy = some e → e.isException = true

/-- Set-up itself succeeded as far as the code outside the `try` is concerned. -/
def SetupSucceeds (f : Faults) : Prop :=
  f.getDevice = none ∧ f.cuda = none ∧ f.distribute = none ∧ f.subgroups = none ∧
  (∀ e, f.initGroup = some e → e.isException = true) ∧ (∀ e, f.query = some e → e.isException = true)

end Artist.Env
