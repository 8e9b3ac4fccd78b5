import Verif.Model.Morton
/-! Specification vocabulary for Morton codes (C12, C13). -/
namespace Artist.Morton

/-- Do two codes agree on their `m` leading bits out of 30? -/
def AgreeOnPrefix (a b : BitVec 32) (m : Nat) : Prop := a.toNat >>> (30 - m) = b.toNat >>> (30 - m)

/-- A 30-bit code. -/
def Is30Bit (a : BitVec 32) : Prop := a.toNat < 2 ^ 30

end Artist.Morton
