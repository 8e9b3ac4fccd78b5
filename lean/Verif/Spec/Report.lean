import Verif.Model.Report
import Verif.Spec.Env
/-! Specification vocabulary for the reported losses (C33, C52). -/
namespace Artist.Report
open Artist

/-- Number of active heliostats of a group. -/
def numberActive (mask : List Nat) : Nat := mask.countP (fun c => decide (c > 0))

/-- Position of heliostat `i` among the active heliostats of its group. -/
def activeBefore (mask : List Nat) (i : Nat) : Nat := numberActive (mask.take i)

/-- Rank `r` of `W` processes owns active heliostat number `h` (out of `a`) of group `g` (out of `G`): it works on the group, and its
share of the sampler contains the heliostat, when every heliostat has the samples `h * k, ..., h * k + k - 1`. -/
def Owns (W G : Nat) (r g a k h : Nat) : Prop :=
  r < W ∧ ∃ T n info inv, Env.setupInfo r W G = .ok (T, n, info, inv) ∧ Env.WorksOn T r g ∧
    ∀ j, j < k → h * k + j ∈ Sampler.rankIndices (a * k) a info.groupWorldSize info.groupRank

end Artist.Report
