import Verif.Spec.RoundedChain
/-! Specification vocabulary for C133. -/
namespace Artist.RoundedChain
open Artist Intersect RoundedRay RoundedLanding
noncomputable section

/-- A ray for which rounding cannot decide whether it counts: it comes from behind, lands on the target or passes beside it, each by more than rounding can change. -/
def Ray.Clear (ε R ρ s r κ : ℝ) (W H : Nat) (p : Plane ℝ) (x : Ray) : Prop :=
  V3.normSq p.normal ≤ 101 / 100 ∧ 3860 * ε ≤ V3.dot x.leave p.normal ∨
  ∃ t, x.Arrives ε R ρ s r κ p t ∧ (x.Inside ε R ρ s r κ W H p t ∨ x.Outside ε R ρ s r κ W H p t)

end
end Artist.RoundedChain
