import Verif.Proofs.LBVHFilter
import Mathlib.Order.WellFounded
import Mathlib.Data.Fintype.Lattice
import Mathlib.Data.Fintype.EquivFin
/-! Helper lemmas: a child table either has a cycle below the root or its reachable part is ranked. -/
namespace Artist.LBVH
open Artist Artist.Morton

variable {left right : List Int}

/-- There is a node below the root from which a path of at least one link leads back to it. -/
def HasCycle (left right : List Int) : Prop := ∃ a k m, Path left right 0 a k ∧ Path left right a a (m + 1)

def Reach (left right : List Int) (x : Nat) : Prop := ∃ k, Path left right 0 x k

theorem reach_child {a c : Nat} (h : Reach left right a) (hc : IsChild left right a c) : Reach left right c := by
  obtain ⟨k, hk⟩ := h
  exact ⟨k + 1, hk.snoc hc⟩

theorem path_bounded {N : Nat} (wf : WF left right N) (hN : 0 < N) (hno : ¬ HasCycle left right) (x : Nat) (hx : Reach left right x) (hxN : x < N) :
    ∃ B, ∀ y k, Path left right x y k → k ≤ B := by
  let R : Fin N → Fin N → Prop := fun c a => Reach left right a ∧ IsChild left right a c
  have hpath : ∀ c a : Fin N, Relation.TransGen R c a → Reach left right a ∧ ∃ m, Path left right a c (m + 1) := by
    intro c a h
    induction h with
    | single h => exact ⟨h.1, 0, Path.step h.2 (Path.refl _)⟩
    | tail _ h2 ih =>
      obtain ⟨m, hm⟩ := ih.2
      exact ⟨h2.1, m + 1, Path.step h2.2 hm⟩
  haveI : Std.Irrefl (Relation.TransGen R) := ⟨by
    intro a h
    obtain ⟨⟨k, hk⟩, m, hm⟩ := hpath a a h
    exact hno ⟨a, k, m, hk, hm⟩⟩
  have hwf : WellFounded (Relation.TransGen R) := Finite.wellFounded_of_trans_of_irrefl _
  have key : ∀ z : Fin N, Reach left right z → ∃ B, ∀ y k, Path left right z y k → k ≤ B := by
    intro z
    induction z using hwf.induction with
    | _ z ih =>
      intro hz
      have : ∀ c : Fin N, ∃ B, IsChild left right z c → ∀ y k, Path left right c y k → k ≤ B := by
        intro c
        by_cases hc : IsChild left right z c
        · obtain ⟨B, hB⟩ := ih c (Relation.TransGen.single ⟨hz, hc⟩) (reach_child hz hc)
          exact ⟨B, fun _ => hB⟩
        · exact ⟨0, fun h => absurd h hc⟩
      choose B hB using this
      refine ⟨Finset.univ.sup B + 1, ?_⟩
      intro y k hp
      rcases path_cases hp with ⟨_, rfl⟩ | ⟨c, m, hc, hp', rfl⟩
      · omega
      · have hcN := wf.bound _ _ hc
        have h1 := hB ⟨c, hcN⟩ hc y m hp'
        have h2 : B ⟨c, hcN⟩ ≤ Finset.univ.sup B := Finset.le_sup (Finset.mem_univ _)
        omega
  exact key ⟨x, hxN⟩ hx

/-- Without a cycle below the root the reachable nodes are ranked. -/
theorem ranked_of_no_cycle {N : Nat} (wf : WF left right N) (hN : 0 < N) (hno : ¬ HasCycle left right) :
    ∃ ρ, RankedOn left right N (Reach left right) ρ := by
  classical
  have reach_lt : ∀ x, Reach left right x → x < N := by
    rintro x ⟨k, hk⟩
    have : ∀ a b k, Path left right a b k → a < N → b < N := by
      intro a b k h
      induction h with
      | refl => exact id
      | step h1 _ ih => intro _; exact ih (wf.bound _ _ h1)
    exact this 0 x k hk hN
  have hb := fun x hx => path_bounded wf hN hno x hx (reach_lt x hx)
  refine ⟨fun x => if h : ∃ B, ∀ y k, Path left right x y k → k ≤ B then Nat.find h else 0, reach_lt, fun a c h hc => reach_child h hc, ?_⟩
  intro a c ha hc
  have h1 := hb a ha
  have h2 := hb c (reach_child ha hc)
  simp only [dif_pos h1, dif_pos h2]
  have s1 := Nat.find_spec h1
  have hpos := s1 c 1 (Path.step hc (Path.refl _))
  have : Nat.find h2 ≤ Nat.find h1 - 1 := by
    apply Nat.find_min'
    intro y k hp
    have := s1 y (k + 1) (Path.step hc hp)
    omega
  omega

end Artist.LBVH
