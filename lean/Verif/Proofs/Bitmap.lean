import Verif.Model.Bitmap
import Mathlib.Tactic.Linarith
import Mathlib.Tactic.Positivity
import Mathlib.Tactic.FieldSimp
import Mathlib.Tactic.Ring
import Mathlib.Tactic.NormNum
import Mathlib.Algebra.Order.BigOperators.Ring.Finset
import Mathlib.Algebra.BigOperators.Field
/-! Helper lemmas for C39, C49 and C50. -/
namespace Artist.Bitmap
open Artist Finset
variable {K : Type} [Field K] [LinearOrder K] [IsStrictOrderedRing K]

/-- Weighted sum over an image. -/
def moment (W H : Nat) (img : Nat → Nat → K) (f : Nat → Nat → K) : K := ∑ r ∈ range H, ∑ c ∈ range W, f r c * img r c

theorem centerOfMass_eq (eps : K) (W H : Nat) (img : Nat → Nat → K) :
    centerOfMass eps W H img =
      (moment W H img (fun _ c => (c : K)) / (moment W H img (fun _ _ => 1) + eps),
       moment W H img (fun r _ => (r : K)) / (moment W H img (fun _ _ => 1) + eps)) := by
  have key : ∀ (f : Nat → Nat → K) (t : K), ∑ r ∈ range H, ∑ c ∈ range W, f r c * (img r c / t) = moment W H img f / t := by
    intro f t
    unfold moment
    rw [Finset.sum_div]
    apply Finset.sum_congr rfl; intro r _
    rw [Finset.sum_div]
    apply Finset.sum_congr rfl; intro c _
    rw [mul_div_assoc]
  have ht : ∑ r ∈ range H, ∑ c ∈ range W, img r c = moment W H img (fun _ _ => 1) := by
    unfold moment; simp
  unfold centerOfMass
  simp only [ht]
  rw [key (fun _ c => (c : K)), key (fun r _ => (r : K))]

theorem moment_nonneg (W H : Nat) (img f : Nat → Nat → K) (hi : ∀ r c, r < H → c < W → 0 ≤ img r c)
    (hf : ∀ r c, r < H → c < W → 0 ≤ f r c) : 0 ≤ moment W H img f := by
  unfold moment
  apply Finset.sum_nonneg; intro r hr
  apply Finset.sum_nonneg; intro c hc
  rw [Finset.mem_range] at hr hc
  exact mul_nonneg (hf r c hr hc) (hi r c hr hc)

theorem moment_le (W H : Nat) (img f : Nat → Nat → K) (b : K) (hi : ∀ r c, r < H → c < W → 0 ≤ img r c)
    (hf : ∀ r c, r < H → c < W → f r c ≤ b) : moment W H img f ≤ b * moment W H img (fun _ _ => 1) := by
  unfold moment
  rw [Finset.mul_sum]
  apply Finset.sum_le_sum; intro r hr
  rw [Finset.mul_sum]
  apply Finset.sum_le_sum; intro c hc
  rw [Finset.mem_range] at hr hc
  rw [one_mul]
  exact mul_le_mul_of_nonneg_right (hf r c hr hc) (hi r c hr hc)

theorem moment_smul (W H : Nat) (img f : Nat → Nat → K) (k : K) :
    moment W H (fun r c => k * img r c) f = k * moment W H img f := by
  unfold moment
  rw [Finset.mul_sum]
  apply Finset.sum_congr rfl; intro r _
  rw [Finset.mul_sum]
  apply Finset.sum_congr rfl; intro c _
  ring

theorem cast_le_pred (c W : Nat) (h : c < W) : (c : K) ≤ (W : K) - 1 := by
  have : ((c + 1 : Nat) : K) ≤ (W : K) := by exact_mod_cast h
  push_cast at this; linarith

/-- A quotient `x / (m + eps)` with `0 ≤ x ≤ b·m` is at most `b·eps/(m + eps)` below `x / m`. -/
theorem shrink (x m eps b : K) (hm : 0 < m) (he : 0 < eps) (hx0 : 0 ≤ x) (hx : x ≤ b * m) :
    x / (m + eps) ≤ x / m ∧ x / m - x / (m + eps) ≤ b * eps / (m + eps) := by
  have hme : 0 < m + eps := by linarith
  constructor
  · exact div_le_div_of_nonneg_left hx0 hm (by linarith)
  · have : x / m - x / (m + eps) = (x / m) * eps / (m + eps) := by field_simp; ring
    rw [this]
    apply div_le_div_of_nonneg_right _ hme.le
    exact mul_le_mul_of_nonneg_right ((div_le_iff₀ hm).2 hx) he.le

theorem minimum_le (x : K) (xs : List K) : minimum x xs ≤ x ∧ ∀ y ∈ xs, minimum x xs ≤ y := by
  unfold minimum
  induction xs generalizing x with
  | nil => simp
  | cons z zs ih =>
    obtain ⟨h1, h2⟩ := ih (min x z)
    simp only [List.foldl_cons]
    refine ⟨le_trans h1 (min_le_left _ _), ?_⟩
    intro y hy
    rcases List.mem_cons.1 hy with rfl | hy
    · exact le_trans h1 (min_le_right _ _)
    · exact h2 y hy

theorem le_maximum (x : K) (xs : List K) : x ≤ maximum x xs ∧ ∀ y ∈ xs, y ≤ maximum x xs := by
  unfold maximum
  induction xs generalizing x with
  | nil => simp
  | cons z zs ih =>
    obtain ⟨h1, h2⟩ := ih (max x z)
    simp only [List.foldl_cons]
    refine ⟨le_trans (le_max_left _ _) h1, ?_⟩
    intro y hy
    rcases List.mem_cons.1 hy with rfl | hy
    · exact le_trans (le_max_right _ _) h1
    · exact h2 y hy

end Artist.Bitmap
