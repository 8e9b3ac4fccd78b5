import Verif.Model.Crop
import Verif.Spec.Crop
import Verif.Proofs.Bitmap
import Mathlib.Algebra.BigOperators.Ring.Finset
/-! Helper lemmas for C64. -/
namespace Artist.Crop
open Artist Finset
variable {K : Type} [Field K] [LinearOrder K] [IsStrictOrderedRing K]

theorem tent_nonneg (t : K) : 0 ≤ tent t := le_max_left _ _

variable [FloorRing K]

theorem tent_floor (x : K) (c : Int) :
    tent (x - c) = (if c = ⌊x⌋ then 1 - (x - ⌊x⌋) else 0) + (if c = ⌊x⌋ + 1 then x - ⌊x⌋ else 0) := by
  have h0 := Int.floor_le x
  have h1 := Int.lt_floor_add_one x
  unfold tent
  rcases lt_trichotomy c ⌊x⌋ with h | h | h
  · have hc : (c : K) + 1 ≤ ⌊x⌋ := by exact_mod_cast h
    rw [if_neg (by omega), if_neg (by omega), abs_of_nonneg (by linarith), max_eq_left (by linarith)]; ring
  · subst h
    rw [if_pos rfl, if_neg (by omega), abs_of_nonneg (by linarith), max_eq_right (by linarith)]; ring
  · rcases eq_or_lt_of_le (Int.add_one_le_of_lt h) with h' | h'
    · have hc : (c : K) = ⌊x⌋ + 1 := by rw [← h']; push_cast; rfl
      rw [if_neg (by omega), if_pos h'.symm, hc, abs_of_nonpos (by linarith), max_eq_right (by linarith)]; ring
    · have hc : (⌊x⌋ : K) + 2 ≤ c := by exact_mod_cast (by omega : ⌊x⌋ + 2 ≤ c)
      rw [if_neg (by omega), if_neg (by omega), abs_of_nonpos (by linarith), max_eq_left (by linarith)]; ring

theorem sum_at (n : Nat) (g : Nat → K) (k : Int) (a : K) :
    ∑ c ∈ range n, g c * (if (c : Int) = k then a else 0) = (if 0 ≤ k ∧ k < n then g k.toNat else 0) * a := by
  split
  · rename_i h
    rw [Finset.sum_eq_single k.toNat]
    · rw [if_pos (Int.toNat_of_nonneg h.1)]
    · intro b _ hb
      rw [if_neg (by omega), mul_zero]
    · intro hn
      exact absurd (Finset.mem_range.2 (by omega)) hn
  · rename_i h
    rw [zero_mul]
    apply Finset.sum_eq_zero
    intro c hc
    rw [Finset.mem_range] at hc
    rw [if_neg (by omega), mul_zero]

theorem tent_sum (n : Nat) (g : Nat → K) (x : K) :
    ∑ c ∈ range n, g c * tent (x - c) =
      (if 0 ≤ ⌊x⌋ ∧ ⌊x⌋ < n then g ⌊x⌋.toNat else 0) * (1 - (x - ⌊x⌋)) +
      (if 0 ≤ ⌊x⌋ + 1 ∧ ⌊x⌋ + 1 < n then g (⌊x⌋ + 1).toNat else 0) * (x - ⌊x⌋) := by
  rw [← sum_at, ← sum_at, ← Finset.sum_add_distrib]
  apply Finset.sum_congr rfl
  intro c _
  have := tent_floor x (c : Int)
  rw [Int.cast_natCast] at this
  rw [this, mul_add]

theorem bilinear_eq (W H : Nat) (img : Nat → Nat → K) (x y : K) : bilinear W H img x y = interpolate W H img x y := by
  have key : interpolate W H img x y = ∑ r ∈ range H, (∑ c ∈ range W, img r c * tent (x - c)) * tent (y - r) := by
    unfold interpolate
    apply Finset.sum_congr rfl; intro r _
    rw [Finset.sum_mul]
    apply Finset.sum_congr rfl; intro c _
    ring
  rw [key]
  simp only [tent_sum]
  unfold bilinear pixel
  simp only
  by_cases a1 : 0 ≤ ⌊x⌋ ∧ ⌊x⌋ < W <;> by_cases a2 : 0 ≤ ⌊x⌋ + 1 ∧ ⌊x⌋ + 1 < W <;>
    by_cases b1 : 0 ≤ ⌊y⌋ ∧ ⌊y⌋ < H <;> by_cases b2 : 0 ≤ ⌊y⌋ + 1 ∧ ⌊y⌋ + 1 < H <;>
    simp only [a1, a2, b1, b2, and_self, and_true, true_and, and_false, false_and, if_true, if_false, ← and_assoc] <;> ring

theorem tent_partition (n : Nat) (x : K) : ∑ c ∈ range n, tent (x - c) ≤ 1 := by
  have := tent_sum n (fun _ => (1 : K)) x
  simp only [one_mul] at this
  rw [this]
  have h0 := Int.floor_le x
  have h1 := Int.lt_floor_add_one x
  split_ifs <;> linarith

end Artist.Crop
