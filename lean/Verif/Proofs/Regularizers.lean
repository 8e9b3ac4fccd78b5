import Verif.Model.Regularizers
import Mathlib.Algebra.Order.BigOperators.Ring.Finset
import Mathlib.Algebra.Order.BigOperators.Group.Finset
import Mathlib.Algebra.BigOperators.Ring.Finset
import Mathlib.Tactic.LinearCombination
import Mathlib.Tactic.Linarith
import Mathlib.Tactic.FieldSimp
import Mathlib.Tactic.Positivity
/-! # Lemmas on the regularisers -/
namespace Artist.Regularizers
open Artist Finset
variable {K : Type} [Field K]

/-- Summation by parts along one axis with replicated ends. -/
theorem parts (n : Nat) (f : Nat → K) :
    ∑ i ∈ range n, f i * (2 * f i - f (padIndex n i) - f (padIndex n (i + 2))) = ∑ i ∈ range (n - 1), (f (i + 1) - f i) ^ 2 := by
  cases n with
  | zero => simp
  | succ n =>
    have e : ∀ i ∈ range (n + 1), f i * (2 * f i - f (padIndex (n + 1) i) - f (padIndex (n + 1) (i + 2))) =
        f i * (f i - f (i - 1)) + f i * (f i - f (min (i + 1) n)) := by
      intro i hi
      have hi : i < n + 1 := mem_range.1 hi
      have h1 : padIndex (n + 1) i = i - 1 := by unfold padIndex; omega
      have h2 : padIndex (n + 1) (i + 2) = min (i + 1) n := by unfold padIndex; omega
      rw [h1, h2]; ring
    rw [sum_congr rfl e, sum_add_distrib, sum_range_succ' (fun i => f i * (f i - f (i - 1))),
      sum_range_succ (fun i => f i * (f i - f (min (i + 1) n)))]
    have e2 : ∀ i ∈ range n, f i * (f i - f (min (i + 1) n)) = f i * (f i - f (i + 1)) := by
      intro i hi
      have hi : i < n := mem_range.1 hi
      rw [show min (i + 1) n = i + 1 by omega]
    rw [sum_congr rfl e2]
    simp only [Nat.add_sub_cancel, show 0 - 1 = 0 from rfl, sub_self, mul_zero, add_zero, show min (n + 1) n = n by omega]
    rw [← sum_add_distrib]
    apply sum_congr rfl
    intro i _; ring

/-- One coordinate of the Laplacian. -/
def lap1 (h w : Nat) (g : Nat → Nat → K) (i j : Nat) : K :=
  (2 * g i j - g (padIndex h i) j - g (padIndex h (i + 2)) j) + (2 * g i j - g i (padIndex w j) - g i (padIndex w (j + 2)))

theorem laplace_comp (h w : Nat) (d : Nat → Nat → V3 K) (i j : Nat) (hi : i < h) (hj : j < w) :
    (laplace h w d i j).e = lap1 h w (fun i j => (d i j).e) i j ∧ (laplace h w d i j).n = lap1 h w (fun i j => (d i j).n) i j ∧
    (laplace h w d i j).u = lap1 h w (fun i j => (d i j).u) i j := by
  have h1 : padIndex h (i + 1) = i := by unfold padIndex; omega
  have h2 : padIndex w (j + 1) = j := by unfold padIndex; omega
  unfold laplace padded lap1
  rw [h1, h2]
  simp only [V3.sub_e, V3.sub_n, V3.sub_u, V3.smul_e, V3.smul_n, V3.smul_u]
  refine ⟨by ring, by ring, by ring⟩

theorem energy (h w : Nat) (g : Nat → Nat → K) :
    ∑ i ∈ range h, ∑ j ∈ range w, g i j * lap1 h w g i j =
      (∑ j ∈ range w, ∑ i ∈ range (h - 1), (g (i + 1) j - g i j) ^ 2) + ∑ i ∈ range h, ∑ j ∈ range (w - 1), (g i (j + 1) - g i j) ^ 2 := by
  unfold lap1
  simp only [mul_add, sum_add_distrib]
  rw [sum_comm]
  congr 1
  · apply sum_congr rfl; intro j _; exact parts h (fun i => g i j)
  · apply sum_congr rfl; intro i _; exact parts w (fun j => g i j)

variable [LinearOrder K] [IsStrictOrderedRing K]

/-- A grid function with vanishing Laplacian is constant. -/
theorem harmonic_constant (h w : Nat) (g : Nat → Nat → K) (hg : ∀ i < h, ∀ j < w, lap1 h w g i j = 0) :
    ∀ i < h, ∀ j < w, g i j = g 0 0 := by
  have he : ∑ i ∈ range h, ∑ j ∈ range w, g i j * lap1 h w g i j = 0 := by
    apply sum_eq_zero; intro i hi; apply sum_eq_zero; intro j hj
    rw [hg i (mem_range.1 hi) j (mem_range.1 hj), mul_zero]
  rw [energy] at he
  have p1 : ∀ j ∈ range w, 0 ≤ ∑ i ∈ range (h - 1), (g (i + 1) j - g i j) ^ 2 := fun j _ => sum_nonneg (fun i _ => sq_nonneg _)
  have p2 : ∀ i ∈ range h, 0 ≤ ∑ j ∈ range (w - 1), (g i (j + 1) - g i j) ^ 2 := fun j _ => sum_nonneg (fun i _ => sq_nonneg _)
  have z1 := sum_nonneg p1
  have z2 := sum_nonneg p2
  have c1 := (sum_eq_zero_iff_of_nonneg p1).1 (by linarith)
  have c2 := (sum_eq_zero_iff_of_nonneg p2).1 (by linarith)
  have v : ∀ j < w, ∀ i, i < h → g i j = g 0 j := by
    intro j hj i
    induction i with
    | zero => intro _; rfl
    | succ i ih =>
      intro hi
      have := (sum_eq_zero_iff_of_nonneg (fun i _ => sq_nonneg _)).1 (c1 j (mem_range.2 hj)) i (mem_range.2 (by omega))
      rw [sq_eq_zero_iff, sub_eq_zero] at this
      rw [this]; exact ih (by omega)
  have u : 0 < h → ∀ j, j < w → g 0 j = g 0 0 := by
    intro hh j
    induction j with
    | zero => intro _; rfl
    | succ j ih =>
      intro hj
      have := (sum_eq_zero_iff_of_nonneg (fun i _ => sq_nonneg _)).1 (c2 0 (mem_range.2 hh)) j (mem_range.2 (by omega))
      rw [sq_eq_zero_iff, sub_eq_zero] at this
      rw [this]; exact ih (by omega)
  intro i hi j hj
  rw [v j hj i hi, u (by omega) j hj]

theorem meanSquare_nonneg (h w : Nat) (x : Nat → Nat → V3 K) : 0 ≤ meanSquare h w x := by
  unfold meanSquare
  apply div_nonneg
  · apply sum_nonneg; intro i _; apply sum_nonneg; intro j _; positivity
  · positivity

theorem meanSquare_zero (h w : Nat) (hh : 0 < h) (hw : 0 < w) (x : Nat → Nat → V3 K) :
    meanSquare h w x = 0 ↔ ∀ i < h, ∀ j < w, x i j = 0 := by
  have hd : (h : K) * w * 3 ≠ 0 := by
    have : (0 : K) < h := by exact_mod_cast hh
    have : (0 : K) < w := by exact_mod_cast hw
    positivity
  unfold meanSquare
  rw [div_eq_zero_iff, or_iff_left hd]
  have p : ∀ i j, 0 ≤ (x i j).e ^ 2 + (x i j).n ^ 2 + (x i j).u ^ 2 := fun i j => by positivity
  rw [sum_eq_zero_iff_of_nonneg (fun i _ => sum_nonneg (fun j _ => p i j))]
  constructor
  · intro H i hi j hj
    have := (sum_eq_zero_iff_of_nonneg (fun j _ => p i j)).1 (H i (mem_range.2 hi)) j (mem_range.2 hj)
    have a := sq_nonneg (x i j).e
    have b := sq_nonneg (x i j).n
    have c := sq_nonneg (x i j).u
    ext
    · exact (sq_eq_zero_iff).1 (by linarith)
    · exact (sq_eq_zero_iff).1 (by linarith)
    · exact (sq_eq_zero_iff).1 (by linarith)
  · intro H i hi
    apply sum_eq_zero
    intro j hj
    rw [H i (mem_range.1 hi) j (mem_range.1 hj)]
    simp

end Artist.Regularizers
