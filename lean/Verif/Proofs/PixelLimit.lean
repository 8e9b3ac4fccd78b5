import Verif.Model.PixelLimit
import Verif.Props.Splat
import Verif.Proofs.Aim
import Mathlib.Data.Real.Basic
import Mathlib.Algebra.Order.Floor.Ring
import Mathlib.Algebra.BigOperators.Field
import Mathlib.Tactic.FieldSimp
import Mathlib.Tactic.Linarith
/-! Helper lemmas for C75. -/
namespace Artist.PixelLimit
open Artist Finset Splat

/-- `Σ_{b<k} (b + 1/2) / k = k / 2`. -/
theorem sum_half (k : Nat) (hk : 0 < k) : ∑ b ∈ range k, (((b : ℝ) + 1 / 2) / k) = k / 2 := by
  have h : ∀ n : Nat, ∑ b ∈ range n, ((b : ℝ) + 1 / 2) = (n : ℝ) ^ 2 / 2 := by
    intro n
    induction n with
    | zero => simp
    | succ n ih => rw [sum_range_succ, ih]; push_cast; ring
  have hk' : (k : ℝ) ≠ 0 := by exact_mod_cast hk.ne'
  rw [← sum_div, h]; field_simp

/-- The tents over one cell. -/
theorem cell_sum (k : Nat) (hk : 0 < k) (a c : Nat) :
    ∑ b ∈ range k, tent ((((a * k + b : Nat) : ℝ) + 1 / 2) / k - c) = (if a = c then (k : ℝ) / 2 else 0) + (if a + 1 = c then (k : ℝ) / 2 else 0) := by
  have hk' : (0 : ℝ) < k := by exact_mod_cast hk
  have hx : ∀ b, (((a * k + b : Nat) : ℝ) + 1 / 2) / k - c = (a : ℝ) - c + ((b : ℝ) + 1 / 2) / k := by
    intro b; push_cast; field_simp; ring
  have hb : ∀ b ∈ range k, 0 < ((b : ℝ) + 1 / 2) / k ∧ ((b : ℝ) + 1 / 2) / k < 1 := by
    intro b hb
    have : (b : ℝ) + 1 ≤ k := by exact_mod_cast mem_range.1 hb
    exact ⟨by positivity, by rw [div_lt_one hk']; linarith⟩
  simp only [hx]
  by_cases h1 : a = c
  · subst h1
    rw [if_pos rfl, if_neg (by omega), add_zero, ← sum_half k hk]
    have : ∑ b ∈ range k, (1 - ((b : ℝ) + 1 / 2) / k) = ∑ b ∈ range k, ((b : ℝ) + 1 / 2) / k := by
      rw [sum_sub_distrib, sum_half k hk, sum_const, card_range, nsmul_eq_mul]; ring
    rw [← this]
    refine sum_congr rfl fun b hb' => ?_
    obtain ⟨h0, h1⟩ := hb b hb'
    unfold tent
    rw [sub_self, zero_add, abs_of_pos h0, max_eq_right (by linarith)]
  · rw [if_neg h1, zero_add]
    by_cases h2 : a + 1 = c
    · subst h2
      rw [if_pos rfl, ← sum_half k hk]
      refine sum_congr rfl fun b hb' => ?_
      obtain ⟨h0, h1⟩ := hb b hb'
      unfold tent
      push_cast
      rw [abs_of_neg (by linarith), max_eq_right (by linarith)]; ring
    · rw [if_neg h2]
      refine sum_eq_zero fun b hb' => ?_
      obtain ⟨h0, h1'⟩ := hb b hb'
      unfold tent
      refine max_eq_left ?_
      rcases Nat.lt_or_gt_of_ne h1 with h | h
      · have : (a : ℝ) + 2 ≤ c := by exact_mod_cast (by omega : a + 2 ≤ c)
        rw [abs_of_neg (by linarith)]; linarith
      · have : (c : ℝ) + 1 ≤ a := by exact_mod_cast h
        rw [abs_of_pos (by linarith)]; linarith

/-- The tents over a whole row of cells. -/
theorem row_sum (k : Nat) (hk : 0 < k) (n c : Nat) :
    ∑ i ∈ range (n * k), tent (((i : ℝ) + 1 / 2) / k - c) = (if c < n then (k : ℝ) / 2 else 0) + (if 0 < c ∧ c ≤ n then (k : ℝ) / 2 else 0) := by
  induction n with
  | zero => simp; omega
  | succ n ih =>
    rw [Nat.succ_mul, sum_range_add, ih, cell_sum k hk]
    by_cases h1 : n = c
    · subst h1
      simp
      ring
    · by_cases h2 : n + 1 = c
      · subst h2; simp
      · by_cases h3 : c < n
        · by_cases h4 : 0 < c
          · simp [h1, h2, h3, h4, Nat.lt_succ_of_lt h3, h3.le, Nat.le_succ_of_le h3.le]
          · simp [h1, h2, h3, h4, Nat.lt_succ_of_lt h3]
        · have a1 : ¬ c < n + 1 := by omega
          have a2 : ¬ c ≤ n := by omega
          have a3 : ¬ c ≤ n + 1 := by omega
          simp [h1, h2, h3, a1, a2, a3]

theorem tent_neg (x : ℝ) : tent (-x) = tent x := by unfold tent; rw [abs_neg]

theorem sum_flatMap_mul {A B : Type} (l : List A) (m : List B) (f : A → ℝ) (g : B → ℝ) (q : ℝ) :
    ((l.flatMap fun a => m.map fun b => (a, b)).map (fun x => q * (f x.1 * g x.2))).sum = q * ((l.map f).sum * (m.map g).sum) := by
  induction l with
  | nil => simp
  | cons a l ih =>
    rw [List.flatMap_cons, List.map_append, List.sum_append, ih, List.map_map, List.map_cons, List.sum_cons]
    have : (m.map ((fun x : A × B => q * (f x.1 * g x.2)) ∘ fun b => (a, b))).sum = q * (f a * (m.map g).sum) := by
      clear ih
      induction m with
      | nil => simp
      | cons b m ih => simp only [List.map_cons, List.sum_cons, ih, Function.comp]; ring
    rw [this]; ring

theorem maxOf_mem_le (x : ℝ) (xs : List ℝ) : ∀ y ∈ x :: xs, y ≤ Aim.maxOf x xs := by
  unfold Aim.maxOf
  induction xs generalizing x with
  | nil => simp
  | cons z zs ih =>
    intro y hy
    rw [List.foldl_cons]
    rcases List.mem_cons.1 hy with rfl | hy
    · exact le_trans (le_max_left y z) (ih (max y z) _ (by simp))
    · rcases List.mem_cons.1 hy with rfl | hy
      · exact le_trans (le_max_right x y) (ih (max x y) _ (by simp))
      · exact ih (max x z) y (List.mem_cons_of_mem _ hy)

end Artist.PixelLimit
