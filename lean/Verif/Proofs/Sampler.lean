import Verif.Model.Sampler
import Mathlib.Data.List.Basic
import Mathlib.Data.List.Range
import Mathlib.Tactic.Common
import Mathlib.Data.Nat.Basic
/-! Helper lemmas for `Verif.Model.Sampler`. -/
namespace Artist.Sampler
open Artist

theorem mem_rankIndices (n a w r s : Nat) :
    s ∈ rankIndices n a w r ↔
      r < min a w ∧ 0 < n / a ∧ s < a * (n / a) ∧ (s / (n / a)) % min a w = r := by
  unfold rankIndices
  simp only
  by_cases hr : r < min a w
  · rw [if_pos hr]
    simp only [List.mem_flatMap, List.mem_range, hr, true_and]
    constructor
    · rintro ⟨i, hi, hs⟩
      split at hs
      · rename_i hmod
        rw [List.mem_range'] at hs
        obtain ⟨j, hj, rfl⟩ := hs
        have hp : 0 < n / a := by omega
        refine ⟨hp, ?_, ?_⟩
        · have : (i + 1) * (n / a) ≤ a * (n / a) := Nat.mul_le_mul_right _ (by omega)
          rw [Nat.add_mul] at this; omega
        · rw [Nat.mul_comm i, Nat.one_mul, Nat.mul_add_div hp, Nat.div_eq_of_lt hj]
          simpa using hmod
      · simp at hs
    · rintro ⟨hp, hs, hm⟩
      refine ⟨s / (n / a), ?_, ?_⟩
      · exact (Nat.div_lt_iff_lt_mul hp).2 hs
      · rw [if_pos hm, List.mem_range']
        refine ⟨s % (n / a), Nat.mod_lt _ hp, ?_⟩
        rw [Nat.one_mul, Nat.mul_comm]; exact (Nat.div_add_mod s (n/a)).symm
  · simp [hr]

theorem pairwise_flatMap_blocks (p : Nat) (q : Nat → Prop) [DecidablePred q] (a : Nat) :
    ((List.range a).flatMap (fun i => if q i then List.range' (i * p) p else [])).Pairwise (· < ·) ∧
    ∀ s ∈ ((List.range a).flatMap (fun i => if q i then List.range' (i * p) p else [])), s < a * p := by
  induction a with
  | zero => simp
  | succ a ih =>
    rw [List.range_succ, List.flatMap_append]
    simp only [List.flatMap_cons, List.flatMap_nil, List.append_nil]
    have hlast : ∀ s ∈ (if q a then List.range' (a * p) p else []), a * p ≤ s ∧ s < (a + 1) * p := by
      intro s hs
      split at hs
      · rw [List.mem_range'] at hs
        obtain ⟨j, hj, rfl⟩ := hs
        rw [Nat.add_mul]; omega
      · simp at hs
    constructor
    · rw [List.pairwise_append]
      refine ⟨ih.1, ?_, ?_⟩
      · split
        · exact List.pairwise_lt_range'
        · exact List.Pairwise.nil
      · intro x hx y hy
        have := ih.2 x hx
        have := hlast y hy
        omega
    · intro s hs
      rw [List.mem_append] at hs
      rcases hs with hs | hs
      · have := ih.2 s hs; rw [Nat.add_mul]; omega
      · exact (hlast s hs).2

theorem rankIndices_sorted (n a w r : Nat) : (rankIndices n a w r).Pairwise (· < ·) := by
  unfold rankIndices
  simp only
  split
  · exact (pairwise_flatMap_blocks (n / a) (fun i => i % min a w = r) a).1
  · exact List.Pairwise.nil

theorem strideFrom_append_block (k : Nat) (hk : 0 < k) (l rest : List Nat) (hl : l.length = k) :
    ∃ x, l[0]? = some x ∧ strideFrom k 0 (l ++ rest) = x :: strideFrom k 0 rest := by
  rcases l with _ | ⟨x, l⟩
  · simp at hl; omega
  · refine ⟨x, by simp, ?_⟩
    simp only [List.cons_append, strideFrom]
    congr 1
    have : ∀ (l : List Nat) c, l.length = c → strideFrom k c (l ++ rest) = strideFrom k 0 rest := by
      intro l
      induction l with
      | nil => intro c hc; simp at hc; subst hc; rfl
      | cons y ys ih =>
        intro c hc
        obtain ⟨d, rfl⟩ : ∃ d, c = d + 1 := ⟨c - 1, by simp at hc; omega⟩
        simp only [List.cons_append, strideFrom]
        exact ih d (by simpa using hc)
    exact this l (k - 1) (by simp at hl; omega)

theorem stride_flatMap (p : Nat) (hp : 0 < p) (is : List Nat) :
    (stride p (is.flatMap (fun i => List.range' (i * p) p))).map (· / p) = is := by
  unfold stride
  induction is with
  | nil => simp [strideFrom]
  | cons i is ih =>
    rw [List.flatMap_cons]
    obtain ⟨x, hx, he⟩ := strideFrom_append_block p hp (List.range' (i * p) p)
      (is.flatMap (fun i => List.range' (i * p) p)) (by simp)
    rw [he, List.map_cons, ih]
    congr 1
    have : x = i * p := by
      rw [List.getElem?_range' hp] at hx; simp at hx; exact hx.symm
    rw [this, Nat.mul_div_cancel _ hp]

theorem flatMap_if_eq (q : Nat → Prop) [DecidablePred q] (f : Nat → List Nat) (l : List Nat) :
    l.flatMap (fun i => if q i then f i else []) = (l.filter (fun i => decide (q i))).flatMap f := by
  induction l with
  | nil => rfl
  | cons x xs ih =>
    rw [List.flatMap_cons, List.filter_cons, ih]
    by_cases h : q x <;> simp [h]

end Artist.Sampler
