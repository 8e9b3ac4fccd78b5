import Verif.Spec.Derivatives
import Verif.Proofs.Nurbs
import Mathlib.Analysis.Calculus.Deriv.Add
import Mathlib.Analysis.Calculus.Deriv.Mul
import Mathlib.Analysis.Calculus.IteratedDeriv.Defs
import Mathlib.Data.Nat.Factorial.Basic
/-! # Helper lemmas for C113: derivatives of basis functions of all orders -/
namespace Artist.BSpline

theorem RightDerivative.unique {k : Nat} {f g g' : ℝ → ℝ} (h : RightDerivative k f g) (h' : RightDerivative k f g') : g = g' := by
  induction k generalizing g g' with
  | zero => rw [RightDerivative] at h h'; rw [h, h']
  | succ k ih =>
    obtain ⟨a, ha, hd⟩ := h
    obtain ⟨b, hb, hd'⟩ := h'
    obtain rfl := ih ha hb
    funext y
    exact (uniqueDiffWithinAt_Ici y).eq_deriv _ (hd y) (hd' y)

variable {K : Type} [Field K] [LinearOrder K]

/-- coefficients of the `k`-th derivative (The NURBS Book, eq. 2.10) -/
def coeff (U : Nat → K) (p m : Nat) : Nat → Nat → K
  | 0, j => if j = 0 then 1 else 0
  | k + 1, j => (coeff U p m k j - if j = 0 then 0 else coeff U p m k (j - 1)) / (U (m + j + (p - k)) - U (m + j))

theorem coeff_zero (U : Nat → K) (p m : Nat) : ∀ k j, k < j → coeff U p m k j = 0 := by
  intro k
  induction k with
  | zero => intro j hj; rw [coeff, if_neg (by omega)]
  | succ k ih =>
    intro j hj
    rw [coeff, ih j (by omega), if_neg (by omega), ih (j - 1) (by omega)]
    simp

/-- the `k`-th derivative -/
def derivN (U : Nat → K) (p m k : Nat) (x : K) : K :=
  (p.descFactorial k : K) * ∑ j ∈ Finset.range (k + 1), coeff U p m k j * N U (p - k) (m + j) x

theorem derivN_zero (U : Nat → K) (p m : Nat) (x : K) : derivN U p m 0 x = N U p m x := by
  simp [derivN, coeff]

theorem derivN_big (U : Nat → K) (p m k : Nat) (h : p < k) (x : K) : derivN U p m k x = 0 := by
  simp [derivN, Nat.descFactorial_eq_zero_iff_lt.2 h]

theorem derivN_deriv {U : Nat → ℝ} {L : Nat} (mono : ∀ a b, a ≤ b → b ≤ L → U a ≤ U b) (p m : Nat) (hL : m + p + 1 ≤ L) (k : Nat) (x : ℝ) (S : Set ℝ)
    (zero : ∀ m, m + 1 ≤ L → HasDerivWithinAt (N U 0 m) 0 S x) :
    HasDerivWithinAt (derivN U p m k) (derivN U p m (k + 1) x) S x := by
  rcases lt_trichotomy p k with h | h | h
  · have e : derivN U p m k = fun _ => 0 := by funext y; exact derivN_big U p m k h y
    rw [e, derivN_big U p m _ (by omega)]
    exact hasDerivWithinAt_const _ _ _
  · subst h
    rw [derivN_big U p m _ (by omega)]
    have : HasDerivWithinAt (derivN U p m p) ((p.descFactorial p : ℝ) * ∑ j ∈ Finset.range (p + 1), coeff U p m p j * 0) S x := by
      unfold derivN
      refine HasDerivWithinAt.const_mul _ (HasDerivWithinAt.fun_sum fun j hj => HasDerivWithinAt.const_mul _ ?_)
      rw [Finset.mem_range] at hj
      rw [Nat.sub_self]
      exact zero _ (by omega)
    simpa using this
  · obtain ⟨q, hq⟩ : ∃ q, p - k = q + 1 := ⟨p - k - 1, by omega⟩
    have hq' : p - (k + 1) = q := by omega
    have : HasDerivWithinAt (derivN U p m k) ((p.descFactorial k : ℝ) * ∑ j ∈ Finset.range (k + 1), coeff U p m k j *
        ((q + 1 : ℕ) * (N U q (m + j) x / (U (m + j + q + 1) - U (m + j)) - N U q (m + j + 1) x / (U (m + j + q + 2) - U (m + j + 1))))) S x := by
      unfold derivN
      refine HasDerivWithinAt.const_mul _ (HasDerivWithinAt.fun_sum fun j hj => HasDerivWithinAt.const_mul _ ?_)
      rw [Finset.mem_range] at hj
      rw [hq]
      exact N_deriv_on mono x S zero q (m + j) (by omega)
    convert this using 1
    unfold derivN
    rw [Nat.descFactorial_succ, hq, hq']
    push_cast
    rw [mul_comm ((q : ℝ) + 1), mul_assoc]
    congr 1
    -- shift the second sum
    have s1 : ∑ j ∈ Finset.range (k + 1 + 1), coeff U p m (k + 1) j * N U q (m + j) x =
        ∑ j ∈ Finset.range (k + 1 + 1), coeff U p m k j * (N U q (m + j) x / (U (m + j + q + 1) - U (m + j))) -
        ∑ j ∈ Finset.range (k + 1 + 1), (if j = 0 then 0 else coeff U p m k (j - 1)) * (N U q (m + j) x / (U (m + j + q + 1) - U (m + j))) := by
      rw [← Finset.sum_sub_distrib]
      refine Finset.sum_congr rfl fun j _ => ?_
      rw [coeff, hq, ← sub_mul, ← add_assoc (m + j)]
      ring
    rw [s1, Finset.sum_range_succ, coeff_zero U p m k (k + 1) (by omega), zero_mul, add_zero, Finset.sum_range_succ' _ (k + 1), if_pos rfl, zero_mul, add_zero, ← Finset.sum_sub_distrib, Finset.mul_sum]
    refine Finset.sum_congr rfl fun j _ => ?_
    rw [if_neg (by omega), Nat.add_sub_cancel, ← add_assoc m j 1, show m + j + 1 + q + 1 = m + j + q + 2 by omega]
    ring

/-- inside of a span -/
theorem derivN_inside {U : Nat → ℝ} {L : Nat} (mono : ∀ a b, a ≤ b → b ≤ L → U a ≤ U b) (p m : Nat) (hL : m + p + 1 ≤ L) {i : Nat} (hi : i ≤ L) (k : Nat) :
    ∀ x, U i < x → x < U (i + 1) → iteratedDeriv k (N U p m) x = derivN U p m k x ∧ DifferentiableAt ℝ (iteratedDeriv k (N U p m)) x := by
  have hd : ∀ k x, U i < x → x < U (i + 1) → HasDerivAt (derivN U p m k) (derivN U p m (k + 1) x) x := fun k x h0 h1 =>
    hasDerivWithinAt_univ.1 (derivN_deriv mono p m hL k x Set.univ (N_deriv_zero_inside mono hi h0 h1))
  have ev : ∀ k, (∀ x, U i < x → x < U (i + 1) → iteratedDeriv k (N U p m) x = derivN U p m k x) →
      ∀ x, U i < x → x < U (i + 1) → iteratedDeriv k (N U p m) =ᶠ[nhds x] derivN U p m k := by
    intro k h x h0 h1
    filter_upwards [Ioi_mem_nhds h0, Iio_mem_nhds h1] with z hz hz'
    exact h z hz hz'
  have val : ∀ k x, U i < x → x < U (i + 1) → iteratedDeriv k (N U p m) x = derivN U p m k x := by
    intro k
    induction k with
    | zero => intro x _ _; rw [iteratedDeriv_zero, derivN_zero]
    | succ k ih =>
      intro x h0 h1
      rw [iteratedDeriv_succ, (ev k ih x h0 h1).deriv_eq, (hd k x h0 h1).deriv]
  exact fun x h0 h1 => ⟨val k x h0 h1, ((hd k x h0 h1).congr_of_eventuallyEq (ev k (val k) x h0 h1)).differentiableAt⟩

theorem derivN_right {U : Nat → ℝ} {L : Nat} (mono : ∀ a b, a ≤ b → b ≤ L → U a ≤ U b) (p m : Nat) (hL : m + p + 1 ≤ L) (k : Nat) :
    RightDerivative k (N U p m) (derivN U p m k) := by
  induction k with
  | zero => funext y; exact derivN_zero U p m y
  | succ k ih => exact ⟨_, ih, fun y => derivN_deriv mono p m hL k y (Set.Ici y) fun m _ => N_deriv_zero U m y⟩

end Artist.BSpline

namespace Artist.Nurbs
open Artist.BSpline
variable {K : Type} [Field K] [LinearOrder K]

/-- coefficients in terms of the table, for row `r` -/
def tcoeff (ndu : Nat → Nat → K) (p r : Nat) : Nat → Nat → K
  | 0, j => if j = 0 then 1 else 0
  | k + 1, j => (tcoeff ndu p r k j - if j = 0 then 0 else tcoeff ndu p r k (j - 1)) / ndu (p - k) (r + j - (k + 1))

theorem tcoeff_zero (ndu : Nat → Nat → K) (p r : Nat) : ∀ k j, k < j → tcoeff ndu p r k j = 0 := by
  intro k
  induction k with
  | zero => intro j hj; rw [tcoeff, if_neg (by omega)]
  | succ k ih =>
    intro j hj
    rw [tcoeff, ih j (by omega), if_neg (by omega), ih (j - 1) (by omega)]
    simp

/-- the part of the sum that the code adds up -/
def part (ndu : Nat → Nat → K) (p r k j : Nat) : K :=
  if k ≤ r + j ∧ r + j ≤ p then tcoeff ndu p r k j * ndu (r + j - k) (p - k) else 0

/-- the loop over `j` -/
theorem loop_spec (ndu : Nat → Nat → K) (p r k s1 s2 : Nat) (hs : s1 ≠ s2) (a : Nat → Nat → K) (d : K) (j1 : Nat) (h1 : 1 ≤ j1) (hj1 : k + 1 ≤ r + j1) :
    ∀ n, (∀ j, j + 1 < j1 + n → k ≤ r + j → a s1 j = tcoeff ndu p r k j) → (∀ j, j < j1 + n → k ≤ r + j → a s1 j = tcoeff ndu p r k j) → r + (j1 + n) ≤ p + 1 →
      let res := (List.range' j1 n).foldl (fun (ad : (Nat → Nat → K) × K) j =>
        let v := (ad.1 s1 j - ad.1 s1 (j - 1)) / ndu (p - (k + 1) + 1) ((r : Int) - ((k + 1 : Nat) : Int) + j).toNat
        (set2 ad.1 s2 j v, ad.2 + v * ndu ((r : Int) - ((k + 1 : Nat) : Int) + j).toNat (p - (k + 1)))) (a, d)
      (∀ j, res.1 s1 j = a s1 j) ∧ (∀ j, res.1 s2 j = if j1 ≤ j ∧ j < j1 + n then tcoeff ndu p r (k + 1) j else a s2 j) ∧
        res.2 = d + ∑ j ∈ Finset.Ico j1 (j1 + n), part ndu p r (k + 1) j := by
  intro n
  induction n with
  | zero =>
    intro _ _ _
    refine ⟨fun _ => rfl, fun j => ?_, by simp⟩
    rw [if_neg (by omega)]; rfl
  | succ n ih =>
    intro ha0 ha hp
    obtain ⟨i1, i2, i3⟩ := ih (fun j hj hk => ha j (by omega) hk) (fun j hj hk => ha j (by omega) hk) (by omega)
    rw [List.range'_concat, List.foldl_append, List.foldl_cons, List.foldl_nil]
    simp only [one_mul]
    generalize (List.range' j1 n).foldl _ (a, d) = st at i1 i2 i3
    have e1 : ((r : Int) - ((k + 1 : Nat) : Int) + ((j1 + n : Nat) : Int)).toNat = r + (j1 + n) - (k + 1) := by omega
    have e2 : p - (k + 1) + 1 = p - k := by omega
    have v : (st.1 s1 (j1 + n) - st.1 s1 (j1 + n - 1)) / ndu (p - (k + 1) + 1) ((r : Int) - ((k + 1 : Nat) : Int) + ((j1 + n : Nat) : Int)).toNat = tcoeff ndu p r (k + 1) (j1 + n) := by
      rw [i1, i1, ha (j1 + n) (by omega) (by omega), ha (j1 + n - 1) (by omega) (by omega), e1, e2, tcoeff, if_neg (by omega)]
    refine ⟨?_, ?_, ?_⟩
    · intro j
      rw [set2_other _ _ (by rintro ⟨h, -⟩; exact hs h), i1]
    · intro j
      by_cases hj : j = j1 + n
      · subst hj
        rw [set2_self, v, if_pos (by omega)]
      · rw [set2_other _ _ (by rintro ⟨-, h⟩; exact hj h), i2]
        by_cases h : j1 ≤ j ∧ j < j1 + n
        · rw [if_pos h, if_pos (by omega)]
        · rw [if_neg h, if_neg (by omega)]
    · rw [v, i3, e1, ← add_assoc j1 n 1, Finset.sum_Ico_succ_top (by omega), ← add_assoc d]
      congr 1
      rw [part, if_pos (by omega)]

/-- one step of the loop over `k` -/
theorem step_spec (ndu : Nat → Nat → K) (p r k : Nat) (hr : r ≤ p) (st : DState K) (hs : st.s1 ≠ st.s2)
    (ha : ∀ j, j ≤ k → k ≤ r + j → r + j ≤ p → st.a st.s1 j = tcoeff ndu p r k j) :
    (derivStep ndu p r st (k + 1)).s1 = st.s2 ∧ (derivStep ndu p r st (k + 1)).s2 = st.s1 ∧
    (∀ j, j ≤ k + 1 → k + 1 ≤ r + j → r + j ≤ p → (derivStep ndu p r st (k + 1)).a st.s2 j = tcoeff ndu p r (k + 1) j) ∧
    (∀ k', (derivStep ndu p r st (k + 1)).out k' = if k' = k + 1 then ∑ j ∈ Finset.range (k + 1 + 1), part ndu p r (k + 1) j else st.out k') := by
  obtain ⟨a0, s1, s2, out⟩ := st
  simp only at hs ha ⊢
  unfold derivStep
  simp only
  -- the first entry
  set first : (Nat → Nat → K) × K := if k + 1 ≤ r then
      (set2 a0 s2 0 (a0 s1 0 / ndu (p - (k + 1) + 1) ((r : Int) - ((k + 1 : Nat) : Int)).toNat),
        a0 s1 0 / ndu (p - (k + 1) + 1) ((r : Int) - ((k + 1 : Nat) : Int)).toNat * ndu ((r : Int) - ((k + 1 : Nat) : Int)).toNat (p - (k + 1)))
    else (a0, 0) with hfirst
  have f1 : ∀ j, first.1 s1 j = a0 s1 j := by
    intro j
    rw [hfirst]
    by_cases h : k + 1 ≤ r
    · rw [if_pos h]; exact set2_other _ _ (by rintro ⟨h, -⟩; exact hs h)
    · rw [if_neg h]
  have f2 : k + 1 ≤ r → first.1 s2 0 = tcoeff ndu p r (k + 1) 0 := by
    intro h
    rw [hfirst, if_pos h]
    simp only
    rw [set2_self, tcoeff, if_pos rfl, sub_zero, ha 0 (by omega) (by omega) (by omega)]
    congr 2 <;> omega
  have f3 : first.2 = part ndu p r (k + 1) 0 := by
    rw [hfirst]
    by_cases h : k + 1 ≤ r
    · rw [if_pos h, part, if_pos (by omega)]
      simp only
      have e := f2 h
      rw [hfirst, if_pos h] at e
      simp only [set2_self] at e
      rw [e]
      congr 2
      omega
    · rw [if_neg h, part, if_neg (by omega)]
  generalize first = fi at f1 f2 f3
  clear hfirst first
  set j1 : Nat := if (-1 : Int) ≤ (r : Int) - ((k + 1 : Nat) : Int) then 1 else (-((r : Int) - ((k + 1 : Nat) : Int))).toNat with hj1
  set j2 : Nat := if r + (k + 1) ≤ p + 1 then k + 1 - 1 else p - r with hj2
  have g1 : j1 = max 1 (k + 1 - r) := by rw [hj1]; split_ifs <;> omega
  have g2 : j2 = min k (p - r) := by rw [hj2]; split_ifs <;> omega
  clear_value j1 j2
  have hL := loop_spec ndu p r k s1 s2 hs fi.1 fi.2 j1 (by omega) (by omega) (j2 + 1 - j1)
  have hL' : let res := (List.range' j1 (j2 + 1 - j1)).foldl (fun (ad : (Nat → Nat → K) × K) j =>
        let v := (ad.1 s1 j - ad.1 s1 (j - 1)) / ndu (p - (k + 1) + 1) ((r : Int) - ((k + 1 : Nat) : Int) + j).toNat
        (set2 ad.1 s2 j v, ad.2 + v * ndu ((r : Int) - ((k + 1 : Nat) : Int) + j).toNat (p - (k + 1)))) (fi.1, fi.2)
      (∀ j, res.1 s1 j = a0 s1 j) ∧ (∀ j, res.1 s2 j = if j1 ≤ j ∧ j ≤ j2 then tcoeff ndu p r (k + 1) j else fi.1 s2 j) ∧
        res.2 = fi.2 + ∑ j ∈ Finset.Ico j1 (j2 + 1), part ndu p r (k + 1) j := by
    by_cases hne : j1 ≤ j2
    · have hfi : ∀ j, j < j1 + (j2 + 1 - j1) → k ≤ r + j → fi.1 s1 j = tcoeff ndu p r k j := fun j hj hk => by
        rw [f1, ha j (by omega) hk (by omega)]
      obtain ⟨l1, l2, l3⟩ := hL (fun j hj hk => hfi j (by omega) hk) hfi (by omega)
      refine ⟨fun j => (l1 j).trans (f1 j), fun j => ?_, ?_⟩
      · rw [l2 j]
        by_cases h : j1 ≤ j ∧ j ≤ j2
        · rw [if_pos h, if_pos (by omega)]
        · rw [if_neg h, if_neg (by omega)]
      · rw [l3, show j1 + (j2 + 1 - j1) = j2 + 1 by omega]
    · rw [show j2 + 1 - j1 = 0 by omega]
      refine ⟨f1, fun j => ?_, ?_⟩
      · rw [if_neg (by omega)]; rfl
      · rw [Finset.Ico_eq_empty (by omega), Finset.sum_empty, add_zero]; rfl
  clear hL
  simp only at hL'
  generalize (List.range' j1 (j2 + 1 - j1)).foldl _ (fi.1, fi.2) = res at hL'
  obtain ⟨l1, l2, l3⟩ := hL'
  have hsum : ∑ j ∈ Finset.range (k + 1), part ndu p r (k + 1) j = res.2 := by
    rw [l3, f3, Finset.range_eq_Ico, Finset.sum_eq_sum_Ico_succ_bot (by omega)]
    congr 1
    symm
    refine Finset.sum_subset (fun j hj => ?_) (fun j hj hn => ?_)
    · rw [Finset.mem_Ico] at hj ⊢; omega
    · rw [Finset.mem_Ico] at hj hn
      rw [part, if_neg (by omega)]
  have hmid : ∀ j, j ≤ k → k + 1 ≤ r + j → r + j ≤ p → res.1 s2 j = tcoeff ndu p r (k + 1) j := by
    intro j h1 h2 h3
    rw [l2 j]
    by_cases h : j1 ≤ j ∧ j ≤ j2
    · rw [if_pos h]
    · obtain rfl : j = 0 := by omega
      rw [if_neg h, f2 (by omega)]
  refine ⟨trivial, trivial, ?_, ?_⟩
  · intro j h1 h2 h3
    by_cases hk : r + (k + 1) ≤ p
    · rw [if_pos hk]
      simp only
      by_cases hj : j = k + 1
      · subst hj
        rw [set2_self, Nat.add_sub_cancel, l1, ha k le_rfl (by omega) (by omega), tcoeff, tcoeff_zero ndu p r k (k + 1) (by omega), if_neg (by omega), zero_sub, Nat.add_sub_cancel]
        congr 2 <;> omega
      · rw [set2_other _ _ (by rintro ⟨-, h⟩; exact hj h)]
        exact hmid j (by omega) h2 h3
    · rw [if_neg hk]
      exact hmid j (by omega) h2 h3
  · intro k'
    by_cases hk' : k' = k + 1
    · rw [if_pos hk', if_pos hk', Finset.sum_range_succ _ (k + 1), hsum]
      by_cases hk : r + (k + 1) ≤ p
      · rw [if_pos hk, part, if_pos (by omega)]
        simp only
        congr 2
        · rw [Nat.add_sub_cancel, l1, ha k le_rfl (by omega) (by omega), tcoeff, tcoeff_zero ndu p r k (k + 1) (by omega), if_neg (by omega), zero_sub, Nat.add_sub_cancel]
          congr 2 <;> omega
        · congr 1; omega
      · rw [if_neg hk, part, if_neg (by omega), add_zero]
    · rw [if_neg hk', if_neg hk']

/-- all steps of the loop over `k` -/
theorem steps_spec (ndu : Nat → Nat → K) (p r : Nat) (hr : r ≤ p) (a : Nat → Nat → K) (out : Nat → K) (ha : a 0 0 = 1) :
    ∀ n, let fin := (List.range' 1 n).foldl (derivStep ndu p r) ⟨a, 0, 1, out⟩
      fin.s1 ≠ fin.s2 ∧ (∀ j, j ≤ n → n ≤ r + j → r + j ≤ p → fin.a fin.s1 j = tcoeff ndu p r n j) ∧
      ∀ k, fin.out k = if 1 ≤ k ∧ k ≤ n then ∑ j ∈ Finset.range (k + 1), part ndu p r k j else out k := by
  intro n
  induction n with
  | zero =>
    refine ⟨by simp, fun j hj _ _ => ?_, fun k => ?_⟩
    · obtain rfl : j = 0 := by omega
      simpa [tcoeff] using ha
    · rw [if_neg (by omega)]; rfl
  | succ n ih =>
    rw [List.range'_concat, List.foldl_append, List.foldl_cons, List.foldl_nil, one_mul, Nat.add_comm 1 n]
    obtain ⟨i1, i2, i3⟩ := ih
    generalize (List.range' 1 n).foldl _ _ = st at i1 i2 i3
    obtain ⟨s1, s2, s3, s4⟩ := step_spec ndu p r n hr st i1 i2
    refine ⟨by rw [s1, s2]; exact i1.symm, by rw [s1]; exact s3, fun k => ?_⟩
    rw [s4, i3]
    by_cases hk : k = n + 1
    · rw [if_pos hk, if_pos (by omega), hk]
    · rw [if_neg hk]
      by_cases h : 1 ≤ k ∧ k ≤ n
      · rw [if_pos h, if_pos (by omega)]
      · rw [if_neg h, if_neg (by omega)]

theorem derivRow_spec (ndu : Nat → Nat → K) (p nth : Nat) (st) (r : Nat) (hr : r ≤ p) :
    (derivRow ndu p nth st r).2 = fun k r' => if r' = r then
      (if 1 ≤ k ∧ k ≤ nth then ∑ j ∈ Finset.range (k + 1), part ndu p r k j else if k = 0 then ndu r p else 0) else st.2 k r' := by
  obtain ⟨-, -, h⟩ := steps_spec ndu p r hr (set2 st.1 0 0 1) (fun k => if k = 0 then ndu r p else 0) (set2_self _ _ _ _) nth
  unfold derivRow
  funext k r'
  simp only [h]

theorem rows_spec (ndu : Nat → Nat → K) (p nth : Nat) (init) (k r : Nat) (hr : r ≤ p) :
    ((List.range (p + 1)).foldl (derivRow ndu p nth) init).2 k r =
      if 1 ≤ k ∧ k ≤ nth then ∑ j ∈ Finset.range (k + 1), part ndu p r k j else if k = 0 then ndu r p else 0 := by
  have key : ∀ n, n ≤ p + 1 → r < n → ((List.range n).foldl (derivRow ndu p nth) init).2 k r =
      if 1 ≤ k ∧ k ≤ nth then ∑ j ∈ Finset.range (k + 1), part ndu p r k j else if k = 0 then ndu r p else 0 := by
    intro n
    induction n with
    | zero => intro _ h; omega
    | succ n ih =>
      intro hn hrn
      rw [List.range_succ, List.foldl_append, List.foldl_cons, List.foldl_nil, derivRow_spec _ _ _ _ n (by omega)]
      simp only
      by_cases h : r = n
      · rw [if_pos h, h]
      · rw [if_neg h, ih (by omega) (by omega)]
  exact key _ le_rfl (by omega)

theorem factor_spec (p : Nat) : ∀ k, 1 ≤ k → derivFactor p k = p.descFactorial k := by
  intro k
  induction k with
  | zero => intro h; omega
  | succ k ih =>
    intro _
    cases k with
    | zero => simp [derivFactor]
    | succ k =>
      rw [Nat.descFactorial_succ, ← ih (by omega)]
      unfold derivFactor
      rw [show k + 1 + 1 - 1 = (k + 1 - 1) + 1 by omega, List.range'_concat, List.foldl_append, List.foldl_cons, List.foldl_nil, mul_comm]
      congr 2
      omega

section order
variable [IsStrictOrderedRing K]
variable {knots : List K} {i p : Nat} {x : K}

/-- the coefficients in the table are those of the textbook -/
theorem tcoeff_eq (h : InSpan (knot knots) i p x) (r : Nat) (hr : r ≤ p) :
    ∀ k j, k ≤ r + j → r + j ≤ p → tcoeff (nduTable (left knots i x) (right knots i x) p) p r k j = coeff (knot knots) p (i - p + r) k j := by
  have ht := table_spec (left knots i x) (right knots i x) p
  have hd := h.deg
  intro k
  induction k with
  | zero => intro j _ _; rfl
  | succ k ih =>
    intro j h1 h2
    rw [tcoeff, coeff, ih j (by omega) h2]
    have e : (if j = 0 then 0 else tcoeff (nduTable (left knots i x) (right knots i x) p) p r k (j - 1)) = if j = 0 then 0 else coeff (knot knots) p (i - p + r) k (j - 1) := by
      by_cases h0 : j = 0
      · rw [if_pos h0, if_pos h0]
      · rw [if_neg h0, if_neg h0, ih (j - 1) (by omega) (by omega)]
    by_cases hk : k < p
    · rw [e, ht.2 (p - k) (r + j - (k + 1)) (by omega) (by omega)]
      unfold left right
      rw [sub_add_sub_cancel, show i + (r + j - (k + 1) + 1) = i - p + r + j + (p - k) by omega, show i + 1 - (p - k - (r + j - (k + 1))) = i - p + r + j by omega]
    · omega

theorem basis_all (h : InSpan (knot knots) i p x) (nth k j : Nat) (hk : k ≤ nth) (hj : j ≤ p) :
    basisDerivatives knots i p nth x k j = derivN (knot knots) p (i - p + j) k x := by
  have ht := table_spec (left knots i x) (right knots i x) p
  have hd := h.deg
  unfold basisDerivatives
  rw [rows_spec _ _ _ _ _ _ hj, rows_spec _ _ _ _ _ _ hj]
  by_cases h0 : k = 0
  · subst h0
    rw [if_pos rfl, if_neg (by omega), if_pos rfl, derivN_zero, ht.1 p j le_rfl hj, loc_eq_N h p le_rfl j hj]
  · rw [if_neg h0, if_pos (by omega), factor_spec p k (by omega), derivN, mul_comm]
    by_cases hkp : p < k
    · rw [Nat.descFactorial_eq_zero_iff_lt.2 hkp]; simp
    congr 1
    refine Finset.sum_congr rfl fun l hl => ?_
    rw [Finset.mem_range] at hl
    rw [part]
    by_cases hv : k ≤ j + l ∧ j + l ≤ p
    · rw [if_pos hv, tcoeff_eq h j hj k l hv.1 hv.2, ht.1 (p - k) (j + l - k) (by omega) (by omega), loc_eq_N h (p - k) (by omega) _ (by omega)]
      congr 2
      omega
    · rw [if_neg hv, N_support h.mono h.lo h.hi (p - k) _ (by omega), mul_zero]

end order

/-- in a span the derivatives sum to those of the constant one -/
theorem derivN_sum {knots : List ℝ} {i p L : Nat} (hd : p ≤ i) (mono : ∀ a b, a ≤ b → b ≤ L → knot knots a ≤ knot knots b) (hL : i + p + 1 ≤ L) :
    ∀ k y, knot knots i ≤ y → y < knot knots (i + 1) →
      ∑ j ∈ Finset.range (p + 1), derivN (knot knots) p (i - p + j) k y = if k = 0 then 1 else 0 := by
  intro k
  induction k with
  | zero =>
    intro y h0 h1
    have h : InSpan (knot knots) i p y := ⟨hd, fun a b hab hb => mono a b hab (by omega), h0, h1⟩
    rw [if_pos rfl, ← loc_sum h p le_rfl]
    refine Finset.sum_congr rfl fun j hj => ?_
    rw [Finset.mem_range] at hj
    rw [derivN_zero, loc_eq_N h p le_rfl j (by omega)]
  | succ k ih =>
    intro y h0 h1
    rw [if_neg (by omega)]
    have d1 : HasDerivWithinAt (fun z => ∑ j ∈ Finset.range (p + 1), derivN (knot knots) p (i - p + j) k z)
        (∑ j ∈ Finset.range (p + 1), derivN (knot knots) p (i - p + j) (k + 1) y) (Set.Ici y) y := by
      refine HasDerivWithinAt.fun_sum fun j hj => ?_
      rw [Finset.mem_range] at hj
      exact derivN_deriv mono p _ (by omega) k y (Set.Ici y) fun m _ => N_deriv_zero _ m y
    have d2 : HasDerivWithinAt (fun z => ∑ j ∈ Finset.range (p + 1), derivN (knot knots) p (i - p + j) k z) 0 (Set.Ici y) y := by
      refine (hasDerivWithinAt_const y (Set.Ici y) (if k = 0 then (1 : ℝ) else 0)).congr_of_eventuallyEq ?_ (ih y h0 h1)
      filter_upwards [self_mem_nhdsWithin, mem_nhdsWithin_of_mem_nhds (Iio_mem_nhds h1)] with z hz hz'
      exact ih z (h0.trans hz) hz'
    exact (uniqueDiffWithinAt_Ici y).eq_deriv _ d1 d2

end Artist.Nurbs
