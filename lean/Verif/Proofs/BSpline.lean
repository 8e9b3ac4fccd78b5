import Mathlib.Analysis.Calculus.Deriv.Mul
import Mathlib.Analysis.Calculus.Deriv.Add
import Mathlib.Tactic.FieldSimp
import Mathlib.Tactic.Ring
import Mathlib.Tactic.Linarith
import Mathlib.Tactic.LinearCombination
import Verif.Spec.BSpline
/-!
# Helper lemmas about B-spline basis functions
-/
namespace Artist.BSpline

theorem N_support {K : Type} [Field K] [LinearOrder K] {U : Nat → K} {i p : Nat} {x : K}
    (mono : ∀ a b, a ≤ b → b ≤ i + p → U a ≤ U b) (h0 : U i ≤ x) (h1 : x < U (i + 1)) :
    ∀ q m, (i < m ∧ m + q ≤ i + p) ∨ (m + q < i) → N U q m x = 0 := by
  intro q
  induction q with
  | zero =>
    intro m hm
    rw [N, if_neg]
    rintro ⟨ha, hb⟩
    rcases hm with ⟨h, h'⟩ | h
    · exact absurd (lt_of_lt_of_le h1 (mono (i + 1) m h (by omega))) (not_lt.mpr ha)
    · exact absurd (lt_of_lt_of_le hb (le_trans (mono (m + 1) i (by omega) (by omega)) h0)) (lt_irrefl _)
  | succ q ih =>
    intro m hm
    rw [N, ih m (by omega), ih (m + 1) (by omega), mul_zero, mul_zero, add_zero]

theorem N_deriv_zero (U : Nat → ℝ) (m : Nat) (x : ℝ) :
    HasDerivWithinAt (N U 0 m) 0 (Set.Ici x) x := by
  have key : ∀ c : ℝ, (∃ y, x < y ∧ ∀ z, x ≤ z → z < y → N U 0 m z = c) →
      HasDerivWithinAt (N U 0 m) 0 (Set.Ici x) x := by
    rintro c ⟨y, hy, h⟩
    refine (hasDerivWithinAt_const x (Set.Ici x) c).congr_of_eventuallyEq ?_ (h x le_rfl hy)
    filter_upwards [self_mem_nhdsWithin, mem_nhdsWithin_of_mem_nhds (Iio_mem_nhds hy)] with z hz hz'
    exact h z hz hz'
  by_cases h1 : x < U (m + 1)
  · by_cases h0 : U m ≤ x
    · exact key 1 ⟨U (m + 1), h1, fun z hz hz' => by rw [N, if_pos ⟨h0.trans hz, hz'⟩]⟩
    · exact key 0 ⟨U m, not_le.mp h0, fun z _ hz' => by
        rw [N, if_neg]; rintro ⟨h, -⟩; linarith⟩
  · exact key 0 ⟨x + 1, by linarith, fun z hz _ => by
      rw [N, if_neg]; rintro ⟨-, h⟩; linarith⟩

/-- The derivative of a B-spline basis function within a set on which those of degree zero are constant near the point (textbook formula). -/
theorem N_deriv_on {U : Nat → ℝ} {L : Nat} (mono : ∀ a b, a ≤ b → b ≤ L → U a ≤ U b) (x : ℝ) (S : Set ℝ)
    (zero : ∀ m, m + 1 ≤ L → HasDerivWithinAt (N U 0 m) 0 S x) :
    ∀ q m, m + q + 2 ≤ L → HasDerivWithinAt (N U (q + 1) m)
      ((q + 1 : ℕ) * (N U q m x / (U (m + q + 1) - U m) - N U q (m + 1) x / (U (m + q + 2) - U (m + 1))))
      S x := by
  have base : ∀ q m (d d' : ℝ), HasDerivWithinAt (N U q m) d S x →
      HasDerivWithinAt (N U q (m + 1)) d' S x →
      HasDerivWithinAt (N U (q + 1) m)
        ((1 / (U (m + q + 1) - U m)) * N U q m x + (x - U m) / (U (m + q + 1) - U m) * d +
          ((-1) / (U (m + q + 2) - U (m + 1)) * N U q (m + 1) x +
            (U (m + q + 2) - x) / (U (m + q + 2) - U (m + 1)) * d')) S x := by
    intro q m d d' h h'
    have l1 : HasDerivWithinAt (fun x => (x - U m) / (U (m + q + 1) - U m)) (1 / (U (m + q + 1) - U m))
        S x := ((hasDerivWithinAt_id x _).sub_const _).div_const _
    have l2 : HasDerivWithinAt (fun x => (U (m + q + 2) - x) / (U (m + q + 2) - U (m + 1)))
        ((-1) / (U (m + q + 2) - U (m + 1))) S x :=
      ((hasDerivWithinAt_id x _).const_sub _).div_const _
    have := (l1.mul h).add (l2.mul h')
    exact this
  intro q
  induction q with
  | zero =>
    intro m hm
    have := base 0 m 0 0 (zero m (by omega)) (zero (m + 1) (by omega))
    convert this using 1
    push_cast
    ring
  | succ q ih =>
    intro m hm
    have := base (q + 1) m _ _ (ih m (by omega)) (ih (m + 1) (by omega))
    convert this using 1
    have e1 : U (m + 1 + q + 1) = U (m + (q + 1) + 1) := by congr 1; omega
    have e2 : U (m + 1 + q + 2) = U (m + (q + 1) + 2) := by congr 1; omega
    have e3 : U (m + q + 1) = U (m + (q + 1)) := by congr 1
    have e4 : U (m + q + 2) = U (m + (q + 1) + 1) := by congr 1
    have eN : N U (q + 1) m x = (x - U m) / (U (m + q + 1) - U m) * N U q m x +
      (U (m + q + 2) - x) / (U (m + q + 2) - U (m + 1)) * N U q (m + 1) x := rfl
    have eN' : N U (q + 1) (m + 1) x = (x - U (m + 1)) / (U (m + 1 + q + 1) - U (m + 1)) * N U q (m + 1) x +
      (U (m + 1 + q + 2) - x) / (U (m + 1 + q + 2) - U (m + 1 + 1)) * N U q (m + 1 + 1) x := rfl
    rw [e1, e2] at eN'
    rw [e3, e4] at eN
    rw [e1, e2, e3, e4]
    have m1 : U m ≤ U (m + 1) := mono _ _ (by omega) (by omega)
    have m2 : U (m + (q + 1) + 1) ≤ U (m + (q + 1) + 2) := mono _ _ (by omega) (by omega)
    have m3 : U (m + 1) ≤ U (m + (q + 1) + 1) := mono _ _ (by omega) (by omega)
    have m4 : U m ≤ U (m + (q + 1)) := mono _ _ (by omega) (by omega)
    have m5 : U (m + (q + 1)) ≤ U (m + (q + 1) + 1) := mono _ _ (by omega) (by omega)
    have m6 : U (m + 1 + 1) ≤ U (m + (q + 1) + 2) := mono _ _ (by omega) (by omega)
    have m7 : U (m + 1) ≤ U (m + 1 + 1) := mono _ _ (by omega) (by omega)
    generalize hA : N U q m x = A at *
    generalize hB : N U q (m + 1) x = B at *
    generalize hC : N U q (m + 1 + 1) x = C at *
    generalize hN1 : N U (q + 1) m x = N1 at *
    generalize hN2 : N U (q + 1) (m + 1) x = N2 at *
    generalize ha : U m = a at *
    generalize hb : U (m + 1) = b at *
    generalize hc : U (m + (q + 1) + 1) = c at *
    generalize hd : U (m + (q + 1) + 2) = d at *
    generalize hb' : U (m + 1 + 1) = b' at *
    generalize hc' : U (m + (q + 1)) = c' at *
    -- the coefficient of the middle function
    have mid : B / (c - b) * ((c - x) / (c - a) - (x - b) / (d - b)) =
        B / (c - b) * ((d - x) / (d - b) - (x - a) / (c - a)) := by
      by_cases hcb : c - b = 0
      · rw [hcb, div_zero, zero_mul, zero_mul]
      · have p1 : 0 < c - b := lt_of_le_of_ne (by linarith) (Ne.symm hcb)
        have p2 : c - a ≠ 0 := by linarith [p1] |> fun (h : 0 < c - a) => h.ne'
        have p3 : d - b ≠ 0 := by linarith [p1] |> fun (h : 0 < d - b) => h.ne'
        congr 1
        field_simp
        ring
    push_cast
    rw [eN, eN']
    linear_combination ((q : ℝ) + 1) * mid

/-- The right derivative of a B-spline basis function (textbook formula). -/
theorem N_deriv {U : Nat → ℝ} {L : Nat} (mono : ∀ a b, a ≤ b → b ≤ L → U a ≤ U b) (x : ℝ) :
    ∀ q m, m + q + 2 ≤ L → HasDerivWithinAt (N U (q + 1) m)
      ((q + 1 : ℕ) * (N U q m x / (U (m + q + 1) - U m) - N U q (m + 1) x / (U (m + q + 2) - U (m + 1))))
      (Set.Ici x) x := N_deriv_on mono x (Set.Ici x) fun m _ => N_deriv_zero U m x

/-- Inside of a span the basis functions of degree zero are constant. -/
theorem N_deriv_zero_inside {U : Nat → ℝ} {L i : Nat} (mono : ∀ a b, a ≤ b → b ≤ L → U a ≤ U b) (hi : i ≤ L) {x : ℝ} (h0 : U i < x) (h1 : x < U (i + 1))
    (m : Nat) (hm : m + 1 ≤ L) : HasDerivWithinAt (N U 0 m) 0 Set.univ x := by
  rw [hasDerivWithinAt_univ]
  refine (hasDerivAt_const x (if m = i then (1 : ℝ) else 0)).congr_of_eventuallyEq ?_
  filter_upwards [Ioi_mem_nhds h0, Iio_mem_nhds h1] with z hz hz'
  rw [Set.mem_Ioi] at hz
  rw [Set.mem_Iio] at hz'
  rcases lt_trichotomy m i with h | h | h
  · have := mono (m + 1) i (by omega) hi
    rw [N, if_neg (by rintro ⟨-, h'⟩; linarith), if_neg (by omega)]
  · rw [if_pos h, N, h, if_pos ⟨hz.le, hz'⟩]
  · have := mono (i + 1) m (by omega) (by omega)
    rw [N, if_neg (by rintro ⟨h', -⟩; linarith), if_neg (by omega)]

end Artist.BSpline
