import Verif.Proofs.NurbsSurface
import Verif.Model.RoundedSpan
import Mathlib.Tactic.Linarith
import Mathlib.Tactic.Positivity
import Mathlib.Tactic.FieldSimp
import Mathlib.Algebra.Order.BigOperators.Ring.Finset
/-! Helper lemmas for C107: the polynomials of the basis functions on neighbouring knot spans. -/
namespace Artist.RoundedSpan
open Artist Nurbs BSpline

section
variable {K : Type} [Field K] [LinearOrder K] [IsStrictOrderedRing K]

/-- the polynomial that is the basis function on span `s`, at any parameter -/
def piece (U : Nat → K) (s : Nat) : Nat → Nat → K → K
  | 0, i, _ => if i = s then 1 else 0
  | p + 1, i, x => (x - U i) / (U (i + p + 1) - U i) * piece U s p i x +
      (U (i + p + 2) - x) / (U (i + p + 2) - U (i + 1)) * piece U s p (i + 1) x

/-- its derivative -/
def dpiece (U : Nat → K) (s : Nat) : Nat → Nat → K → K
  | 0, _, _ => 0
  | p + 1, i, x => ((p + 1 : ℕ) : K) * (piece U s p i x / (U (i + p + 1) - U i) - piece U s p (i + 1) x / (U (i + p + 2) - U (i + 1)))

theorem piece_zero (U : Nat → K) (s : Nat) (x : K) : ∀ p i, (s < i ∨ i + p < s) → piece U s p i x = 0 := by
  intro p
  induction p with
  | zero => intro i h; rw [piece, if_neg (by omega)]
  | succ p ih => intro i h; rw [piece, ih i (by omega), ih (i + 1) (by omega), mul_zero, mul_zero, add_zero]

theorem dpiece_zero (U : Nat → K) (s : Nat) (x : K) (p i) (h : s < i ∨ i + p < s) : dpiece U s p i x = 0 := by
  cases p with
  | zero => rfl
  | succ p => rw [dpiece, piece_zero U s x p i (by omega), piece_zero U s x p (i + 1) (by omega)]; simp

theorem piece_congr {U V : Nat → K} {s : Nat} {x : K} : ∀ q m, (∀ i, i ≤ m + q + 1 → U i = V i) → piece U s q m x = piece V s q m x := by
  intro q
  induction q with
  | zero => intro m h; rw [piece, piece]
  | succ q ih =>
    intro m h
    rw [piece, piece, ih m (fun i hi => h i (by omega)), ih (m + 1) (fun i hi => h i (by omega)), h m (by omega),
      h (m + q + 1) (by omega), h (m + q + 2) (by omega), h (m + 1) (by omega)]

theorem dpiece_congr {U V : Nat → K} {s : Nat} {x : K} (q m) (h : ∀ i, i ≤ m + q + 1 → U i = V i) : dpiece U s q m x = dpiece V s q m x := by
  cases q with
  | zero => rfl
  | succ q =>
    rw [dpiece, dpiece, piece_congr q m (fun i hi => h i (by omega)), piece_congr q (m + 1) (fun i hi => h i (by omega)), h m (by omega),
      h (m + q + 1) (by omega), h (m + q + 2) (by omega), h (m + 1) (by omega)]

theorem piece_eq_N {U : Nat → K} {s : Nat} {x : K} (mono : ∀ a b, a ≤ b → U a ≤ U b) (h0 : U s ≤ x) (h1 : x < U (s + 1)) :
    ∀ p i, piece U s p i x = N U p i x := by
  intro p
  induction p with
  | zero =>
    intro i
    rw [piece, N]
    by_cases h : i = s
    · rw [if_pos h, h, if_pos ⟨h0, h1⟩]
    · rw [if_neg h, if_neg]
      rintro ⟨a, b⟩
      rcases Nat.lt_or_gt_of_ne h with h | h
      · exact absurd (mono (i + 1) s (by omega)) (not_le.2 (h0.trans_lt b))
      · exact absurd (mono (s + 1) i (by omega)) (not_le.2 (a.trans_lt h1))
  | succ p ih => intro i; rw [piece, N, ih, ih]

theorem loc_eq_piece {knots : List K} {s p : Nat} {x : K} (hd : p ≤ s) :
    ∀ j, j ≤ p → ∀ r, r ≤ j → loc (left knots s x) (right knots s x) j r = piece (knot knots) s j (s - j + r) x := by
  intro j
  induction j with
  | zero =>
    intro _ r hr
    obtain rfl : r = 0 := by omega
    rw [loc, if_pos rfl, piece, if_pos (by omega)]
  | succ j ih =>
    intro hj r hr
    rw [loc, piece]
    have hs := piece_zero (knot knots) s x
    congr 1
    · by_cases h0 : r = 0
      · rw [if_pos h0, hs j _ (Or.inr (by omega)), mul_zero]
      · rw [if_neg h0, ih (by omega) (r - 1) (by omega), show s - j + (r - 1) = s - (j + 1) + r by omega]
        unfold left right
        rw [show s + 1 - (j + 2 - r) = s - (j + 1) + r by omega, show s - (j + 1) + r + j + 1 = s + r by omega]
        rw [sub_add_sub_cancel]
        ring
    · by_cases h0 : r ≤ j
      · rw [if_pos h0, ih (by omega) r h0, show s - j + r = s - (j + 1) + r + 1 by omega]
        unfold left right
        rw [show s + 1 - (j + 1 - r) = s - (j + 1) + r + 1 by omega, show s - (j + 1) + r + j + 2 = s + (r + 1) by omega]
        rw [sub_add_sub_cancel]
        ring
      · rw [if_neg h0, hs j _ (Or.inl (by omega)), mul_zero]

/-- one over the product of the differences of the knot `s` and the other knots from `i` to `i + m` -/
def coef (U : Nat → K) (s i m : Nat) : K :=
  if i ≤ s ∧ s ≤ i + m then (∏ j ∈ Finset.range (m + 1), if i + j = s then 1 else U s - U (i + j))⁻¹ else 0

theorem coef_right {U : Nat → K} {s i m : Nat} (h : i ≤ s ∧ s ≤ i + m + 1) (hne : i + m + 1 ≠ s → U s - U (i + m + 1) ≠ 0) :
    coef U s i m = (U s - U (i + m + 1)) * coef U s i (m + 1) := by
  by_cases hs : s = i + m + 1
  · unfold coef
    rw [if_neg (by omega), ← hs, sub_self, zero_mul]
  · unfold coef
    rw [if_pos (by omega), if_pos (by omega), Finset.prod_range_succ _ (m + 1), if_neg (by omega), ← add_assoc, mul_inv, mul_comm _ (_)⁻¹, ← mul_assoc,
      mul_inv_cancel₀ (hne (by omega)), one_mul]

theorem coef_left {U : Nat → K} {s i m : Nat} (h : i ≤ s ∧ s ≤ i + m + 1) (hne : i ≠ s → U s - U i ≠ 0) :
    coef U s (i + 1) m = (U s - U i) * coef U s i (m + 1) := by
  by_cases hs : s = i
  · unfold coef
    rw [if_neg (by omega), ← hs, sub_self, zero_mul]
  · unfold coef
    rw [if_pos (by omega), if_pos (by omega), Finset.prod_range_succ' _ (m + 1), if_neg (by omega), add_zero, mul_inv, mul_comm _ (_)⁻¹, ← mul_assoc,
      mul_inv_cancel₀ (hne (by omega)), one_mul]
    congr 1
    apply Finset.prod_congr rfl
    intro j _
    rw [show i + 1 + j = i + (j + 1) by omega]

variable {U : Nat → K} {s : Nat} {x : K}

theorem distinct (mono : ∀ a b, a ≤ b → U a ≤ U b) (hs : 1 ≤ s) (l : U (s - 1) < U s) (r : U s < U (s + 1)) (j : Nat) (hj : j ≠ s) : U s - U j ≠ 0 := by
  rcases Nat.lt_or_gt_of_ne hj with h | h
  · have := mono j (s - 1) (by omega)
    exact (sub_pos.2 (this.trans_lt l)).ne'
  · have := mono (s + 1) j (by omega)
    exact (sub_neg.2 (r.trans_le this)).ne

theorem wide (mono : ∀ a b, a ≤ b → U a ≤ U b) (hs : 1 ≤ s) (l : U (s - 1) < U s) (r : U s < U (s + 1)) {i m : Nat} (h : i ≤ s ∧ s ≤ i + m + 1) :
    U (i + m + 1) - U i ≠ 0 := by
  apply ne_of_gt
  rw [sub_pos]
  by_cases hi : i = s
  · subst hi
    exact r.trans_le (mono _ _ (by omega))
  · exact ((mono i (s - 1) (by omega)).trans_lt l).trans_le (mono _ _ (by omega))

/-- the polynomials of a basis function on the two spans beside knot `s` -/
theorem piece_sub (mono : ∀ a b, a ≤ b → U a ≤ U b) (hs : 1 ≤ s) (l : U (s - 1) < U s) (r : U s < U (s + 1)) :
    ∀ p i, piece U s p i x - piece U (s - 1) p i x = -((U (i + p + 1) - U i) * (U s - x) ^ p * coef U s i (p + 1)) := by
  have dis := distinct mono hs l r
  intro p
  induction p with
  | zero =>
    intro i
    rw [piece, piece, pow_zero, mul_one]
    rcases Nat.lt_trichotomy i s with h | h | h
    · by_cases h' : i + 1 = s
      · subst h'
        have := dis i (by omega)
        rw [if_neg (by omega), if_pos (by omega), coef, if_pos (by omega), Finset.prod_range_succ, Finset.prod_range_one, if_neg (by omega), if_pos rfl, add_zero,
          mul_one, mul_inv_cancel₀ this]
        ring
      · rw [if_neg (by omega), if_neg (by omega), coef, if_neg (by omega)]; ring
    · subst h
      have := dis (i + 1) (by omega)
      rw [if_pos rfl, if_neg (by omega), coef, if_pos (by omega), Finset.prod_range_succ, Finset.prod_range_one, if_pos (by omega), if_neg (by omega), one_mul,
        show U (i + 0 + 1) = U (i + 1) by rfl, ← neg_mul, neg_sub, mul_inv_cancel₀ this]
      ring
    · rw [if_neg (by omega), if_neg (by omega), coef, if_neg (by omega)]; ring
  | succ p ih =>
    intro i
    rw [piece, piece]
    have cancel : ∀ i : Nat, ∀ a Y : K, a / (U (i + p + 1) - U i) * ((U (i + p + 1) - U i) * Y * coef U s i (p + 1)) = a * Y * coef U s i (p + 1) := by
      intro i a Y
      by_cases h : i ≤ s ∧ s ≤ i + p + 1
      · have := wide mono hs l r h
        field_simp
      · rw [coef, if_neg (by omega)]; ring
    have e : ∀ a b P P' Q Q' : K, a * P + b * Q - (a * P' + b * Q') = a * (P - P') + b * (Q - Q') := by intros; ring
    rw [e, ih i, ih (i + 1), mul_neg, mul_neg, cancel i]
    have c2 := cancel (i + 1) (U (i + p + 2) - x) ((U s - x) ^ p)
    rw [show i + 1 + p + 1 = i + p + 2 by omega] at c2 ⊢
    rw [c2]
    by_cases h : i ≤ s ∧ s ≤ i + (p + 1) + 1
    · rw [coef_right h (fun hh => dis _ hh), coef_left h (fun hh => dis _ hh), show i + (p + 1) + 1 = i + p + 2 by omega, show p + 1 + 1 = p + 2 by omega]
      ring
    · rw [coef, coef, coef, if_neg (by omega), if_neg (by omega), if_neg (by omega)]; ring

theorem dpiece_sub (mono : ∀ a b, a ≤ b → U a ≤ U b) (hs : 1 ≤ s) (l : U (s - 1) < U s) (r : U s < U (s + 1)) (p i : Nat) :
    dpiece U s (p + 1) i x - dpiece U (s - 1) (p + 1) i x = -(((p + 1 : ℕ) : K) * (U s - x) ^ p * (coef U s i (p + 1) - coef U s (i + 1) (p + 1))) := by
  rw [dpiece, dpiece]
  have cancel : ∀ i : Nat, ∀ Y : K, ((U (i + p + 1) - U i) * Y * coef U s i (p + 1)) / (U (i + p + 1) - U i) = Y * coef U s i (p + 1) := by
    intro i Y
    by_cases h : i ≤ s ∧ s ≤ i + p + 1
    · have := wide mono hs l r h
      field_simp
    · rw [coef, if_neg (by omega)]; simp
  have e : ∀ n P P' Q Q' a b : K, n * (P / a - Q / b) - n * (P' / a - Q' / b) = n * ((P - P') / a - (Q - Q') / b) := by intros; ring
  rw [e, piece_sub mono hs l r, piece_sub mono hs l r, neg_div, neg_div, cancel i]
  have c2 := cancel (i + 1) ((U s - x) ^ p)
  rw [show i + 1 + p + 1 = i + p + 2 by omega] at c2 ⊢
  rw [c2]
  ring

/-- bound on `coef` when the knots next to `s` are at least `h` away -/
theorem coef_bound (mono : ∀ a b, a ≤ b → U a ≤ U b) (hs : 1 ≤ s) {h : K} (hh : 0 < h) (l : h ≤ U s - U (s - 1)) (r : h ≤ U (s + 1) - U s) (i m : Nat) :
    |coef U s i m| ≤ (h⁻¹) ^ m := by
  unfold coef
  split_ifs with hc
  · rw [abs_inv, inv_pow, inv_le_inv₀]
    · rw [Finset.abs_prod]
      have e : h ^ m = ∏ j ∈ Finset.range (m + 1), if i + j = s then 1 else h := by
        rw [Finset.prod_ite, Finset.prod_const_one, one_mul, Finset.prod_const]
        congr 1
        have : (Finset.range (m + 1)).filter (fun j => ¬ i + j = s) = (Finset.range (m + 1)).erase (s - i) := by
          ext j
          rw [Finset.mem_filter, Finset.mem_erase]
          constructor
          · rintro ⟨a, b⟩; exact ⟨by omega, a⟩
          · rintro ⟨a, b⟩; exact ⟨b, by omega⟩
        rw [this, Finset.card_erase_of_mem (Finset.mem_range.2 (by omega)), Finset.card_range, Nat.add_sub_cancel]
      rw [e]
      apply Finset.prod_le_prod
      · intro j _; split_ifs <;> [exact zero_le_one; exact hh.le]
      · intro j _
        split_ifs with hj
        · rw [abs_one]
        · rcases Nat.lt_or_gt_of_ne hj with h' | h'
          · have := mono (i + j) (s - 1) (by omega)
            exact le_trans (by linarith) (le_abs_self _)
          · have := mono (s + 1) (i + j) (by omega)
            exact le_trans (by linarith) (neg_le_abs _)
    · rw [Finset.abs_prod]
      apply Finset.prod_pos
      intro j _
      rw [abs_pos]
      split_ifs with hj
      · exact one_ne_zero
      · exact distinct mono hs (by linarith) (by linarith) _ hj
    · positivity
  · rw [abs_zero]; positivity

end
end Artist.RoundedSpan

namespace Artist.RoundedSpan
open Artist Nurbs BSpline

section
variable {K : Type} [Field K] [LinearOrder K] [IsStrictOrderedRing K]

theorem loc_sum {knots : List K} {s p : Nat} {x : K} (hd : p ≤ s) (mono : ∀ a b, a ≤ b → b ≤ s + p → knot knots a ≤ knot knots b)
    (hs : knot knots s < knot knots (s + 1)) :
    ∀ j, j ≤ p → ∑ r ∈ Finset.range (j + 1), loc (left knots s x) (right knots s x) j r = 1 := by
  intro j
  induction j with
  | zero => intro _; simp [loc]
  | succ j ih =>
    intro hj
    have ih := ih (by omega)
    simp only [loc, Finset.sum_add_distrib]
    rw [Finset.sum_range_succ' (n := j + 1), Finset.sum_range_succ (n := j + 1)]
    rw [if_pos rfl, if_neg (by omega : ¬ j + 1 ≤ j), add_zero, add_zero, ← Finset.sum_add_distrib, ← ih]
    apply Finset.sum_congr rfl
    intro r hr
    rw [Finset.mem_range] at hr
    rw [if_neg (by omega), if_pos (by omega), Nat.add_sub_cancel, show j + 2 - (r + 1) = j + 1 - r by omega]
    have hd : 0 < right knots s x (r + 1) + left knots s x (j + 1 - r) := by
      unfold left right
      rw [sub_add_sub_cancel, sub_pos]
      have a := mono (s + 1) (s + (r + 1)) (by omega) (by omega)
      have b := mono (s + 1 - (j + 1 - r)) s (by omega) (by omega)
      linarith
    rw [← add_mul, add_comm, mul_div_cancel₀ _ hd.ne']

theorem dloc_eq_piece {knots : List K} {s p : Nat} {x : K} (hd : p + 1 ≤ s) (r : Nat) (hr : r ≤ p + 1) :
    dloc (left knots s x) (right knots s x) (p + 1) r = dpiece (knot knots) s (p + 1) (s - (p + 1) + r) x := by
  have hs := piece_zero (knot knots) s x
  have he := loc_eq_piece (knots := knots) (x := x) (show p ≤ s by omega) p le_rfl
  rw [dloc, dpiece, Nat.add_sub_cancel]
  congr 2
  · by_cases h0 : r = 0
    · rw [if_pos h0, hs p _ (Or.inr (by omega)), zero_div]
    · rw [if_neg h0, he (r - 1) (by omega)]
      unfold left right
      rw [show s - p + (r - 1) = s - (p + 1) + r by omega, show s + 1 - (p + 1 + 1 - r) = s - (p + 1) + r by omega,
        show s - (p + 1) + r + p + 1 = s + r by omega, sub_add_sub_cancel]
  · by_cases h0 : r < p + 1
    · rw [if_pos h0, he r (by omega)]
      unfold left right
      rw [show s - p + r = s - (p + 1) + r + 1 by omega, show s + 1 - (p + 1 - r) = s - (p + 1) + r + 1 by omega,
        show s - (p + 1) + r + p + 2 = s + (r + 1) by omega, sub_add_sub_cancel]
    · rw [if_neg h0, hs p _ (Or.inl (by omega)), zero_div]

theorem basis_piece {n p s : Nat} (hp : 1 ≤ p) (hn : p < n) (hs : p ≤ s) (hs' : s < n) (x : K) (r : Nat) (hr : r ≤ p) :
    basisDerivatives (uniformKnots n p) s p (min 1 p) x 0 r = piece (clampedUniform n p) s p (s - p + r) x ∧
    basisDerivatives (uniformKnots n p) s p (min 1 p) x 1 r = dpiece (clampedUniform n p) s p (s - p + r) x := by
  constructor
  · rw [basis_zero _ _ _ _ _ (by omega), loc_eq_piece hs p le_rfl r hr]
    exact piece_congr _ _ fun i hi => knot_uniform hp hn (by omega)
  · rw [basis_one _ _ _ _ _ hp (by omega)]
    obtain ⟨q, rfl⟩ : ∃ q, p = q + 1 := ⟨p - 1, by omega⟩
    rw [dloc_eq_piece hs r hr]
    exact dpiece_congr _ _ fun i hi => knot_uniform hp hn (by omega)

theorem window_piece {n p s : Nat} (hp : 1 ≤ p) (hn : p < n) (hs : p ≤ s) (hs' : s < n) (x : K) (f : Nat → K) :
    ∑ r ∈ Finset.range (p + 1), basisDerivatives (uniformKnots n p) s p (min 1 p) x 0 r * f (s - p + r) =
      ∑ m ∈ Finset.range n, piece (clampedUniform n p) s p m x * f m := by
  rw [window_sum hs hs']
  · apply Finset.sum_congr rfl
    intro r hr
    rw [Finset.mem_range] at hr
    rw [(basis_piece hp hn hs hs' x r (by omega)).1]
  · intro m hm hm'
    rw [piece_zero _ _ _ _ _ (by omega), zero_mul]

theorem clamped_step {n p s : Nat} (hn : p < n) (hs : p ≤ s) (hs' : s < n) : (clampedUniform n p (s + 1) : K) - clampedUniform n p s = 1 / ((n - p : Nat) : K) := by
  have a := clamped_mid (K := K) hn (k := s + 1 - p) (by omega)
  have b := clamped_mid (K := K) hn (k := s - p) (by omega)
  rw [show s + 1 - p + p = s + 1 by omega] at a
  rw [show s - p + p = s by omega] at b
  rw [a, b, show s + 1 - p = s - p + 1 by omega, Nat.cast_add, Nat.cast_one]
  ring

theorem clamped_dist {n p : Nat} (hn : p < n) (i m : Nat) : (clampedUniform n p (i + m) : K) - clampedUniform n p i ≤ m / ((n - p : Nat) : K) := by
  have hpos : (0 : K) < ((n - p : Nat) : K) := by exact_mod_cast (by omega : 0 < n - p)
  induction m with
  | zero => simp
  | succ m ih =>
    have : (clampedUniform n p (i + m + 1) : K) - clampedUniform n p (i + m) ≤ 1 / ((n - p : Nat) : K) := by
      by_cases h1 : p ≤ i + m
      · by_cases h2 : i + m < n
        · exact (clamped_step hn h1 h2).le
        · rw [clamped_high hn (by omega), clamped_high hn (by omega), sub_self]; positivity
      · rw [clamped_low hn (by omega), clamped_low hn (by omega), sub_self]; positivity
    rw [← add_assoc, Nat.cast_add, Nat.cast_one, add_div]
    linarith

theorem piece_sum {n p s : Nat} (hp : 1 ≤ p) (hn : p < n) (hs : p ≤ s) (hs' : s < n) (x : K) :
    ∑ m ∈ Finset.range n, piece (clampedUniform n p) s p m x = 1 := by
  have h := window_piece (K := K) hp hn hs hs' x (fun _ => 1)
  simp only [mul_one] at h
  have hpos : (0 : K) < 1 / ((n - p : Nat) : K) := by
    have : (0 : K) < ((n - p : Nat) : K) := by exact_mod_cast (by omega : 0 < n - p)
    positivity
  rw [← h, ← loc_sum (knots := uniformKnots n p) (x := x) hs _ _ p le_rfl]
  · apply Finset.sum_congr rfl
    intro r hr
    rw [Finset.mem_range] at hr
    exact basis_zero _ _ _ _ _ (by omega)
  · intro a b hab hb
    rw [knot_uniform hp hn (by omega), knot_uniform hp hn (by omega)]
    exact clamped_mono hn hab
  · rw [knot_uniform hp hn (by omega), knot_uniform hp hn (by omega)]
    have := clamped_step (K := K) hn hs hs'
    linarith

/-- the span before `s` is used instead of `s`, or the other way round -/
theorem piece_bound {n p s : Nat} (hn : p < n) (hs : p < s) (hs' : s < n) (x : K) (q i : Nat) :
    |piece (clampedUniform n p) s q i x - piece (clampedUniform n p) (s - 1) q i x| ≤
      if i ≤ s ∧ s ≤ i + q + 1 then (q + 1 : Nat) * (((n - p : Nat) : K) * |clampedUniform n p s - x|) ^ q else 0 := by
  have hpos : (0 : K) < ((n - p : Nat) : K) := by exact_mod_cast (by omega : 0 < n - p)
  have l := clamped_step (K := K) (s := s - 1) hn (by omega) (by omega)
  rw [show s - 1 + 1 = s by omega] at l
  have r := clamped_step (K := K) hn hs.le hs'
  have hh : (0 : K) < 1 / ((n - p : Nat) : K) := by positivity
  have mono : ∀ a b, a ≤ b → (clampedUniform n p a : K) ≤ clampedUniform n p b := fun a b h => clamped_mono hn h
  rw [piece_sub mono (by omega) (by linarith) (by linarith)]
  split_ifs with hc
  · have c := coef_bound (U := clampedUniform n p) mono (by omega) hh l.ge r.ge i (q + 1)
    have d := clamped_dist (K := K) hn i (q + 1)
    rw [← add_assoc] at d
    have d0 : (0 : K) ≤ clampedUniform n p (i + q + 1) - clampedUniform n p i := sub_nonneg.2 (mono _ _ (by omega))
    rw [abs_neg, abs_mul, abs_mul, abs_pow, abs_of_nonneg d0, mul_pow]
    calc _ ≤ ((q + 1 : Nat) / ((n - p : Nat) : K)) * |clampedUniform n p s - x| ^ q * ((1 / ((n - p : Nat) : K))⁻¹) ^ (q + 1) :=
          mul_le_mul (mul_le_mul_of_nonneg_right d (by positivity)) c (abs_nonneg _) (by positivity)
      _ = _ := by rw [one_div, inv_inv, pow_succ]; field_simp
  · rw [coef, if_neg (by omega)]; simp

theorem dpiece_bound {n p s : Nat} (hn : p < n) (hs : p < s) (hs' : s < n) (x : K) (q i : Nat) :
    |dpiece (clampedUniform n p) s (q + 1) i x - dpiece (clampedUniform n p) (s - 1) (q + 1) i x| ≤
      2 * (q + 1 : Nat) * ((n - p : Nat) : K) * (((n - p : Nat) : K) * |clampedUniform n p s - x|) ^ q := by
  have hpos : (0 : K) < ((n - p : Nat) : K) := by exact_mod_cast (by omega : 0 < n - p)
  have l := clamped_step (K := K) (s := s - 1) hn (by omega) (by omega)
  rw [show s - 1 + 1 = s by omega] at l
  have r := clamped_step (K := K) hn hs.le hs'
  have hh : (0 : K) < 1 / ((n - p : Nat) : K) := by positivity
  have mono : ∀ a b, a ≤ b → (clampedUniform n p a : K) ≤ clampedUniform n p b := fun a b h => clamped_mono hn h
  rw [dpiece_sub mono (by omega) (by linarith) (by linarith)]
  have c := coef_bound (U := clampedUniform n p) mono (by omega) hh l.ge r.ge i (q + 1)
  have c' := coef_bound (U := clampedUniform n p) mono (by omega) hh l.ge r.ge (i + 1) (q + 1)
  rw [one_div, inv_inv] at c c'
  have t : |coef (clampedUniform n p) s i (q + 1) - coef (clampedUniform n p) s (i + 1) (q + 1)| ≤ 2 * ((n - p : Nat) : K) ^ (q + 1) :=
    (abs_sub _ _).trans (by linarith)
  rw [abs_neg, abs_mul, abs_mul, abs_pow, Nat.abs_cast, mul_pow]
  calc _ ≤ ((q + 1 : Nat) : K) * |clampedUniform n p s - x| ^ q * (2 * ((n - p : Nat) : K) ^ (q + 1)) :=
        mul_le_mul_of_nonneg_left t (by positivity)
    _ = _ := by rw [pow_succ]; ring

end
end Artist.RoundedSpan
