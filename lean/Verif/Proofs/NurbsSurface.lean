import Mathlib.Data.Finset.Card
import Mathlib.Data.Finset.Dedup
import Mathlib.Tactic.NormNum
import Verif.Proofs.Nurbs
/-!
# Helper lemmas: uniform knots, span search, surface evaluation
-/
namespace Artist.BSpline
variable {K : Type} [Field K] [LinearOrder K]

theorem N_congr {U V : Nat → K} {x : K} : ∀ q m, (∀ i, i ≤ m + q + 1 → U i = V i) → N U q m x = N V q m x := by
  intro q
  induction q with
  | zero => intro m h; rw [N, N, h m (by omega), h (m + 1) (by omega)]
  | succ q ih =>
    intro m h
    rw [N, N, ih m (fun i hi => h i (by omega)), ih (m + 1) (fun i hi => h i (by omega)), h m (by omega),
      h (m + q + 1) (by omega), h (m + q + 2) (by omega), h (m + 1) (by omega)]

end Artist.BSpline

namespace Artist.Nurbs
open Artist.BSpline
variable {K : Type} [Field K] [LinearOrder K] [IsStrictOrderedRing K]

section knots
variable {n p : Nat}

theorem clamped_low (hn : p < n) {i : Nat} (h : i ≤ p) : (clampedUniform n p i : K) = 0 := by
  unfold clampedUniform
  have h1 : (i : K) - p ≤ 0 := by rw [sub_nonpos]; exact_mod_cast h
  have h2 : (0 : K) < (n : K) - p := by rw [sub_pos]; exact_mod_cast hn
  exact max_eq_left ((min_le_right _ _).trans (div_nonpos_of_nonpos_of_nonneg h1 h2.le))

theorem clamped_high (hn : p < n) {i : Nat} (h : n ≤ i) : (clampedUniform n p i : K) = 1 := by
  unfold clampedUniform
  have h2 : (0 : K) < (n : K) - p := by rw [sub_pos]; exact_mod_cast hn
  have h1 : 1 ≤ ((i : K) - p) / ((n : K) - p) := by
    rw [le_div_iff₀ h2, one_mul]
    have : (n : K) ≤ i := by exact_mod_cast h
    linarith
  rw [min_eq_left h1, max_eq_right zero_le_one]

theorem clamped_mid (hn : p < n) {k : Nat} (h : k ≤ n - p) :
    (clampedUniform n p (k + p) : K) = (k : K) / ((n - p : Nat) : K) := by
  unfold clampedUniform
  have h2 : (0 : K) < (n : K) - p := by rw [sub_pos]; exact_mod_cast hn
  rw [Nat.cast_add, add_sub_cancel_right, Nat.cast_sub hn.le]
  have h3 : (k : K) ≤ (n : K) - p := by
    rw [← Nat.cast_sub hn.le]; exact_mod_cast h
  rw [min_eq_right ((div_le_one h2).mpr h3), max_eq_right (div_nonneg (Nat.cast_nonneg k) h2.le)]

theorem clamped_mono (hn : p < n) {a b : Nat} (h : a ≤ b) : (clampedUniform n p a : K) ≤ clampedUniform n p b := by
  unfold clampedUniform
  have h2 : (0 : K) < (n : K) - p := by rw [sub_pos]; exact_mod_cast hn
  apply max_le_max le_rfl
  apply min_le_min le_rfl
  apply div_le_div_of_nonneg_right _ h2.le
  have : (a : K) ≤ b := by exact_mod_cast h
  linarith

theorem uniformKnots_length : (uniformKnots n p : List K).length = n + p + 1 := by simp [uniformKnots]

theorem knot_uniform (hp : 1 ≤ p) (hn : p < n) {i : Nat} (hi : i ≤ n + p) :
    knot (uniformKnots n p : List K) i = clampedUniform n p i := by
  unfold knot uniformKnots
  rw [List.getD_eq_getElem?_getD, List.getElem?_map, List.getElem?_range (by omega)]
  simp only [Option.map_some, Option.getD_some]
  rw [if_neg (by omega)]
  by_cases h1 : n + p + 1 ≤ i + p
  · rw [if_pos h1, clamped_high hn (by omega)]
  · rw [if_neg h1]
    by_cases h2 : p ≤ i
    · rw [if_pos h2, linspace]
      have := clamped_mid (K := K) hn (k := i - p) (by omega)
      rw [show i - p + p = i by omega] at this
      rw [this, show n + p + 1 - p - p - 1 = n - p by omega]
      ring
    · rw [if_neg h2, clamped_low hn (by omega)]

theorem mem_uniform (hp : 1 ≤ p) (hn : p < n) (v : K) :
    v ∈ (uniformKnots n p : List K) ↔ ∃ k, k < n - p + 1 ∧ (k : K) / ((n - p : Nat) : K) = v := by
  have key : ∀ i, i ≤ n + p → (uniformKnots n p : List K)[i]? = some (clampedUniform n p i) := by
    intro i hi
    have h := knot_uniform (K := K) hp hn hi
    unfold knot at h
    have hl : i < (uniformKnots n p : List K).length := by rw [uniformKnots_length]; omega
    rw [List.getD_eq_getElem?_getD, List.getElem?_eq_getElem hl, Option.getD_some] at h
    rw [List.getElem?_eq_getElem hl, h]
  constructor
  · intro h
    obtain ⟨i, hi, rfl⟩ := List.mem_iff_getElem.mp h
    have hl : i ≤ n + p := by rw [uniformKnots_length] at hi; omega
    have := key i hl
    rw [List.getElem?_eq_getElem hi, Option.some_inj] at this
    rw [this]
    by_cases h1 : i ≤ p
    · exact ⟨0, by omega, by rw [clamped_low hn h1]; simp⟩
    · by_cases h2 : n ≤ i
      · refine ⟨n - p, by omega, ?_⟩
        rw [clamped_high hn h2]
        exact div_self (by exact_mod_cast (by omega : n - p ≠ 0))
      · refine ⟨i - p, by omega, ?_⟩
        rw [← clamped_mid hn (by omega), show i - p + p = i by omega]
  · rintro ⟨k, hk, rfl⟩
    rw [← clamped_mid hn (by omega)]
    exact List.mem_of_getElem? (key (k + p) (by omega))

theorem unique_uniform (hp : 1 ≤ p) (hn : p < n) : (uniformKnots n p : List K).dedup.length = n - p + 1 := by
  rw [← List.card_toFinset]
  have : (uniformKnots n p : List K).toFinset =
      (Finset.range (n - p + 1)).image (fun k : Nat => (k : K) / ((n - p : Nat) : K)) := by
    ext v
    rw [List.mem_toFinset, mem_uniform hp hn, Finset.mem_image]
    simp [Finset.mem_range]
  rw [this, Finset.card_image_of_injective, Finset.card_range]
  intro a b hab
  have hne : ((n - p : Nat) : K) ≠ 0 := by exact_mod_cast (by omega : n - p ≠ 0)
  have := (div_left_inj' hne).mp hab
  exact_mod_cast this

theorem span_uniform [FloorSemiring K] (hp : 1 ≤ p) (hn : p < n) {x : K} (h0 : 0 ≤ x) (h1 : x < 1) :
    p ≤ findSpanUniform (uniformKnots n p) p x ∧ findSpanUniform (uniformKnots n p) p x < n ∧
    (clampedUniform n p (findSpanUniform (uniformKnots n p) p x) : K) ≤ x ∧
    x < clampedUniform n p (findSpanUniform (uniformKnots n p) p x + 1) := by
  unfold findSpanUniform
  rw [unique_uniform hp hn, Nat.add_sub_cancel]
  have hpos : (0 : K) < ((n - p : Nat) : K) := by exact_mod_cast (by omega : 0 < n - p)
  have hx : 0 ≤ x * ((n - p : Nat) : K) := mul_nonneg h0 hpos.le
  have hf : ⌊x * ((n - p : Nat) : K)⌋₊ < n - p := by
    rw [Nat.floor_lt hx]
    nlinarith
  refine ⟨by omega, by omega, ?_, ?_⟩
  · rw [clamped_mid hn (by omega), div_le_iff₀ hpos]
    exact Nat.floor_le hx
  · rw [show ⌊x * ((n - p : Nat) : K)⌋₊ + p + 1 = (⌊x * ((n - p : Nat) : K)⌋₊ + 1) + p by omega,
      clamped_mid hn (by omega), lt_div_iff₀ hpos]
    exact_mod_cast Nat.lt_floor_add_one _

theorem inSpan_uniform [FloorSemiring K] (hp : 1 ≤ p) (hn : p < n) {x : K} (h0 : 0 ≤ x) (h1 : x < 1) :
    InSpan (knot (uniformKnots n p : List K)) (findSpanUniform (uniformKnots n p) p x) p x := by
  obtain ⟨a, b, c, d⟩ := span_uniform hp hn h0 h1
  refine ⟨a, ?_, ?_, ?_⟩
  · intro i j hij hj
    rw [knot_uniform hp hn (by omega), knot_uniform hp hn (by omega)]
    exact clamped_mono hn hij
  · rw [knot_uniform hp hn (by omega)]; exact c
  · rw [knot_uniform hp hn (by omega)]; exact d

theorem span_one [FloorSemiring K] (hp : 1 ≤ p) (hn : p < n) : findSpanUniform (uniformKnots n p : List K) p 1 = n := by
  unfold findSpanUniform
  rw [unique_uniform hp hn, Nat.add_sub_cancel, one_mul, Nat.floor_natCast]
  omega

end knots

theorem foldl_sum {M : Type} [AddCommMonoid M] (f : Nat → M) (n : Nat) :
    (List.range n).foldl (fun acc r => acc + f r) 0 = ∑ r ∈ Finset.range n, f r := by
  induction n with
  | zero => simp
  | succ n ih => rw [List.range_succ, List.foldl_append, ih, Finset.sum_range_succ]; rfl

theorem surfaceDerivative_eq (cp : Nat → Nat → H K) (bu bv : Nat → Nat → K) (iu iv p q k t : Nat)
    (h : k ≤ min 1 p ∧ t ≤ min (1 - k) (min 1 q)) (c : Fin 4) :
    surfaceDerivative cp bu bv iu iv p q k t c =
      ∑ r ∈ Finset.range (p + 1), ∑ s ∈ Finset.range (q + 1), bu k r * bv t s * cp (iu + r) (iv + s) c := by
  unfold surfaceDerivative tempSum
  rw [if_pos h, foldl_sum, Finset.sum_apply, Finset.sum_comm]
  apply Finset.sum_congr rfl
  intro s _
  rw [Pi.smul_apply, foldl_sum, Finset.sum_apply, smul_eq_mul, Finset.mul_sum]
  apply Finset.sum_congr rfl
  intro r _
  rw [Pi.smul_apply, smul_eq_mul]
  ring

/-- a sum over the functions that do not vanish is a sum over all functions -/
theorem window_sum {n i p : Nat} (hp : p ≤ i) (hi : i < n) (g : Nat → K)
    (h0 : ∀ m, m < n → m < i - p ∨ i < m → g m = 0) :
    ∑ m ∈ Finset.range n, g m = ∑ r ∈ Finset.range (p + 1), g (i - p + r) := by
  have : ∑ r ∈ Finset.range (p + 1), g (i - p + r) = ∑ m ∈ Finset.Ico (i - p) (i + 1), g m := by
    rw [Finset.sum_Ico_eq_sum_range, show i + 1 - (i - p) = p + 1 by omega]
  rw [this]
  symm
  apply Finset.sum_subset
  · intro m hm
    rw [Finset.mem_Ico] at hm
    rw [Finset.mem_range]
    omega
  · intro m hm hm'
    rw [Finset.mem_range] at hm
    rw [Finset.mem_Ico] at hm'
    exact h0 m hm (by omega)

end Artist.Nurbs

namespace Artist.BSpline
variable {K : Type} [Field K] [LinearOrder K]

/-- the textbook derivative of a basis function -/
def dN (U : Nat → K) : Nat → Nat → K → K
  | 0, _, _ => 0
  | q + 1, m, x => ((q + 1 : ℕ) : K) * (N U q m x / (U (m + q + 1) - U m) -
      N U q (m + 1) x / (U (m + q + 2) - U (m + 1)))

theorem dN_congr {U V : Nat → K} {x : K} (q m) (h : ∀ i, i ≤ m + q + 1 → U i = V i) : dN U q m x = dN V q m x := by
  cases q with
  | zero => rfl
  | succ q =>
    rw [dN, dN, N_congr q m (fun i hi => h i (by omega)), N_congr q (m + 1) (fun i hi => h i (by omega)), h m (by omega),
      h (m + q + 1) (by omega), h (m + q + 2) (by omega), h (m + 1) (by omega)]

theorem dN_support {U : Nat → K} {i p : Nat} {x : K}
    (mono : ∀ a b, a ≤ b → b ≤ i + p → U a ≤ U b) (h0 : U i ≤ x) (h1 : x < U (i + 1)) (q m : Nat)
    (h : (i < m ∧ m + q ≤ i + p) ∨ (m + q < i)) : dN U q m x = 0 := by
  cases q with
  | zero => rfl
  | succ q =>
    rw [dN, N_support mono h0 h1 q m (by omega), N_support mono h0 h1 q (m + 1) (by omega)]
    simp

end Artist.BSpline

namespace Artist.Nurbs
open Artist.BSpline
variable {K : Type} [Field K] [LinearOrder K] [IsStrictOrderedRing K] [FloorSemiring K]

/-- values and first derivatives computed for one direction, as sums over all basis functions -/
theorem basis_window {n p : Nat} (hp : 1 ≤ p) (hn : p < n) {x : K} (h0 : 0 ≤ x) (h1 : x < 1) (f : Nat → K) :
    let sp := findSpanUniform (uniformKnots n p) p x
    let b := basisDerivatives (uniformKnots n p) sp p (min 1 p) x
    ∑ r ∈ Finset.range (p + 1), b 0 r * f (sp - p + r) =
        ∑ m ∈ Finset.range n, N (clampedUniform n p) p m x * f m ∧
    ∑ r ∈ Finset.range (p + 1), b 1 r * f (sp - p + r) =
        ∑ m ∈ Finset.range n, dN (clampedUniform n p) p m x * f m := by
  intro sp b
  have hin := inSpan_uniform hp hn h0 h1
  obtain ⟨s1, s2, s3, s4⟩ := span_uniform hp hn h0 h1
  have hmono : ∀ a b, a ≤ b → b ≤ sp + (n + p - sp) → (clampedUniform n p a : K) ≤ clampedUniform n p b :=
    fun a b hab _ => clamped_mono hn hab
  constructor
  · rw [window_sum s1 s2]
    · apply Finset.sum_congr rfl
      intro r hr
      rw [Finset.mem_range] at hr
      show basisDerivatives _ sp p _ x 0 r * _ = _
      rw [basis_zero _ _ _ _ _ (by omega), loc_eq_N hin p le_rfl r (by omega)]
      congr 1
      exact N_congr _ _ fun i hi => knot_uniform hp hn (by omega)
    · intro m hm hm'
      rw [N_support hmono s3 s4 p m (by omega), zero_mul]
  · rw [window_sum s1 s2]
    · apply Finset.sum_congr rfl
      intro r hr
      rw [Finset.mem_range] at hr
      show basisDerivatives _ sp p _ x 1 r * _ = _
      rw [basis_one _ _ _ _ _ hp (by omega)]
      congr 1
      obtain ⟨q, rfl⟩ : ∃ q, p = q + 1 := ⟨p - 1, by omega⟩
      rw [dloc_eq_N hin r (by omega)]
      rw [← dN_congr (q + 1) _ fun i hi => knot_uniform hp hn (by omega)]
      rfl
    · intro m hm hm'
      rw [dN_support hmono s3 s4 p m (by omega), zero_mul]

theorem double_window (bu bv : Nat → K) (gu gv : Nat → K) (p q n m iu iv : Nat) (w : Nat → Nat → K)
    (hu : ∀ f : Nat → K, ∑ r ∈ Finset.range (p + 1), bu r * f (iu + r) = ∑ i ∈ Finset.range n, gu i * f i)
    (hv : ∀ f : Nat → K, ∑ s ∈ Finset.range (q + 1), bv s * f (iv + s) = ∑ j ∈ Finset.range m, gv j * f j) :
    ∑ r ∈ Finset.range (p + 1), ∑ s ∈ Finset.range (q + 1), bu r * bv s * w (iu + r) (iv + s) =
      ∑ i ∈ Finset.range n, ∑ j ∈ Finset.range m, gu i * gv j * w i j := by
  have e1 : ∀ r, ∑ s ∈ Finset.range (q + 1), bu r * bv s * w (iu + r) (iv + s) =
      bu r * (fun i => ∑ j ∈ Finset.range m, gv j * w i j) (iu + r) := by
    intro r
    show _ = bu r * ∑ j ∈ Finset.range m, gv j * w (iu + r) j
    rw [← hv, Finset.mul_sum]
    exact Finset.sum_congr rfl fun s _ => by ring
  rw [Finset.sum_congr rfl fun r _ => e1 r, hu (fun i => ∑ j ∈ Finset.range m, gv j * w i j)]
  apply Finset.sum_congr rfl
  intro i _
  rw [Finset.mul_sum]
  exact Finset.sum_congr rfl fun s _ => by ring

/-- what `derivatives` holds for a parameter in the unit square -/
theorem derivatives_spec (net : Net K) {p q : Nat} (hp : 1 ≤ p) (hq : 1 ≤ q) (hn : p < net.nu) (hm : q < net.nv)
    {x y : K} (hx0 : 0 ≤ x) (hx1 : x < 1) (hy0 : 0 ≤ y) (hy1 : y < 1) :
    ∃ d, derivativesAt net (uniformKnots net.nu p) (uniformKnots net.nv q) p q
        (findSpanUniform (uniformKnots net.nu p) p x) (findSpanUniform (uniformKnots net.nv q) q y) x y = .ok d ∧
      (∀ c, d 0 0 c = ∑ i ∈ Finset.range net.nu, ∑ j ∈ Finset.range net.nv,
        N (clampedUniform net.nu p) p i x * N (clampedUniform net.nv q) q j y * weighted (net.at' i j) c) ∧
      (∀ c, d 1 0 c = ∑ i ∈ Finset.range net.nu, ∑ j ∈ Finset.range net.nv,
        dN (clampedUniform net.nu p) p i x * N (clampedUniform net.nv q) q j y * weighted (net.at' i j) c) ∧
      (∀ c, d 0 1 c = ∑ i ∈ Finset.range net.nu, ∑ j ∈ Finset.range net.nv,
        N (clampedUniform net.nu p) p i x * dN (clampedUniform net.nv q) q j y * weighted (net.at' i j) c) := by
  obtain ⟨s1, s2, -, -⟩ := span_uniform hp hn hx0 hx1
  obtain ⟨t1, t2, -, -⟩ := span_uniform hq hm hy0 hy1
  unfold derivativesAt
  rw [if_neg (not_not.2 ⟨by rw [uniformKnots_length]; omega, by rw [uniformKnots_length]; omega⟩), if_pos ⟨s1, t1, s2, t2⟩]
  refine ⟨_, rfl, ?_, ?_, ?_⟩
  · intro c
    rw [surfaceDerivative_eq _ _ _ _ _ _ _ _ _ (by omega)]
    exact double_window _ _ _ _ _ _ _ _ _ _ (fun i j => weighted (net.at' i j) c)
      (fun f => (basis_window hp hn hx0 hx1 f).1) (fun f => (basis_window hq hm hy0 hy1 f).1)
  · intro c
    rw [surfaceDerivative_eq _ _ _ _ _ _ _ _ _ (by omega)]
    exact double_window _ _ _ _ _ _ _ _ _ _ (fun i j => weighted (net.at' i j) c)
      (fun f => (basis_window hp hn hx0 hx1 f).2) (fun f => (basis_window hq hm hy0 hy1 f).1)
  · intro c
    rw [surfaceDerivative_eq _ _ _ _ _ _ _ _ _ (by omega)]
    exact double_window _ _ _ _ _ _ _ _ _ _ (fun i j => weighted (net.at' i j) c)
      (fun f => (basis_window hp hn hx0 hx1 f).1) (fun f => (basis_window hq hm hy0 hy1 f).2)

theorem N_nonneg_sum {n p : Nat} (hp : 1 ≤ p) (hn : p < n) {x : K} (h0 : 0 ≤ x) (h1 : x < 1) :
    (∀ m, m < n → 0 ≤ N (clampedUniform n p) p m x) ∧
    ∑ m ∈ Finset.range n, N (clampedUniform n p) p m x = 1 ∧
    ∑ m ∈ Finset.range n, dN (clampedUniform n p) p m x = 0 := by
  have hin := inSpan_uniform hp hn h0 h1
  obtain ⟨s1, s2, s3, s4⟩ := span_uniform hp hn h0 h1
  set sp := findSpanUniform (uniformKnots n p) p x
  have hmono : ∀ a b, a ≤ b → b ≤ sp + (n + p - sp) → (clampedUniform n p a : K) ≤ clampedUniform n p b :=
    fun a b hab _ => clamped_mono hn hab
  refine ⟨?_, ?_, ?_⟩
  · intro m hm
    by_cases hw : m < sp - p ∨ sp < m
    · rw [N_support hmono s3 s4 p m (by omega)]
    · have := loc_nonneg hin p le_rfl (m - (sp - p)) (by omega)
      rw [loc_eq_N hin p le_rfl _ (by omega), show sp - p + (m - (sp - p)) = m by omega,
        N_congr _ _ fun i hi => knot_uniform hp hn (by omega)] at this
      exact this
  · have := (basis_window hp hn h0 h1 (fun _ => (1 : K))).1
    simp only [mul_one] at this
    rw [← this, ← loc_sum hin p le_rfl]
    apply Finset.sum_congr rfl
    intro r hr
    rw [Finset.mem_range] at hr
    exact basis_zero _ _ _ _ _ (by omega)
  · have := (basis_window hp hn h0 h1 (fun _ => (1 : K))).2
    simp only [mul_one] at this
    rw [← this, ← dloc_sum (left (uniformKnots n p) sp x) (right (uniformKnots n p) sp x) p]
    apply Finset.sum_congr rfl
    intro r hr
    rw [Finset.mem_range] at hr
    exact basis_one _ _ _ _ _ hp (by omega)

end Artist.Nurbs
