import Mathlib.Algebra.BigOperators.Fin
import Mathlib.Algebra.BigOperators.Intervals
import Mathlib.Algebra.Order.BigOperators.Group.Finset
import Mathlib.Algebra.BigOperators.Ring.Finset
import Mathlib.Tactic.FieldSimp
import Mathlib.Tactic.Ring
import Mathlib.Tactic.Linarith
import Mathlib.Tactic.Positivity
import Verif.Model.Nurbs
import Verif.Proofs.BSpline
/-!
# Helper lemmas about the NURBS model
-/
namespace Artist.Nurbs
open Artist.BSpline
variable {K : Type} [Field K] [LinearOrder K]

/-- the basis functions as a recursion over the degree, without the table -/
def loc (l rt : Nat → K) : Nat → Nat → K
  | 0, r => if r = 0 then 1 else 0
  | j + 1, r =>
      (if r = 0 then 0 else l (j + 2 - r) * (loc l rt j (r - 1) / (rt r + l (j + 2 - r)))) +
      (if r ≤ j then rt (r + 1) * (loc l rt j r / (rt (r + 1) + l (j + 1 - r))) else 0)

theorem set2_self (f : Nat → Nat → K) (i j : Nat) (v : K) : set2 f i j v i j = v := by simp [set2]

theorem set2_other (f : Nat → Nat → K) {i j a b : Nat} (v : K) (h : ¬(a = i ∧ b = j)) :
    set2 f i j v a b = f a b := by simp [set2, h]

/-- the table holds the basis functions of degree up to `j` above and the knot differences below the diagonal -/
def TableOk (l rt : Nat → K) (ndu : Nat → Nat → K) (j : Nat) : Prop :=
  (∀ c r, c ≤ j → r ≤ c → ndu r c = loc l rt c r) ∧
  (∀ c r, c ≤ j → r < c → ndu c r = rt (r + 1) + l (c - r))

theorem inner_spec (l rt : Nat → K) (ndu : Nat → Nat → K) (j : Nat) (h : TableOk l rt ndu j) :
    ∀ n, n ≤ j + 1 →
      let st := (List.range n).foldl (nduInner l rt (j + 1)) (ndu, 0)
      (∀ r, r < n → st.1 r (j + 1) = loc l rt (j + 1) r) ∧
      (∀ r, r < n → st.1 (j + 1) r = rt (r + 1) + l (j + 1 - r)) ∧
      (∀ a b, a ≤ j → b ≤ j → st.1 a b = ndu a b) ∧
      st.2 = (if n = 0 then 0 else l (j + 2 - n) * (loc l rt j (n - 1) / (rt n + l (j + 2 - n)))) := by
  intro n
  induction n with
  | zero => intro _; simp
  | succ n ih =>
    intro hn
    have ih' := ih (by omega)
    rw [List.range_succ, List.foldl_append, List.foldl_cons, List.foldl_nil]
    set st := (List.range n).foldl (nduInner l rt (j + 1)) (ndu, 0) with hst
    obtain ⟨i1, i2, i3, i4⟩ := ih'
    have hb : st.1 n j = loc l rt j n := by rw [i3 n j (by omega) le_rfl, h.1 j n le_rfl (by omega)]
    have e1 : j + 2 - (n + 1) = j + 1 - n := by omega
    refine ⟨?_, ?_, ?_, ?_⟩
    · intro r hr
      by_cases hrn : r = n
      · subst hrn
        simp only [nduInner]
        rw [set2_self, set2_self, set2_other _ _ (by omega), Nat.add_sub_cancel, hb, loc, if_pos (by omega : r ≤ j),
          i4]
      · simp only [nduInner]
        rw [set2_other _ _ (by omega), set2_other _ _ (by omega), i1 r (by omega)]
    · intro r hr
      by_cases hrn : r = n
      · subst hrn
        simp only [nduInner]
        rw [set2_other _ _ (by omega), set2_self]
      · simp only [nduInner]
        rw [set2_other _ _ (by omega), set2_other _ _ (by omega), i2 r (by omega)]
    · intro a b ha hb
      simp only [nduInner]
      rw [set2_other _ _ (by omega), set2_other _ _ (by omega), i3 a b ha hb]
    · simp only [nduInner]
      rw [set2_self, set2_other _ _ (by omega), Nat.add_sub_cancel, hb, if_neg (by omega), e1, Nat.add_sub_cancel]

theorem column_spec (l rt : Nat → K) (ndu : Nat → Nat → K) (j : Nat) (h : TableOk l rt ndu j) :
    TableOk l rt (nduColumn l rt ndu (j + 1)) (j + 1) := by
  obtain ⟨i1, i2, i3, i4⟩ := inner_spec l rt ndu j h (j + 1) le_rfl
  unfold nduColumn
  set st := (List.range (j + 1)).foldl (nduInner l rt (j + 1)) (ndu, 0)
  constructor
  · intro c r hc hr
    by_cases hcj : c = j + 1
    · subst hcj
      by_cases hrj : r = j + 1
      · subst hrj
        simp only
        rw [set2_self, i4, loc, if_neg (by omega), if_neg (by omega), add_zero]
      · simp only
        rw [set2_other _ _ (by omega), i1 r (by omega)]
    · simp only
      rw [set2_other _ _ (by omega), i3 r c (by omega) (by omega), h.1 c r (by omega) hr]
  · intro c r hc hr
    simp only
    rw [set2_other _ _ (by omega)]
    by_cases hcj : c = j + 1
    · subst hcj
      exact i2 r hr
    · rw [i3 c r (by omega) (by omega), h.2 c r (by omega) hr]

theorem table_spec (l rt : Nat → K) (p : Nat) : TableOk l rt (nduTable l rt p) p := by
  induction p with
  | zero =>
    constructor
    · intro c r hc hr
      obtain rfl : c = 0 := by omega
      obtain rfl : r = 0 := by omega
      simp [nduTable, set2, loc]
    · intro c r hc hr; omega
  | succ p ih =>
    have : nduTable l rt (p + 1) = nduColumn l rt (nduTable l rt p) (p + 1) := by
      unfold nduTable
      rw [List.range'_concat, List.foldl_append, List.foldl_cons, List.foldl_nil]
      congr 1
      omega
    rw [this]
    exact column_spec l rt _ p ih

/-- the first derivatives as computed from the basis functions of one degree less -/
def dloc (l rt : Nat → K) (p r : Nat) : K :=
  (p : K) * ((if r = 0 then 0 else loc l rt (p - 1) (r - 1) / (rt r + l (p + 1 - r))) -
    (if r < p then loc l rt (p - 1) r / (rt (r + 1) + l (p - r)) else 0))

theorem derivRow_zero (ndu : Nat → Nat → K) (p : Nat) (st) (r : Nat) :
    (derivRow ndu p 0 st r).2 = fun k r' => if r' = r then (if k = 0 then ndu r p else 0) else st.2 k r' := by
  simp [derivRow]

theorem derivRow_one (ndu : Nat → Nat → K) (p : Nat) (st) (r : Nat) :
    (derivRow ndu (p + 1) 1 st r).2 = fun k r' => if r' = r then
      (if k = 1 then (if 1 ≤ r then 1 / ndu (p + 1) (r - 1) * ndu (r - 1) p else 0) +
        (if r ≤ p then -1 / ndu (p + 1) r * ndu r p else 0)
       else if k = 0 then ndu r (p + 1) else 0) else st.2 k r' := by
  unfold derivRow
  rw [show List.range' 1 1 = [1] from rfl, List.foldl_cons, List.foldl_nil]
  funext k r'
  by_cases hr : r' = r
  · simp only [if_pos hr]
    by_cases hk : k = 1
    · subst hk
      rw [if_pos rfl]
      have hrk : ((r : Int) - ((1 : Nat) : Int)).toNat = r - 1 := by omega
      have hj1 : (if (-1 : Int) ≤ (r : Int) - ((1 : Nat) : Int) then 1 else (-((r : Int) - ((1 : Nat) : Int))).toNat) = 1 :=
        if_pos (by omega)
      have hle : r + 1 ≤ p + 1 ↔ r ≤ p := by omega
      have hlist : List.range' 1 (if r + 1 ≤ p + 1 + 1 then 0 else p + 1 - r) = [] := by
        split_ifs with h
        · rfl
        · rw [show p + 1 - r = 0 by omega]; rfl
      by_cases h1 : 1 ≤ r <;> by_cases h2 : r ≤ p
      all_goals
        simp only [derivStep, hj1, hlist, List.foldl_nil, hrk, hle, Nat.add_sub_cancel, Nat.sub_self, if_true, h1, h2,
          if_false, set2_self, zero_add, add_zero]
        try rw [set2_other _ _ (by omega), set2_self]
    · simp only [if_neg hk, derivStep]
  · simp only [if_neg hr]

theorem fold_rows {S : Type} (step : S × (Nat → Nat → K) → Nat → S × (Nat → Nat → K)) (g : Nat → Nat → K)
    (h : ∀ st r, (step st r).2 = fun k r' => if r' = r then g k r else st.2 k r') (init) :
    ∀ n k r', ((List.range n).foldl step init).2 k r' = if r' < n then g k r' else init.2 k r' := by
  intro n
  induction n with
  | zero => intro k r'; simp
  | succ n ih =>
    intro k r'
    rw [List.range_succ, List.foldl_append, List.foldl_cons, List.foldl_nil, h]
    simp only
    by_cases hr : r' = n
    · subst hr; simp
    · rw [if_neg hr, ih]
      by_cases h' : r' < n
      · rw [if_pos h', if_pos (by omega)]
      · rw [if_neg h', if_neg (by omega)]

theorem basis_zero (knots : List K) (span p : Nat) (x : K) (j : Nat) (hj : j ≤ p) :
    basisDerivatives knots span p (min 1 p) x 0 j = loc (left knots span x) (right knots span x) p j := by
  have ht := table_spec (left knots span x) (right knots span x) p
  simp only [basisDerivatives, if_true]
  cases p with
  | zero =>
    rw [Nat.min_zero, fold_rows _ (fun k r => if k = 0 then nduTable (left knots span x) (right knots span x) 0 r 0 else 0)
        (fun st r => derivRow_zero _ _ st r),
      if_pos (by omega), if_pos rfl, ht.1 0 j le_rfl hj]
  | succ p =>
    rw [show min 1 (p + 1) = 1 from by omega, fold_rows _ _ (fun st r => derivRow_one _ _ st r), if_pos (by omega),
      if_neg (by omega), if_pos rfl, ht.1 _ j le_rfl hj]

theorem basis_one (knots : List K) (span p : Nat) (x : K) (j : Nat) (hp : 1 ≤ p) (hj : j ≤ p) :
    basisDerivatives knots span p (min 1 p) x 1 j = dloc (left knots span x) (right knots span x) p j := by
  have ht := table_spec (left knots span x) (right knots span x) p
  simp only [basisDerivatives, one_ne_zero, if_false]
  obtain ⟨p, rfl⟩ : ∃ q, p = q + 1 := ⟨p - 1, by omega⟩
  rw [show min 1 (p + 1) = 1 from by omega, fold_rows _ _ (fun st r => derivRow_one _ _ st r), if_pos (by omega),
    if_pos rfl]
  have hf : derivFactor (p + 1) 1 = p + 1 := rfl
  rw [hf, dloc, Nat.add_sub_cancel, mul_comm]
  congr 1
  by_cases h1 : 1 ≤ j
  · rw [if_pos h1, if_neg (show ¬ j = 0 by omega), ht.2 (p + 1) (j - 1) le_rfl (by omega), ht.1 p (j - 1) (by omega) (by omega)]
    have e1 : j - 1 + 1 = j := by omega
    have e2 : p + 1 - (j - 1) = p + 1 + 1 - j := by omega
    rw [e1, e2]
    by_cases h2 : j ≤ p
    · rw [if_pos h2, if_pos (show j < p + 1 by omega), ht.2 (p + 1) j le_rfl (by omega), ht.1 p j (by omega) h2]
      ring
    · rw [if_neg h2, if_neg (show ¬ j < p + 1 by omega)]
      ring
  · obtain rfl : j = 0 := by omega
    rw [if_neg h1, if_pos rfl, if_pos (Nat.zero_le p), if_pos (Nat.succ_pos p), ht.2 (p + 1) 0 le_rfl (by omega),
      ht.1 p 0 (by omega) (by omega)]
    ring

section order
variable [IsStrictOrderedRing K]

/-- `x` lies in the non-degenerate span `i`, the knots up to `i + p` are sorted -/
structure InSpan (U : Nat → K) (i p : Nat) (x : K) : Prop where
  deg : p ≤ i
  mono : ∀ a b, a ≤ b → b ≤ i + p → U a ≤ U b
  lo : U i ≤ x
  hi : x < U (i + 1)

variable {knots : List K} {i p : Nat} {x : K}

theorem InSpan.down (h : InSpan (knot knots) i p x) {q : Nat} (hq : q ≤ p) : InSpan (knot knots) i q x :=
  ⟨hq.trans h.deg, fun a b hab hb => h.mono a b hab (by omega), h.lo, h.hi⟩

theorem denom_pos (h : InSpan (knot knots) i p x) {j r : Nat} (hj : j ≤ p) (hr : r < j) :
    0 < right knots i x (r + 1) + left knots i x (j - r) := by
  have hd := h.deg
  have h1 := h.mono (i + 1) (i + (r + 1)) (by omega) (by omega)
  have h2 := h.mono (i + 1 - (j - r)) i (by omega) (by omega)
  have h3 := h.lo
  have h4 := h.hi
  unfold right left
  linarith

theorem right_pos (h : InSpan (knot knots) i p x) {r : Nat} (hr : 1 ≤ r) (hr' : r ≤ p) : 0 < right knots i x r := by
  have h1 := h.mono (i + 1) (i + r) (by omega) (by omega)
  have h4 := h.hi
  unfold right
  linarith

theorem left_nonneg (h : InSpan (knot knots) i p x) {r : Nat} (hr : 1 ≤ r) : 0 ≤ left knots i x r := by
  have h1 := h.mono (i + 1 - r) i (by omega) (by omega)
  have h4 := h.lo
  unfold left
  linarith

theorem loc_nonneg (h : InSpan (knot knots) i p x) :
    ∀ j, j ≤ p → ∀ r, r ≤ j → 0 ≤ loc (left knots i x) (right knots i x) j r := by
  intro j
  induction j with
  | zero => intro _ r _; unfold loc; split_ifs <;> simp
  | succ j ih =>
    intro hj r hr
    unfold loc
    apply add_nonneg
    · split_ifs with h0
      · exact le_rfl
      · have hd := denom_pos h hj (show r - 1 < j + 1 by omega)
        rw [show r - 1 + 1 = r by omega, show j + 1 - (r - 1) = j + 2 - r by omega] at hd
        exact mul_nonneg (left_nonneg h (by omega)) (div_nonneg (ih (by omega) _ (by omega)) hd.le)
    · split_ifs with h0
      · exact mul_nonneg (right_pos h (by omega) (by omega)).le
          (div_nonneg (ih (by omega) _ h0) (denom_pos h hj (by omega)).le)
      · exact le_rfl

theorem loc_sum (h : InSpan (knot knots) i p x) :
    ∀ j, j ≤ p → ∑ r ∈ Finset.range (j + 1), loc (left knots i x) (right knots i x) j r = 1 := by
  intro j
  induction j with
  | zero => intro _; simp [loc]
  | succ j ih =>
    intro hj
    have ih := ih (by omega)
    simp only [loc, Finset.sum_add_distrib]
    rw [Finset.sum_range_succ' (n := j + 1), Finset.sum_range_succ (n := j + 1)]
    rw [if_pos rfl, if_neg (by omega : ¬ j + 1 ≤ j), add_zero, add_zero, ← Finset.sum_add_distrib, ← ih]
    apply Finset.sum_congr rfl
    intro r hr
    rw [Finset.mem_range] at hr
    rw [if_neg (by omega), if_pos (by omega), Nat.add_sub_cancel, show j + 2 - (r + 1) = j + 1 - r by omega]
    have hd := denom_pos h hj (show r < j + 1 by omega)
    rw [← add_mul, add_comm, mul_div_cancel₀ _ hd.ne']

theorem dloc_sum (l rt : Nat → K) (q : Nat) : ∑ r ∈ Finset.range (q + 1), dloc l rt q r = 0 := by
  simp only [dloc, ← Finset.mul_sum, Finset.sum_sub_distrib]
  rw [Finset.sum_range_succ', Finset.sum_range_succ, if_pos rfl, if_neg (lt_irrefl q), add_zero, add_zero,
    ← Finset.sum_sub_distrib]
  have : ∑ r ∈ Finset.range q, ((if r + 1 = 0 then 0 else loc l rt (q - 1) (r + 1 - 1) / (rt (r + 1) + l (q + 1 - (r + 1)))) -
      (if r < q then loc l rt (q - 1) r / (rt (r + 1) + l (q - r)) else 0)) = 0 := by
    apply Finset.sum_eq_zero
    intro r hr
    rw [Finset.mem_range] at hr
    rw [if_neg (by omega), if_pos hr, Nat.add_sub_cancel, show q + 1 - (r + 1) = q - r by omega, sub_self]
  rw [this, mul_zero]

theorem loc_eq_N (h : InSpan (knot knots) i p x) :
    ∀ j, j ≤ p → ∀ r, r ≤ j → loc (left knots i x) (right knots i x) j r = N (knot knots) j (i - j + r) x := by
  have hd := h.deg
  intro j
  induction j with
  | zero =>
    intro _ r hr
    obtain rfl : r = 0 := by omega
    rw [loc, if_pos rfl, N, if_pos ⟨h.lo, h.hi⟩]
  | succ j ih =>
    intro hj r hr
    rw [loc, N]
    have hs := N_support h.mono h.lo h.hi
    congr 1
    · by_cases h0 : r = 0
      · rw [if_pos h0, hs j _ (Or.inr (by omega)), mul_zero]
      · rw [if_neg h0, ih (by omega) (r - 1) (by omega), show i - j + (r - 1) = i - (j + 1) + r by omega]
        unfold left right
        rw [show i + 1 - (j + 2 - r) = i - (j + 1) + r by omega, show i - (j + 1) + r + j + 1 = i + r by omega]
        rw [sub_add_sub_cancel]
        ring
    · by_cases h0 : r ≤ j
      · rw [if_pos h0, ih (by omega) r h0, show i - j + r = i - (j + 1) + r + 1 by omega]
        unfold left right
        rw [show i + 1 - (j + 1 - r) = i - (j + 1) + r + 1 by omega, show i - (j + 1) + r + j + 2 = i + (r + 1) by omega]
        rw [sub_add_sub_cancel]
        ring
      · rw [if_neg h0, hs j _ (Or.inl (by omega)), mul_zero]

theorem dloc_eq_N (h : InSpan (knot knots) i (p + 1) x) (r : Nat) (hr : r ≤ p + 1) :
    dloc (left knots i x) (right knots i x) (p + 1) r =
      ((p + 1 : ℕ) : K) * (N (knot knots) p (i - (p + 1) + r) x /
          (knot knots (i - (p + 1) + r + p + 1) - knot knots (i - (p + 1) + r)) -
        N (knot knots) p (i - (p + 1) + r + 1) x /
          (knot knots (i - (p + 1) + r + p + 2) - knot knots (i - (p + 1) + r + 1))) := by
  have hd := h.deg
  have hs := N_support h.mono h.lo h.hi
  rw [dloc, Nat.add_sub_cancel]
  congr 2
  · by_cases h0 : r = 0
    · rw [if_pos h0, hs p _ (Or.inr (by omega)), zero_div]
    · rw [if_neg h0, loc_eq_N h p (by omega) (r - 1) (by omega)]
      unfold left right
      rw [show i - p + (r - 1) = i - (p + 1) + r by omega, show i + 1 - (p + 1 + 1 - r) = i - (p + 1) + r by omega,
        show i - (p + 1) + r + p + 1 = i + r by omega, sub_add_sub_cancel]
  · by_cases h0 : r < p + 1
    · rw [if_pos h0, loc_eq_N h p (by omega) r (by omega)]
      unfold left right
      rw [show i - p + r = i - (p + 1) + r + 1 by omega, show i + 1 - (p + 1 - r) = i - (p + 1) + r + 1 by omega,
        show i - (p + 1) + r + p + 2 = i + (r + 1) by omega, sub_add_sub_cancel]
    · rw [if_neg h0, hs p _ (Or.inl (by omega)), zero_div]

end order
end Artist.Nurbs
