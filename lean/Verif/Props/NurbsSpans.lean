import Mathlib.Data.Rat.Floor
import Mathlib.Tactic.NormNum
import Mathlib.Tactic.Linarith
import Verif.Model.Nurbs
/-!
# C57: span search for knot vectors that are not uniform
-/
namespace Artist.Nurbs
variable {K : Type} [Field K] [LinearOrder K]

theorem firstInSpan_spec (knots : List K) (p n : Nat) (x : K) (hn : p < n) (lo : knot knots p ≤ x) (hi : x < knot knots n) :
    let i := firstInSpan knots p n x + p
    p ≤ i ∧ i < n ∧ knot knots i ≤ x ∧ x < knot knots (i + 1) := by
  have hex : ∃ k, p ≤ k ∧ x < knot knots (k + 1) := ⟨n - 1, by omega, by rw [show n - 1 + 1 = n by omega]; exact hi⟩
  classical
  obtain ⟨h1, h2⟩ := Nat.find_spec hex
  have hmin : ∀ k, k < Nat.find hex → ¬(p ≤ k ∧ x < knot knots (k + 1)) := fun k hk => Nat.find_min hex hk
  have hle : Nat.find hex ≤ n - 1 :=
    Nat.find_min' hex ⟨by omega, by rw [show n - 1 + 1 = n by omega]; exact hi⟩
  generalize Nat.find hex = k at *
  have h3 : knot knots k ≤ x := by
    rcases Nat.eq_or_lt_of_le h1 with h | h
    · rw [← h]; exact lo
    · have := hmin (k - 1) (by omega)
      rw [show k - 1 + 1 = k by omega] at this
      by_contra hc
      exact this ⟨by omega, not_le.mp hc⟩
  set flags := (List.range' p (n - p)).map fun k => decide (knot knots k ≤ x ∧ x < knot knots (k + 1)) with hflags
  have hlen : flags.length = n - p := by simp [hflags]
  have hmem : ∃ b ∈ flags, id b = true := by
    refine ⟨true, ?_, rfl⟩
    rw [hflags, List.mem_map]
    exact ⟨k, by rw [List.mem_range'_1]; omega, by simp [h2, h3]⟩
  have hlt : flags.findIdx id < flags.length := List.findIdx_lt_length.mpr hmem
  have hval : firstInSpan knots p n x = flags.findIdx id := by
    unfold firstInSpan
    simp only [← hflags]
    rw [if_pos hlt]
  have hget := List.findIdx_getElem (w := hlt)
  intro i
  have hi' : i = flags.findIdx id + p := by show firstInSpan knots p n x + p = _; rw [hval]
  rw [hlen] at hlt
  rw [hi']
  refine ⟨by omega, by omega, ?_⟩
  simp only [hflags, List.getElem_map, List.getElem_range', id_eq, decide_eq_true_eq] at hget
  rw [← hflags, one_mul, Nat.add_comm p] at hget
  exact hget

/-- For one facet, a parameter inside the domain and not too close to its end is assigned the span that contains it. -/
theorem C57_single_facet_partial (P len p : Nat) (knots : List K) (hl : knots.length = len) (hn : p < len - p - 1)
    (x : Nat → K) (k : Nat) (hk : k < P) (lo : knot knots p ≤ x k) (hi : x k < knot knots (len - p - 1))
    (away : 1 / 100000 + 1 / 100000 * |knot knots (len - p - 1)| < |x k - knot knots (len - p - 1)|) :
    ∃ t, findSpansNonUniform 1 1 P len p (fun _ _ => knots) (fun _ _ i => x i) = .ok t ∧ t.shape = (1, 1, P) ∧
      p ≤ t.get 0 0 k ∧ t.get 0 0 k ≤ len - p - 2 ∧ knot knots (t.get 0 0 k) ≤ x k ∧
      x k < knot knots (t.get 0 0 k + 1) := by
  unfold findSpansNonUniform
  rw [if_neg (by omega), if_pos ⟨Or.inr (Or.inl rfl), Or.inl rfl⟩]
  refine ⟨_, rfl, by simp only [Prod.mk.injEq, true_and]; omega, ?_⟩
  have hb : bidx P k = k ∨ bidx P k = k := by
    unfold bidx
    split_ifs with h
    · left; omega
    · left; rfl
  have hb' : bidx P k = k := hb.elim id id
  simp only [hb', spanNonUniform, hl]
  rw [if_neg (by unfold isClose; exact not_le.2 away)]
  obtain ⟨a, b, c, d⟩ := firstInSpan_spec knots p (len - p - 1) (x k) hn lo hi
  exact ⟨a, by omega, c, d⟩

/-- With more than one facet the search fails unless the number of points is one or happens to equal the number of facets. -/
theorem C57_facets_fail (S F P len p : Nat) (hF : 2 ≤ F) (hP : P ≠ 1) (hPF : P ≠ F) (knots : Nat → Nat → List K)
    (x : Nat → Nat → Nat → K) : findSpansNonUniform S F P len p knots x = .error .runtimeError := by
  unfold findSpansNonUniform
  split_ifs with h1 h2
  · rfl
  · rcases h2.1 with h | h | h <;> omega
  · rfl

/-- With a single point per facet the spans returned have the wrong shape. -/
theorem C57_wrong_shape (F len p : Nat) (hF : 2 ≤ F) (hn : p < len - p - 1) (knots : Nat → Nat → List K)
    (x : Nat → Nat → Nat → K) :
    ∃ t, findSpansNonUniform 1 F 1 len p knots x = .ok t ∧ t.shape = (1, F, F) ∧ (1, F, F) ≠ (1, F, 1) := by
  unfold findSpansNonUniform
  rw [if_neg (by omega), if_pos ⟨Or.inr (Or.inr rfl), Or.inr (Or.inl rfl)⟩]
  refine ⟨_, rfl, by simp only [Prod.mk.injEq, true_and]; omega, ?_⟩
  intro h
  have := congrArg (fun t => t.2.2) h
  simp only at this
  omega

/-- Within the tolerance of the end of the domain, the last span is returned, whatever the knots. -/
theorem C57_end_span (P len p : Nat) (knots : List K) (hl : knots.length = len) (hn : p < len - p - 1) (x : Nat → K) (k : Nat)
    (near : |x k - knot knots (len - p - 1)| ≤ 1 / 100000 + 1 / 100000 * |knot knots (len - p - 1)|) (hk : k < P) :
    ∃ t, findSpansNonUniform 1 1 P len p (fun _ _ => knots) (fun _ _ i => x i) = .ok t ∧ t.get 0 0 k = len - p - 2 := by
  unfold findSpansNonUniform
  rw [if_neg (by omega), if_pos ⟨Or.inr (Or.inl rfl), Or.inl rfl⟩]
  refine ⟨_, rfl, ?_⟩
  have hb : bidx P k = k := by
    unfold bidx
    split_ifs with h
    · omega
    · rfl
  simp only [hb, spanNonUniform, hl]
  rw [if_pos (by unfold isClose; exact near)]
  omega

/-- Close to the end of the domain the last span is returned even if another span contains the parameter. -/
theorem C57_close_to_end : ∃ (knots : List ℚ) (x : ℚ), knots.Pairwise (· ≤ ·) ∧
    knot knots 1 ≤ x ∧ x < knot knots 2 ∧ spanNonUniform knots 1 (knot knots 3) x = 2 ∧ knot knots 1 ≠ knot knots 2 := by
  refine ⟨[0, 0, 199999/200000, 1, 1], 1 - 15/1000000, ?_⟩
  decide +kernel

/-- non-uniform knots, degree 2 -/
def spansExample : List ℚ := [0, 0, 0, 1/8, 1/2, 1/2, 1, 1, 1]

example : spansExample.length = 9 ∧ knot spansExample 2 ≤ 1/2 ∧ 1/2 < knot spansExample (9 - 2 - 1) ∧
    1 / 100000 + 1 / 100000 * |knot spansExample (9 - 2 - 1)| < |1/2 - knot spansExample (9 - 2 - 1)| ∧
    |999999/1000000 - knot spansExample (9 - 2 - 1)| ≤ 1 / 100000 + 1 / 100000 * |knot spansExample (9 - 2 - 1)| ∧
    spanNonUniform spansExample 2 (knot spansExample 6) (1/2) = 5 := by
  decide +kernel

end Artist.Nurbs
