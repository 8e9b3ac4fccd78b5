import Mathlib.Data.Rat.Floor
import Verif.Proofs.NurbsCorners
/-!
# C21, C22, C23: NURBS basis functions, span search and surface evaluation

`basisDerivatives`, `findSpanUniform`, `uniformKnots`, `evaluate` model the code; `BSpline.N`, `BSpline.clampedUniform`
and `BSpline.surface` are the textbook definitions.
-/
namespace Artist.Nurbs
open Artist.BSpline

section C21
variable {K : Type} [Field K] [LinearOrder K] [IsStrictOrderedRing K]

theorem sorted_knot {knots : List K} (h : knots.Pairwise (· ≤ ·)) {a b : Nat} (hab : a ≤ b) (hb : b < knots.length) :
    knot knots a ≤ knot knots b := by
  unfold knot
  rw [List.getD_eq_getElem?_getD, List.getD_eq_getElem?_getD, List.getElem?_eq_getElem hb,
    List.getElem?_eq_getElem (by omega : a < knots.length)]
  rcases Nat.eq_or_lt_of_le hab with rfl | h'
  · exact le_rfl
  · exact List.pairwise_iff_getElem.mp h a b (by omega) hb h'

theorem inSpan_of {knots : List K} {span degree : Nat} {x : K} (sorted : knots.Pairwise (· ≤ ·)) (hd : degree ≤ span)
    (hl : span + degree + 1 < knots.length) (lo : knot knots span ≤ x) (hi : x < knot knots (span + 1)) :
    InSpan (knot knots) span degree x :=
  ⟨hd, fun _ _ hab hb => sorted_knot sorted hab (by omega), lo, hi⟩

/-- The values computed are the B-spline basis functions of the textbook, and all functions not computed vanish. -/
theorem C21_cox_de_boor (knots : List K) (sorted : knots.Pairwise (· ≤ ·)) (span degree : Nat) (x : K)
    (hd : degree ≤ span) (hl : span + degree + 1 < knots.length)
    (lo : knot knots span ≤ x) (hi : x < knot knots (span + 1)) :
    (∀ j, j ≤ degree → basisDerivatives knots span degree (min 1 degree) x 0 j =
        N (knot knots) degree (span - degree + j) x) ∧
    (∀ m, m + degree + 1 < knots.length → m < span - degree ∨ span < m → N (knot knots) degree m x = 0) := by
  have hin := inSpan_of sorted hd hl lo hi
  constructor
  · intro j hj
    rw [basis_zero _ _ _ _ _ hj, loc_eq_N hin degree le_rfl j hj]
  · intro m hm hw
    refine N_support (p := knots.length - 1 - span) (i := span) ?_ lo hi degree m (by omega)
    exact fun a b hab hb => sorted_knot sorted hab (by omega)

/-- The basis functions are non-negative and sum to one. -/
theorem C21_partition_of_unity (knots : List K) (sorted : knots.Pairwise (· ≤ ·)) (span degree : Nat) (x : K)
    (hd : degree ≤ span) (hl : span + degree + 1 < knots.length)
    (lo : knot knots span ≤ x) (hi : x < knot knots (span + 1)) :
    (∀ j, j ≤ degree → 0 ≤ basisDerivatives knots span degree (min 1 degree) x 0 j) ∧
    ∑ j ∈ Finset.range (degree + 1), basisDerivatives knots span degree (min 1 degree) x 0 j = 1 := by
  have hin := inSpan_of sorted hd hl lo hi
  constructor
  · intro j hj
    rw [basis_zero _ _ _ _ _ hj]
    exact loc_nonneg hin degree le_rfl j hj
  · rw [← loc_sum hin degree le_rfl]
    exact Finset.sum_congr rfl fun j hj => basis_zero _ _ _ _ _ (by rw [Finset.mem_range] at hj; omega)

/-- The first derivatives sum to zero. -/
theorem C21_derivatives_sum (knots : List K) (span degree : Nat) (x : K) (hp : 1 ≤ degree) :
    ∑ j ∈ Finset.range (degree + 1), basisDerivatives knots span degree (min 1 degree) x 1 j = 0 := by
  rw [← dloc_sum (left knots span x) (right knots span x) degree]
  exact Finset.sum_congr rfl fun j hj => basis_one _ _ _ _ _ hp (by rw [Finset.mem_range] at hj; omega)

/-- The first derivatives computed are the derivatives of the basis functions (from the right, as the spans are
half-open). -/
theorem C21_derivatives (knots : List ℝ) (sorted : knots.Pairwise (· ≤ ·)) (span degree : Nat) (x : ℝ)
    (hp : 1 ≤ degree) (hd : degree ≤ span) (hl : span + degree + 1 < knots.length)
    (lo : knot knots span ≤ x) (hi : x < knot knots (span + 1)) (j : Nat) (hj : j ≤ degree) :
    HasDerivWithinAt (N (knot knots) degree (span - degree + j))
      (basisDerivatives knots span degree (min 1 degree) x 1 j) (Set.Ici x) x := by
  have hin := inSpan_of sorted hd hl lo hi
  rw [basis_one _ _ _ _ _ hp hj]
  obtain ⟨q, rfl⟩ : ∃ q, degree = q + 1 := ⟨degree - 1, by omega⟩
  rw [dloc_eq_N hin j hj]
  exact N_deriv (L := knots.length - 1) (fun a b hab hb => sorted_knot sorted hab (by omega)) x q _ (by omega)

/-- a non-uniform knot vector with a double knot -/
def knotsExample : List ℚ := [0, 0, 0, 1/4, 1/2, 1/2, 1, 1, 1]

example : knotsExample.Pairwise (· ≤ ·) ∧ 2 ≤ 3 ∧ 3 + 2 + 1 < knotsExample.length ∧
    knot knotsExample 3 ≤ 1/3 ∧ 1/3 < knot knotsExample (3 + 1) := by
  refine ⟨by unfold knotsExample; decide +kernel, by decide, by decide, by decide +kernel, by decide +kernel⟩

example : basisDerivatives knotsExample 3 2 1 (1/3) 0 0 = 2/9 ∧ basisDerivatives knotsExample 3 2 1 (1/3) 0 1 = 2/3 ∧
    basisDerivatives knotsExample 3 2 1 (1/3) 0 2 = 1/9 ∧ basisDerivatives knotsExample 3 2 1 (1/3) 1 0 = -8/3 := by
  decide +kernel

end C21

section C22
variable {K : Type} [Field K] [LinearOrder K] [IsStrictOrderedRing K]

/-- The knot vector consists of `degree + 1` zeros, equal steps and `degree + 1` ones, and is sorted. -/
theorem C22_knots (n p : Nat) (hp : 1 ≤ p) (hn : p < n) :
    (uniformKnots n p : List K).length = n + p + 1 ∧
    (∀ i, i < n + p + 1 → (uniformKnots n p : List K)[i]? = some (clampedUniform n p i)) ∧
    (uniformKnots n p : List K).Pairwise (· ≤ ·) := by
  have key : ∀ i (h : i < (uniformKnots n p : List K).length), (uniformKnots n p : List K)[i] = clampedUniform n p i := by
    intro i h
    have := knot_uniform (K := K) hp hn (i := i) (by rw [uniformKnots_length] at h; omega)
    unfold knot at this
    rwa [List.getD_eq_getElem?_getD, List.getElem?_eq_getElem h] at this
  refine ⟨uniformKnots_length, ?_, ?_⟩
  · intro i hi
    have h : i < (uniformKnots n p : List K).length := by rw [uniformKnots_length]; omega
    rw [List.getElem?_eq_getElem h, key i h]
  · rw [List.pairwise_iff_getElem]
    intro i j hi hj hij
    rw [key i hi, key j hj]
    exact clamped_mono hn hij.le

/-- The span found contains the parameter and lies between the degree and the number of control points minus one, so all
control points `span - degree, …, span` exist. -/
theorem C22_span [FloorSemiring K] (n p : Nat) (hp : 1 ≤ p) (hn : p < n) (x : K) (h0 : 0 ≤ x) (h1 : x < 1) :
    let span := findSpanUniform (uniformKnots n p) p x
    p ≤ span ∧ span ≤ n - 1 ∧ clampedUniform n p span ≤ x ∧ x < clampedUniform n p (span + 1) := by
  obtain ⟨a, b, c, d⟩ := span_uniform hp hn h0 h1
  exact ⟨a, by omega, c, d⟩

/-- No other span contains the parameter. -/
theorem C22_unique [FloorSemiring K] (n p : Nat) (hp : 1 ≤ p) (hn : p < n) (x : K) (h0 : 0 ≤ x) (h1 : x < 1) (i : Nat)
    (lo : clampedUniform n p i ≤ x) (hi : x < clampedUniform n p (i + 1)) :
    findSpanUniform (uniformKnots n p) p x = i := by
  obtain ⟨a, b, c, d⟩ := span_uniform hp hn h0 h1
  by_contra hne
  rcases Nat.lt_or_gt_of_ne hne with h | h
  · have := clamped_mono (K := K) hn (show findSpanUniform (uniformKnots n p) p x + 1 ≤ i by omega)
    exact absurd (lt_of_lt_of_le d (this.trans lo)) (lt_irrefl _)
  · have := clamped_mono (K := K) hn (show i + 1 ≤ findSpanUniform (uniformKnots n p) p x by omega)
    exact absurd (lt_of_lt_of_le hi (this.trans c)) (lt_irrefl _)

/-- At the upper end of the parameter interval the span found is one too large. -/
theorem C22_end [FloorSemiring K] (n p : Nat) (hp : 1 ≤ p) (hn : p < n) :
    findSpanUniform (uniformKnots n p : List K) p 1 = n := span_one hp hn

example : findSpanUniform (uniformKnots 6 3 : List ℚ) 3 (1/3) = 4 ∧ (uniformKnots 6 3 : List ℚ) =
    [0, 0, 0, 0, 1/3, 2/3, 1, 1, 1, 1] := by decide +kernel

end C22

section C23
variable {K : Type} [Field K] [LinearOrder K] [IsStrictOrderedRing K] [FloorSemiring K]

/-- a net with control points for the degrees, and a parameter in the half-open unit square -/
structure Valid (net : Net K) (p q : Nat) (x y : K) : Prop where
  p_pos : 1 ≤ p
  q_pos : 1 ≤ q
  nu : p < net.nu
  nv : q < net.nv
  x0 : 0 ≤ x
  x1 : x < 1
  y0 : 0 ≤ y
  y1 : y < 1

variable {net : Net K} {p q : Nat} {x y : K}

theorem weighted_castSucc (v : Fin 3 → K) (c : Fin 3) : weighted v c.castSucc = v c := by
  fin_cases c <;> rfl

theorem evaluate_spec (h : Valid net p q x y) :
    ∃ d, evaluate net p q x y = .ok (pointOf d, crossOf d) ∧
      (∀ c, pointOf d c.castSucc =
        surface (clampedUniform net.nu p) (clampedUniform net.nv q) p q net.nu net.nv (fun i j => net.at' i j c) x y) ∧
      pointOf d 3 = 1 ∧
      (∀ c : Fin 3, d 1 0 c.castSucc = ∑ i ∈ Finset.range net.nu, ∑ j ∈ Finset.range net.nv,
        dN (clampedUniform net.nu p) p i x * N (clampedUniform net.nv q) q j y * net.at' i j c) ∧
      (∀ c : Fin 3, d 0 1 c.castSucc = ∑ i ∈ Finset.range net.nu, ∑ j ∈ Finset.range net.nv,
        N (clampedUniform net.nu p) p i x * dN (clampedUniform net.nv q) q j y * net.at' i j c) := by
  obtain ⟨d, hd, d00, d10, d01⟩ := derivatives_spec net h.p_pos h.q_pos h.nu h.nv h.x0 h.x1 h.y0 h.y1
  have hw : d 0 0 3 = 1 := by
    rw [d00]
    have : ∀ i j, weighted (net.at' i j) 3 = 1 := fun i j => rfl
    simp only [this, mul_one]
    rw [← Finset.sum_mul_sum, (N_nonneg_sum h.p_pos h.nu h.x0 h.x1).2.1, (N_nonneg_sum h.q_pos h.nv h.y0 h.y1).2.1,
      one_mul]
  refine ⟨d, ?_, ?_, rfl, ?_, ?_⟩
  · unfold evaluate
    simp only [hd]
    rfl
  · intro c
    have : pointOf d c.castSucc = d 0 0 c.castSucc := by
      unfold pointOf
      rw [hw]
      fin_cases c <;> simp
    rw [this, d00]
    simp only [weighted_castSucc]
    rfl
  · intro c
    rw [d10]
    simp only [weighted_castSucc]
  · intro c
    rw [d01]
    simp only [weighted_castSucc]

/-- Every parameter in the half-open unit square evaluates, and the point is the one of the textbook B-spline surface with
clamped uniform knots. -/
theorem C23_surface (h : Valid net p q x y) :
    ∃ pt cr, evaluate net p q x y = .ok (pt, cr) ∧ pt 3 = 1 ∧
      ∀ c : Fin 3, pt c.castSucc =
        surface (clampedUniform net.nu p) (clampedUniform net.nv q) p q net.nu net.nv (fun i j => net.at' i j c) x y := by
  obtain ⟨d, hd, h1, h2, -⟩ := evaluate_spec h
  exact ⟨_, _, hd, h2, h1⟩

theorem surface_linear (U V : Nat → K) (p q n m : Nat) (P : Nat → Nat → Fin 3 → K) (w : Fin 3 → K) (x y : K) :
    ∑ c, w c * surface U V p q n m (fun i j => P i j c) x y =
      surface U V p q n m (fun i j => ∑ c, w c * P i j c) x y := by
  simp only [surface, Finset.mul_sum]
  rw [Finset.sum_comm]
  apply Finset.sum_congr rfl
  intro i _
  rw [Finset.sum_comm]
  apply Finset.sum_congr rfl
  intro j _
  apply Finset.sum_congr rfl
  intro c _
  ring

theorem surface_const {p q n m : Nat} (hp : 1 ≤ p) (hq : 1 ≤ q) (hn : p < n) (hm : q < m) (hx0 : 0 ≤ x) (hx1 : x < 1)
    (hy0 : 0 ≤ y) (hy1 : y < 1) (b : K) :
    surface (clampedUniform n p) (clampedUniform m q) p q n m (fun _ _ => b) x y = b := by
  simp only [surface, ← Finset.sum_mul]
  rw [← Finset.sum_mul_sum, (N_nonneg_sum hp hn hx0 hx1).2.1, (N_nonneg_sum hq hm hy0 hy1).2.1]
  ring

/-- The point lies in every half-space that contains the control points, that is in their convex hull. -/
theorem C23_convex_hull (h : Valid net p q x y) (w : Fin 3 → K) (b : K)
    (hb : ∀ i j, i < net.nu → j < net.nv → ∑ c, w c * net.at' i j c ≤ b) (pt : H K) (cr)
    (he : evaluate net p q x y = .ok (pt, cr)) : ∑ c : Fin 3, w c * pt c.castSucc ≤ b := by
  obtain ⟨pt', cr', h1, -, h2⟩ := C23_surface h
  rw [h1] at he
  obtain ⟨rfl, rfl⟩ := Prod.mk.inj (Except.ok.inj he)
  simp only [h2]
  rw [surface_linear]
  rw [← surface_const h.p_pos h.q_pos h.nu h.nv h.x0 h.x1 h.y0 h.y1 b]
  apply Finset.sum_le_sum
  intro i hi
  apply Finset.sum_le_sum
  intro j hj
  rw [Finset.mem_range] at hi hj
  exact mul_le_mul_of_nonneg_left (hb i j hi hj)
    (mul_nonneg ((N_nonneg_sum h.p_pos h.nu h.x0 h.x1).1 i hi) ((N_nonneg_sum h.q_pos h.nv h.y0 h.y1).1 j hj))

/-- The point lies in every box that contains the control points. -/
theorem C23_bounding_box (h : Valid net p q x y) (lo hi : Fin 3 → K)
    (hb : ∀ i j, i < net.nu → j < net.nv → ∀ c, lo c ≤ net.at' i j c ∧ net.at' i j c ≤ hi c) (pt : H K) (cr)
    (he : evaluate net p q x y = .ok (pt, cr)) (c : Fin 3) : lo c ≤ pt c.castSucc ∧ pt c.castSucc ≤ hi c := by
  constructor
  · have := C23_convex_hull h (fun d => if d = c then -1 else 0) (-lo c) (by
      intro i j hi' hj
      simp only [ite_mul, neg_mul, one_mul, zero_mul, Finset.sum_ite_eq', Finset.mem_univ, if_true]
      exact neg_le_neg (hb i j hi' hj c).1) pt cr he
    simp only [ite_mul, neg_mul, one_mul, zero_mul, Finset.sum_ite_eq', Finset.mem_univ, if_true] at this
    exact neg_le_neg_iff.mp this
  · have := C23_convex_hull h (fun d => if d = c then 1 else 0) (hi c) (by
      intro i j hi' hj
      simp only [ite_mul, one_mul, zero_mul, Finset.sum_ite_eq', Finset.mem_univ, if_true]
      exact (hb i j hi' hj c).2) pt cr he
    simpa only [ite_mul, one_mul, zero_mul, Finset.sum_ite_eq', Finset.mem_univ, if_true] using this

/-- Mapping the control points by an affine map maps the surface point by it. -/
theorem C23_affine (h : Valid net p q x y) (A : Fin 3 → Fin 3 → K) (t : Fin 3 → K) (pt : H K) (cr)
    (he : evaluate net p q x y = .ok (pt, cr)) :
    ∃ pt' cr', evaluate ⟨net.nu, net.nv, fun i j c => ∑ d, A c d * net.at' i j d + t c⟩ p q x y = .ok (pt', cr') ∧
      ∀ c : Fin 3, pt' c.castSucc = ∑ d : Fin 3, A c d * pt d.castSucc + t c := by
  obtain ⟨pt₁, cr₁, h1, -, h2⟩ := C23_surface h
  rw [h1] at he
  obtain ⟨rfl, rfl⟩ := Prod.mk.inj (Except.ok.inj he)
  have h' : Valid (⟨net.nu, net.nv, fun i j c => ∑ d, A c d * net.at' i j d + t c⟩ : Net K) p q x y :=
    ⟨h.p_pos, h.q_pos, h.nu, h.nv, h.x0, h.x1, h.y0, h.y1⟩
  obtain ⟨pt', cr', h3, -, h4⟩ := C23_surface h'
  refine ⟨pt', cr', h3, ?_⟩
  intro c
  rw [h4]
  simp only [h2]
  rw [surface_linear]
  conv_rhs => rw [← surface_const h.p_pos h.q_pos h.nu h.nv h.x0 h.x1 h.y0 h.y1 (t c)]
  simp only [surface, ← Finset.sum_add_distrib, mul_add]

/-- A net in the plane `w · v = b` gives a surface in this plane whose normal is parallel to `w`. -/
theorem C23_flat (h : Valid net p q x y) (w : Fin 3 → K) (b : K)
    (hb : ∀ i j, i < net.nu → j < net.nv → ∑ c, w c * net.at' i j c = b) (pt : H K) (cr)
    (he : evaluate net p q x y = .ok (pt, cr)) :
    ∑ c : Fin 3, w c * pt c.castSucc = b ∧
    cr 1 * w 2 = cr 2 * w 1 ∧ cr 2 * w 0 = cr 0 * w 2 ∧ cr 0 * w 1 = cr 1 * w 0 := by
  obtain ⟨d, hd, h1, -, h10, h01⟩ := evaluate_spec h
  rw [hd] at he
  obtain ⟨rfl, rfl⟩ := Prod.mk.inj (Except.ok.inj he)
  have sum_le : ∀ (a c' : Nat → K), ∑ c : Fin 3, w c * (∑ i ∈ Finset.range net.nu, ∑ j ∈ Finset.range net.nv,
      a i * c' j * net.at' i j c) = (∑ i ∈ Finset.range net.nu, a i) * (∑ j ∈ Finset.range net.nv, c' j) * b := by
    intro a c'
    rw [Finset.sum_mul_sum, Finset.sum_mul]
    simp only [Finset.mul_sum]
    rw [Finset.sum_comm]
    apply Finset.sum_congr rfl
    intro i hi
    rw [Finset.sum_comm, Finset.sum_mul]
    apply Finset.sum_congr rfl
    intro j hj
    rw [Finset.mem_range] at hi hj
    rw [← hb i j hi hj, Finset.mul_sum]
    exact Finset.sum_congr rfl fun c _ => by ring
  obtain ⟨-, nx, dx⟩ := N_nonneg_sum h.p_pos h.nu h.x0 h.x1
  obtain ⟨-, ny, dy⟩ := N_nonneg_sum h.q_pos h.nv h.y0 h.y1
  have t1 : ∑ c : Fin 3, w c * d 1 0 c.castSucc = 0 := by
    simp only [h10]; rw [sum_le, dx]; ring
  have t2 : ∑ c : Fin 3, w c * d 0 1 c.castSucc = 0 := by
    simp only [h01]; rw [sum_le, dy]; ring
  refine ⟨?_, ?_⟩
  · simp only [h1, surface]
    rw [sum_le, nx, ny]
    ring
  · rw [Fin.sum_univ_three] at t1 t2
    have c0 : ((0 : Fin 3).castSucc) = (0 : Fin 4) := rfl
    have c1 : ((1 : Fin 3).castSucc) = (1 : Fin 4) := rfl
    have c2 : ((2 : Fin 3).castSucc) = (2 : Fin 4) := rfl
    rw [c0, c1, c2] at t1 t2
    simp only [crossOf, Matrix.cons_val]
    refine ⟨?_, ?_, ?_⟩
    · linear_combination d 0 1 0 * t1 - d 1 0 0 * t2
    · linear_combination d 0 1 1 * t1 - d 1 0 1 * t2
    · linear_combination d 0 1 2 * t1 - d 1 0 2 * t2

/-- The surface starts in its first control point: the distance decreases linearly with the parameters, and is zero at
the parameter `(0, 0)`. -/
theorem C23_first_corner (h : Valid net p q x y) (hx : x < 1 / ((net.nu - p : Nat) : K))
    (hy : y < 1 / ((net.nv - q : Nat) : K)) (c : Fin 3) (M : K)
    (hM : ∀ i j, i < net.nu → j < net.nv → |net.at' i j c - net.at' 0 0 c| ≤ M) (pt : H K) (cr)
    (he : evaluate net p q x y = .ok (pt, cr)) :
    |pt c.castSucc - net.at' 0 0 c| ≤
      M * ((p : K) * ((net.nu - p : Nat) : K) * x + (q : K) * ((net.nv - q : Nat) : K) * y) := by
  obtain ⟨pt', cr', h1, -, h2⟩ := C23_surface h
  rw [h1] at he
  obtain ⟨rfl, rfl⟩ := Prod.mk.inj (Except.ok.inj he)
  rw [h2]
  obtain ⟨px, nx, -⟩ := N_nonneg_sum h.p_pos h.nu h.x0 h.x1
  obtain ⟨py, ny, -⟩ := N_nonneg_sum h.q_pos h.nv h.y0 h.y1
  have := h.nu
  have := h.nv
  exact near_point _ _ _ 0 0 (by omega) (by omega) px py nx ny M hM _ _ (N_first_ge h.p_pos h.nu h.x0 hx)
    (N_first_ge h.q_pos h.nv h.y0 hy)

/-- The surface ends in its last control point: the distance goes to zero linearly as the parameters go to `(1, 1)`. -/
theorem C23_last_corner (h : Valid net p q x y) (hx : 1 - 1 / ((net.nu - p : Nat) : K) ≤ x)
    (hy : 1 - 1 / ((net.nv - q : Nat) : K) ≤ y) (c : Fin 3) (M : K)
    (hM : ∀ i j, i < net.nu → j < net.nv → |net.at' i j c - net.at' (net.nu - 1) (net.nv - 1) c| ≤ M) (pt : H K) (cr)
    (he : evaluate net p q x y = .ok (pt, cr)) :
    |pt c.castSucc - net.at' (net.nu - 1) (net.nv - 1) c| ≤
      M * ((p : K) * ((net.nu - p : Nat) : K) * (1 - x) + (q : K) * ((net.nv - q : Nat) : K) * (1 - y)) := by
  obtain ⟨pt', cr', h1, -, h2⟩ := C23_surface h
  rw [h1] at he
  obtain ⟨rfl, rfl⟩ := Prod.mk.inj (Except.ok.inj he)
  rw [h2]
  obtain ⟨px, nx, -⟩ := N_nonneg_sum h.p_pos h.nu h.x0 h.x1
  obtain ⟨py, ny, -⟩ := N_nonneg_sum h.q_pos h.nv h.y0 h.y1
  have := h.nu
  have := h.nv
  exact near_point _ _ _ (net.nu - 1) (net.nv - 1) (by omega) (by omega) px py nx ny M hM _ _
    (N_last_ge h.p_pos h.nu hx h.x1) (N_last_ge h.q_pos h.nv hy h.y1)

/-- The end of the parameter interval itself cannot be evaluated. -/
theorem C23_end_fails (net : Net K) (p q : Nat) (hp : 1 ≤ p) (hn : p < net.nu) (hq : 1 ≤ q) (hm : q < net.nv) (y : K) (hy0 : 0 ≤ y)
    (hy1 : y ≤ 1) : evaluate net p q 1 y = .error .indexError := by
  have hy : findSpanUniform (uniformKnots net.nv q) q y ≤ net.nv := by
    rcases hy1.lt_or_eq with h | rfl
    · exact (span_uniform hq hm hy0 h).2.1.le
    · exact (span_one hq hm).le
  unfold evaluate
  simp only [span_one hp hn]
  unfold derivativesAt
  rw [if_neg (not_not.2 ⟨by rw [uniformKnots_length]; omega, by rw [uniformKnots_length]; omega⟩), if_neg (by omega)]
  rfl

/-- The evaluation grid has the requested number of points, all in the open unit square. -/
theorem C23_grid (ne nn : Nat) (eps : K) (h0 : 0 < eps) (h1 : eps < 1 / 2) :
    (evaluationGrid ne nn eps).length = ne * nn ∧
    ∀ a ∈ evaluationGrid ne nn eps, 0 < a.1 ∧ a.1 < 1 ∧ 0 < a.2 ∧ a.2 < 1 := by
  have key : ∀ n k, k < n → 0 < linspace eps (1 - eps) n k ∧ linspace eps (1 - eps) n k < 1 := by
    intro n k hk
    unfold linspace
    have hs : 0 < 1 - eps - eps := by linarith
    rcases Nat.eq_zero_or_pos (n - 1) with h | h
    · rw [h]; simp only [Nat.cast_zero, div_zero, add_zero]
      exact ⟨h0, by linarith⟩
    · have hc : (0 : K) < ((n - 1 : Nat) : K) := by exact_mod_cast h
      have hk' : (k : K) ≤ ((n - 1 : Nat) : K) := by exact_mod_cast (by omega : k ≤ n - 1)
      have hk0 : (0 : K) ≤ k := Nat.cast_nonneg k
      have a1 : 0 ≤ (1 - eps - eps) * (k : K) / ((n - 1 : Nat) : K) :=
        div_nonneg (mul_nonneg hs.le hk0) hc.le
      have a2 : (1 - eps - eps) * (k : K) / ((n - 1 : Nat) : K) ≤ 1 - eps - eps := by
        rw [div_le_iff₀ hc]
        exact mul_le_mul_of_nonneg_left hk' hs.le
      constructor <;> linarith
  constructor
  · simp only [evaluationGrid, List.length_flatMap, List.length_map, List.length_range, List.map_const', List.sum_replicate,
      smul_eq_mul]
  · intro a ha
    unfold evaluationGrid at ha
    rw [List.mem_flatMap] at ha
    obtain ⟨u, hu, ha⟩ := ha
    rw [List.mem_map] at ha hu
    obtain ⟨v, hv, rfl⟩ := ha
    obtain ⟨k, hk, rfl⟩ := hu
    rw [List.mem_map] at hv
    obtain ⟨l, hl, rfl⟩ := hv
    rw [List.mem_range] at hk hl
    exact ⟨(key ne k hk).1, (key ne k hk).2, (key nn l hl).1, (key nn l hl).2⟩

end C23

section real
variable {net : Net ℝ} {p q : Nat} {x y : ℝ}

theorem clamped_deriv {n p : Nat} (hp : 1 ≤ p) (hn : p < n) (m : Nat) (x : ℝ) :
    HasDerivWithinAt (N (clampedUniform n p) p m) (dN (clampedUniform n p) p m x) (Set.Ici x) x := by
  obtain ⟨r, rfl⟩ : ∃ r, p = r + 1 := ⟨p - 1, by omega⟩
  exact N_deriv (L := m + r + 2) (fun a b hab _ => clamped_mono hn hab) x r m le_rfl

/-- The normal is the cross product of the two partial derivatives of the surface. -/
theorem C23_normal (h : Valid net p q x y) :
    ∃ pt cr, evaluate net p q x y = .ok (pt, cr) ∧ ∃ du dv : Fin 3 → ℝ,
      (∀ c, HasDerivWithinAt (fun x => surface (clampedUniform net.nu p) (clampedUniform net.nv q) p q net.nu net.nv
        (fun i j => net.at' i j c) x y) (du c) (Set.Ici x) x) ∧
      (∀ c, HasDerivWithinAt (fun y => surface (clampedUniform net.nu p) (clampedUniform net.nv q) p q net.nu net.nv
        (fun i j => net.at' i j c) x y) (dv c) (Set.Ici y) y) ∧
      cr = crossProduct du dv := by
  obtain ⟨d, hd, -, -, h10, h01⟩ := evaluate_spec h
  refine ⟨_, _, hd, fun c => d 1 0 c.castSucc, fun c => d 0 1 c.castSucc, ?_, ?_, ?_⟩
  · intro c
    show HasDerivWithinAt _ (d 1 0 c.castSucc) _ _
    rw [h10]
    unfold surface
    apply HasDerivWithinAt.fun_sum
    intro i _
    apply HasDerivWithinAt.fun_sum
    intro j _
    exact ((clamped_deriv h.p_pos h.nu i x).mul_const _).mul_const _
  · intro c
    show HasDerivWithinAt _ (d 0 1 c.castSucc) _ _
    rw [h01]
    unfold surface
    apply HasDerivWithinAt.fun_sum
    intro i _
    apply HasDerivWithinAt.fun_sum
    intro j _
    exact ((clamped_deriv h.q_pos h.nv j y).const_mul _).mul_const _
  · rw [cross_apply]
    rfl

/-- point and cross product of the tangents of a planar facet -/
theorem planar_cross (nu nv : Nat) (de dn : ℝ) (hde : 0 < de) (hdn : 0 < dn)
    (h : Valid (planarNet nu nv de dn) p q x y) :
    ∃ pt cr z, evaluate (planarNet nu nv de dn) p q x y = .ok (pt, cr) ∧
      |pt 0| ≤ de ∧ |pt 1| ≤ dn ∧ pt 2 = 0 ∧ pt 3 = 1 ∧ cr = ![0, 0, z] ∧
      (p * (2 * de / ((nu - 1 : Nat) : ℝ))) * (q * (2 * dn / ((nv - 1 : Nat) : ℝ))) ≤ z := by
  obtain ⟨d, hd, h1, h3, h10, h01⟩ := evaluate_spec h
  have hnu : p < nu := h.nu
  have hnv : q < nv := h.nv
  have hpp := h.p_pos
  have hqp := h.q_pos
  have hcu : (0 : ℝ) < ((nu - 1 : Nat) : ℝ) := by exact_mod_cast (by omega : 0 < nu - 1)
  have hcv : (0 : ℝ) < ((nv - 1 : Nat) : ℝ) := by exact_mod_cast (by omega : 0 < nv - 1)
  have lin : ∀ (n k : Nat) (e : ℝ), 0 < e → (0 : ℝ) < ((n - 1 : Nat) : ℝ) → k < n →
      -e ≤ -e + 2 * e * linspace 0 1 n k ∧ -e + 2 * e * linspace 0 1 n k ≤ e := by
    intro n k e he hn hk
    unfold linspace
    have hk' : (k : ℝ) ≤ ((n - 1 : Nat) : ℝ) := by exact_mod_cast (by omega : k ≤ n - 1)
    have a1 : 0 ≤ (k : ℝ) / ((n - 1 : Nat) : ℝ) := div_nonneg (Nat.cast_nonneg k) hn.le
    have a2 : (k : ℝ) / ((n - 1 : Nat) : ℝ) ≤ 1 := (div_le_one hn).mpr hk'
    rw [sub_zero, one_mul, zero_add]
    constructor <;> nlinarith
  have box := C23_bounding_box h ![-de, -dn, 0] ![de, dn, 0] (by
    intro i j hi hj c
    fin_cases c
    · exact lin nu i de hde hcu hi
    · exact lin nv j dn hdn hcv hj
    · exact ⟨le_rfl, le_rfl⟩) _ _ hd
  -- the tangents
  obtain ⟨-, nx, dx⟩ := N_nonneg_sum h.p_pos h.nu h.x0 h.x1
  obtain ⟨-, ny, dy⟩ := N_nonneg_sum h.q_pos h.nv h.y0 h.y1
  have fac : ∀ (a b f g : Nat → ℝ) (n m : Nat), ∑ i ∈ Finset.range n, ∑ j ∈ Finset.range m, a i * b j * (f i * g j) =
      (∑ i ∈ Finset.range n, a i * f i) * (∑ j ∈ Finset.range m, b j * g j) := by
    intro a b f g n m
    rw [Finset.sum_mul_sum]
    exact Finset.sum_congr rfl fun i _ => Finset.sum_congr rfl fun j _ => by ring
  set fe : Nat → ℝ := fun i => -de + 2 * de * linspace 0 1 nu i with hfe
  set fn : Nat → ℝ := fun j => -dn + 2 * dn * linspace 0 1 nv j with hfn
  have e10 : d 1 0 0 = ∑ i ∈ Finset.range nu, dN (clampedUniform nu p) p i x * fe i := by
    have := h10 0
    have e : (∑ i ∈ Finset.range nu, ∑ j ∈ Finset.range nv, dN (clampedUniform nu p) p i x *
      N (clampedUniform nv q) q j y * (fe i * 1)) = d 1 0 0 := by
      simp only [mul_one]; exact this.symm
    rw [← e, fac _ _ fe (fun _ => 1)]
    simp only [mul_one]
    rw [show ∑ j ∈ Finset.range nv, N (clampedUniform nv q) q j y = 1 from ny, mul_one]
  have e11 : d 1 0 1 = 0 := by
    have := h10 1
    have e : (∑ i ∈ Finset.range nu, ∑ j ∈ Finset.range nv, dN (clampedUniform nu p) p i x *
      N (clampedUniform nv q) q j y * (1 * fn j)) = d 1 0 1 := by
      simp only [one_mul]; exact this.symm
    rw [← e, fac _ _ (fun _ => 1) fn]
    simp only [mul_one]
    rw [show ∑ i ∈ Finset.range nu, dN (clampedUniform nu p) p i x = 0 from dx, zero_mul]
  have e12 : d 1 0 2 = 0 := by
    have := h10 2
    rw [show d 1 0 2 = d 1 0 (Fin.castSucc 2) from rfl, this]
    exact Finset.sum_eq_zero fun i _ => Finset.sum_eq_zero fun j _ => mul_zero _
  have e01 : d 0 1 1 = ∑ j ∈ Finset.range nv, dN (clampedUniform nv q) q j y * fn j := by
    have := h01 1
    have e : (∑ i ∈ Finset.range nu, ∑ j ∈ Finset.range nv, N (clampedUniform nu p) p i x *
      dN (clampedUniform nv q) q j y * (1 * fn j)) = d 0 1 1 := by
      simp only [one_mul]; exact this.symm
    rw [← e, fac _ _ (fun _ => 1) fn]
    simp only [mul_one]
    rw [show ∑ i ∈ Finset.range nu, N (clampedUniform nu p) p i x = 1 from nx, one_mul]
  have e00 : d 0 1 0 = 0 := by
    have := h01 0
    have e : (∑ i ∈ Finset.range nu, ∑ j ∈ Finset.range nv, N (clampedUniform nu p) p i x *
      dN (clampedUniform nv q) q j y * (fe i * 1)) = d 0 1 0 := by
      simp only [mul_one]; exact this.symm
    rw [← e, fac _ _ fe (fun _ => 1)]
    simp only [mul_one]
    rw [show ∑ j ∈ Finset.range nv, dN (clampedUniform nv q) q j y = 0 from dy, mul_zero]
  have e02 : d 0 1 2 = 0 := by
    have := h01 2
    rw [show d 0 1 2 = d 0 1 (Fin.castSucc 2) from rfl, this]
    exact Finset.sum_eq_zero fun i _ => Finset.sum_eq_zero fun j _ => mul_zero _
  have hstep : ∀ (n : Nat) (e : ℝ) (i : Nat), (-e + 2 * e * linspace 0 1 n (i + 1)) - (-e + 2 * e * linspace 0 1 n i) =
      2 * e / ((n - 1 : Nat) : ℝ) := by
    intro n e i
    unfold linspace
    push_cast
    ring
  have s1 := slope_ge hpp hnu h.x0 h.x1 fe (2 * de / ((nu - 1 : Nat) : ℝ)) (by positivity) (hstep nu de)
  have s2 := slope_ge hqp hnv h.y0 h.y1 fn (2 * dn / ((nv - 1 : Nat) : ℝ)) (by positivity) (hstep nv dn)
  rw [← e10] at s1
  rw [← e01] at s2
  have b1 : (0 : ℝ) ≤ p * (2 * de / ((nu - 1 : Nat) : ℝ)) := by positivity
  have b2 : (0 : ℝ) ≤ q * (2 * dn / ((nv - 1 : Nat) : ℝ)) := by positivity
  refine ⟨_, _, d 1 0 0 * d 0 1 1, hd, abs_le.mpr (box 0), abs_le.mpr (box 1), le_antisymm (box 2).2 (box 2).1, h3, ?_,
    mul_le_mul s1 s2 b2 (b1.trans s1)⟩
  unfold crossOf
  rw [e11, e12, e00, e02]
  simp

/-- The initial planar control points give a flat facet: every surface point has height zero and lies within the facet,
every normal points straight up. -/
theorem C23_planar (nu nv : Nat) (de dn : ℝ) (hde : 0 < de) (hdn : 0 < dn)
    (h : Valid (planarNet nu nv de dn) p q x y)
    (big : 1 / 10 ^ 12 ≤ (p * (2 * de / ((nu - 1 : Nat) : ℝ))) * (q * (2 * dn / ((nv - 1 : Nat) : ℝ)))) :
    ∃ pt cr, evaluate (planarNet nu nv de dn) p q x y = .ok (pt, cr) ∧
      |pt 0| ≤ de ∧ |pt 1| ≤ dn ∧ pt 2 = 0 ∧ pt 3 = 1 ∧ unitNormal cr = ![0, 0, 1, 0] := by
  obtain ⟨pt, cr, z, h1, h2, h3, h4, h5, hc, hz⟩ := planar_cross nu nv de dn hde hdn h
  have prod : 1 / 10 ^ 12 ≤ z := big.trans hz
  have ppos : (0 : ℝ) < z := lt_of_lt_of_le (by positivity) prod
  refine ⟨pt, cr, h1, h2, h3, h4, h5, ?_⟩
  rw [hc]
  unfold unitNormal
  simp only [Matrix.cons_val]
  rw [show (0 : ℝ) ^ 2 + 0 ^ 2 + z ^ 2 = z ^ 2 by ring, Real.sqrt_sq ppos.le, max_eq_left prod, zero_div, div_self ppos.ne']

end real

/-- a curved cubic net with 5 × 4 control points -/
def netExample : Net ℚ := ⟨5, 4, fun i j => ![i, 2 * j, i * j - j * j]⟩

example : Valid netExample 3 2 (1/5) (3/4) := by
  constructor <;> first | decide | norm_num [netExample]

example : (match evaluate netExample 3 2 (1/5) (3/4) with
    | .ok r => some (r.1 0, r.1 1, r.1 2)
    | .error _ => none) = some (124/125, 17/4, -2767/1000) := by decide +kernel

example : Valid (planarNet 10 10 (1.6 : ℝ) 1.2) 3 3 (1/5) (3/4) ∧
    (1 : ℝ) / 10 ^ 12 ≤ ((3 : ℕ) * (2 * 1.6 / ((10 - 1 : Nat) : ℝ))) * ((3 : ℕ) * (2 * 1.2 / ((10 - 1 : Nat) : ℝ))) := by
  constructor
  · constructor <;> first | decide | norm_num [planarNet]
  · norm_num

end Artist.Nurbs
