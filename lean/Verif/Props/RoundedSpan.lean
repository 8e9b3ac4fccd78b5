import Verif.Proofs.RoundedSpan
import Verif.Props.RoundedFilter
import Verif.Props.Nurbs
/-! C107: rounding in the search for knot spans. -/
namespace Artist.RoundedSpan
open Artist Nurbs BSpline Rounded RoundedFilter

/-- The share of control point `i` in the evaluated point when the evaluation uses knot span `s`: a computed basis function inside the window of the span,
nothing outside. -/
noncomputable def share (n p s : Nat) (x : ℝ) (i : Nat) : ℝ :=
  if s - p ≤ i ∧ i ≤ s then basisDerivatives (uniformKnots n p) s p (min 1 p) x 0 (i - (s - p)) else 0

/-- The same for the first derivative. -/
noncomputable def slope (n p s : Nat) (x : ℝ) (i : Nat) : ℝ :=
  if s - p ≤ i ∧ i ≤ s then basisDerivatives (uniformKnots n p) s p (min 1 p) x 1 (i - (s - p)) else 0

section
variable {rnd : ℝ → ℝ} {u η : ℝ} {M : Nat}

/-- C107: the rounded search finds the span of the exact search, or the next one; the latter only if the evaluation point lies below the knot between the two
spans by no more than the rounding error. -/
theorem C107_span (A : Arithmetic rnd u η M) {n p : Nat} (hp : 1 ≤ p) (hn : p < n) (hM : n - p ≤ M) {x : ℝ} (h0 : 0 ≤ x) (h1 : x < 1) :
    findSpan rnd (uniformKnots n p) p x = findSpanUniform (uniformKnots n p) p x ∨
    (findSpan rnd (uniformKnots n p) p x = findSpanUniform (uniformKnots n p) p x + 1 ∧
      0 < clampedUniform n p (findSpan rnd (uniformKnots n p) p x) - x ∧
      ((n - p : Nat) : ℝ) * (clampedUniform n p (findSpan rnd (uniformKnots n p) p x) - x) ≤ u * ((n - p : Nat) : ℝ) + η) := by
  unfold findSpan findSpanUniform
  rw [unique_uniform hp hn, Nat.add_sub_cancel]
  set m := n - p with hm
  have hm0 : 0 < m := by omega
  have hpos : (0 : ℝ) < (m : ℝ) := by exact_mod_cast hm0
  have hy : 0 ≤ x * (m : ℝ) := mul_nonneg h0 hpos.le
  set k := ⌊x * (m : ℝ)⌋₊ with hk
  have hkm : k < m := by rw [hk, Nat.floor_lt hy]; nlinarith
  have lo : (k : ℝ) ≤ rnd (x * m) := by
    rw [← A.nat k (by omega)]; exact A.mono (Nat.floor_le hy)
  have hi : rnd (x * m) ≤ ((k + 1 : Nat) : ℝ) := by
    rw [← A.nat (k + 1) (by omega)]; exact A.mono (by push_cast; exact (Nat.lt_floor_add_one _).le)
  have hr0 : 0 ≤ rnd (x * m) := A.nonneg hy
  rcases lt_or_eq_of_le hi with h | h
  · left
    congr 1
    rw [Nat.floor_eq_iff hr0]
    exact ⟨lo, by exact_mod_cast h⟩
  · right
    have hf : ⌊rnd (x * m)⌋₊ = k + 1 := by rw [h, Nat.floor_natCast]
    rw [hf]
    have hc := A.close (x * m)
    rw [h, abs_of_nonneg hy, abs_le] at hc
    have hlt : x * (m : ℝ) < k + 1 := Nat.lt_floor_add_one _
    have ek : (clampedUniform n p (k + 1 + p) : ℝ) = ((k + 1 : Nat) : ℝ) / (m : ℝ) := clamped_mid hn (by omega)
    refine ⟨by omega, ?_, ?_⟩
    · rw [ek, sub_pos, lt_div_iff₀ hpos]; push_cast; exact hlt
    · rw [ek, mul_sub, mul_div_cancel₀ _ hpos.ne']
      have : u * (x * m) ≤ u * m := mul_le_mul_of_nonneg_left (by nlinarith) A.u_nonneg
      nlinarith [hc.2]

theorem share_piece {n p s : Nat} (hp : 1 ≤ p) (hn : p < n) (hs : p ≤ s) (hs' : s < n) (x : ℝ) (i : Nat) :
    share n p s x i = piece (clampedUniform n p) s p i x ∧ slope n p s x i = dpiece (clampedUniform n p) s p i x := by
  unfold share slope
  split_ifs with h
  · have := basis_piece hp hn hs hs' x (i - (s - p)) (by omega)
    rw [show s - p + (i - (s - p)) = i by omega] at this
    exact this
  · rw [piece_zero _ _ _ _ _ (by omega), dpiece_zero _ _ _ _ _ (by omega)]; exact ⟨rfl, rfl⟩

theorem dpiece_eq_dN {U : Nat → ℝ} {s : Nat} {x : ℝ} (mono : ∀ a b, a ≤ b → U a ≤ U b) (h0 : U s ≤ x) (h1 : x < U (s + 1)) (p i : Nat) :
    dpiece U s p i x = dN U p i x := by
  cases p with
  | zero => rfl
  | succ p => rw [dpiece, dN, piece_eq_N mono h0 h1, piece_eq_N mono h0 h1]

/-- share of a control point with the rounded span against the textbook basis function: zero outside a window of `p + 2` points -/
theorem share_error (A : Arithmetic rnd u η M) {n p : Nat} (hp : 1 ≤ p) (hn : p < n) (hM : n - p ≤ M) {x : ℝ} (h0 : 0 ≤ x) (h1 : x < 1)
    (hr : findSpan rnd (uniformKnots n p) p x < n) (i : Nat) :
    |share n p (findSpan rnd (uniformKnots n p) p x) x i - N (clampedUniform n p) p i x| ≤
      (if i ≤ findSpan rnd (uniformKnots n p) p x ∧ findSpan rnd (uniformKnots n p) p x ≤ i + p + 1 then (p + 1 : Nat) * (u * ((n - p : Nat) : ℝ) + η) ^ p else 0) ∧
    |slope n p (findSpan rnd (uniformKnots n p) p x) x i - dN (clampedUniform n p) p i x| ≤
      2 * p * ((n - p : Nat) : ℝ) * (u * ((n - p : Nat) : ℝ) + η) ^ (p - 1) := by
  have mono : ∀ a b, a ≤ b → (clampedUniform n p a : ℝ) ≤ clampedUniform n p b := fun a b h => clamped_mono hn h
  obtain ⟨s1, s2, s3, s4⟩ := span_uniform hp hn h0 h1
  have hε : 0 ≤ u * ((n - p : Nat) : ℝ) + η := add_nonneg (mul_nonneg A.u_nonneg (Nat.cast_nonneg _)) A.η_nonneg
  rcases C107_span A hp hn hM h0 h1 with h | ⟨h, hd0, hd⟩
  · rw [h, (share_piece hp hn s1 s2 x i).1, (share_piece hp hn s1 s2 x i).2, piece_eq_N mono s3 s4, dpiece_eq_dN mono s3 s4, sub_self, sub_self, abs_zero]
    constructor
    · split_ifs <;> positivity
    · positivity
  · set s' := findSpan rnd (uniformKnots n p) p x with hs'
    have e : findSpanUniform (uniformKnots n p) p x = s' - 1 := by omega
    rw [e] at s1 s2 s3 s4
    rw [(share_piece hp hn (by omega) hr x i).1, (share_piece hp hn (by omega) hr x i).2, ← piece_eq_N mono s3 s4, ← dpiece_eq_dN mono s3 s4]
    constructor
    · have := piece_bound hn (show p < s' by omega) hr x p i
      refine this.trans ?_
      split_ifs
      · rw [abs_of_pos hd0]
        exact mul_le_mul_of_nonneg_left (pow_le_pow_left₀ (by positivity) hd _) (Nat.cast_nonneg _)
      · exact le_rfl
    · obtain ⟨q, rfl⟩ : ∃ q, p = q + 1 := ⟨p - 1, by omega⟩
      have := dpiece_bound hn (show q + 1 < s' by omega) hr x q i
      refine this.trans ?_
      rw [abs_of_pos hd0, Nat.add_sub_cancel]
      exact mul_le_mul_of_nonneg_left (pow_le_pow_left₀ (by positivity) hd _) (by positivity)

/-- C107: with the rounded search every share is the textbook basis function up to `(p + 1) (u (n - p) + η)^p`, and every derivative up to
`2 p (n - p) (u (n - p) + η)^(p - 1)`.  For cubic facets the first is far below the rounding of a single number. -/
theorem C107_shares (A : Arithmetic rnd u η M) {n p : Nat} (hp : 1 ≤ p) (hn : p < n) (hM : n - p ≤ M) {x : ℝ} (h0 : 0 ≤ x) (h1 : x < 1)
    (hr : findSpan rnd (uniformKnots n p) p x < n) (i : Nat) :
    |share n p (findSpan rnd (uniformKnots n p) p x) x i - N (clampedUniform n p) p i x| ≤ (p + 1 : Nat) * (u * ((n - p : Nat) : ℝ) + η) ^ p ∧
    |slope n p (findSpan rnd (uniformKnots n p) p x) x i - dN (clampedUniform n p) p i x| ≤
      2 * p * ((n - p : Nat) : ℝ) * (u * ((n - p : Nat) : ℝ) + η) ^ (p - 1) := by
  obtain ⟨a, b⟩ := share_error A hp hn hM h0 h1 hr i
  refine ⟨a.trans ?_, b⟩
  have hε : 0 ≤ u * ((n - p : Nat) : ℝ) + η := add_nonneg (mul_nonneg A.u_nonneg (Nat.cast_nonneg _)) A.η_nonneg
  split_ifs
  · exact le_rfl
  · positivity

/-- The bound on the sum of all errors of the shares in one direction. -/
noncomputable def spread (u η : ℝ) (n p : Nat) : ℝ := (p + 2) * (p + 1) * (u * ((n - p : Nat) : ℝ) + η) ^ p

theorem share_total (A : Arithmetic rnd u η M) {n p : Nat} (hp : 1 ≤ p) (hn : p < n) (hM : n - p ≤ M) {x : ℝ} (h0 : 0 ≤ x) (h1 : x < 1)
    (hr : findSpan rnd (uniformKnots n p) p x < n) :
    ∑ i ∈ Finset.range n, |share n p (findSpan rnd (uniformKnots n p) p x) x i - N (clampedUniform n p) p i x| ≤ spread u η n p := by
  have hε : 0 ≤ u * ((n - p : Nat) : ℝ) + η := add_nonneg (mul_nonneg A.u_nonneg (Nat.cast_nonneg _)) A.η_nonneg
  set s := findSpan rnd (uniformKnots n p) p x with hs
  refine (Finset.sum_le_sum fun i _ => (share_error A hp hn hM h0 h1 hr i).1).trans ?_
  rw [← hs, ← Finset.sum_filter, Finset.sum_const, nsmul_eq_mul]
  unfold spread
  have hc : ((Finset.range n).filter fun i => i ≤ s ∧ s ≤ i + p + 1).card ≤ p + 2 := by
    have : ((Finset.range n).filter fun i => i ≤ s ∧ s ≤ i + p + 1) ⊆ Finset.Icc (s - (p + 1)) s := by
      intro i hi
      rw [Finset.mem_filter] at hi
      rw [Finset.mem_Icc]
      omega
    have h2 := Finset.card_le_card this
    rw [Nat.card_Icc] at h2
    omega
  have hc' : (((Finset.range n).filter fun i => i ≤ s ∧ s ≤ i + p + 1).card : ℝ) ≤ p + 2 := by exact_mod_cast hc
  push_cast
  nlinarith [mul_le_mul_of_nonneg_right hc' (show 0 ≤ ((p : ℝ) + 1) * (u * ((n - p : Nat) : ℝ) + η) ^ p by positivity)]

/-- C107: an evaluation with rounded searches for the spans gives a point of the textbook surface, up to an error of the order of the rounding error to the power of
the degree, times the size of the control points. -/
theorem C107_surface (A : Arithmetic rnd u η M) {net : Net ℝ} {p q : Nat} {x y : ℝ} (h : Valid net p q x y) (hMu : net.nu - p ≤ M) (hMv : net.nv - q ≤ M)
    (hru : findSpan rnd (uniformKnots net.nu p) p x < net.nu) (hrv : findSpan rnd (uniformKnots net.nv q) q y < net.nv)
    (c : Fin 3) (B : ℝ) (hB : ∀ i j, i < net.nu → j < net.nv → |net.at' i j c| ≤ B) :
    ∃ pt cr, evaluate rnd net p q x y = .ok (pt, cr) ∧ pt 3 = 1 ∧
      |pt c.castSucc - surface (clampedUniform net.nu p) (clampedUniform net.nv q) p q net.nu net.nv (fun i j => net.at' i j c) x y| ≤
        B * (spread u η net.nu p * (1 + spread u η net.nv q) + spread u η net.nv q) := by
  have hB0 : 0 ≤ B := (abs_nonneg _).trans (hB 0 0 (by have := h.nu; omega) (by have := h.nv; omega))
  have tu := share_total A h.p_pos h.nu hMu h.x0 h.x1 hru
  have tv := share_total A h.q_pos h.nv hMv h.y0 h.y1 hrv
  have s1 : p ≤ findSpan rnd (uniformKnots net.nu p) p x := by unfold findSpan; omega
  have t1 : q ≤ findSpan rnd (uniformKnots net.nv q) q y := by unfold findSpan; omega
  unfold evaluate
  set su := findSpan rnd (uniformKnots net.nu p) p x with hsu
  set sv := findSpan rnd (uniformKnots net.nv q) q y with hsv
  simp only [(share_piece h.p_pos h.nu s1 hru x _).1] at tu
  simp only [(share_piece h.q_pos h.nv t1 hrv y _).1] at tv
  set a := fun i => piece (clampedUniform net.nu p) su p i x with ha
  set b := fun j => piece (clampedUniform net.nv q) sv q j y with hb
  set a₀ := fun i => N (clampedUniform net.nu p) p i x with ha₀
  set b₀ := fun j => N (clampedUniform net.nv q) q j y with hb₀
  have hd : ∃ d, derivativesAt net (uniformKnots net.nu p) (uniformKnots net.nv q) p q su sv x y = .ok d ∧
      ∀ c, d 0 0 c = ∑ i ∈ Finset.range net.nu, ∑ j ∈ Finset.range net.nv, a i * b j * weighted (net.at' i j) c := by
    unfold derivativesAt
    have hnu := h.nu
    have hnv := h.nv
    rw [if_neg (not_not.2 ⟨by rw [uniformKnots_length]; omega, by rw [uniformKnots_length]; omega⟩), if_pos ⟨s1, t1, hru, hrv⟩]
    refine ⟨_, rfl, ?_⟩
    intro c
    rw [surfaceDerivative_eq _ _ _ _ _ _ _ _ _ (by omega)]
    exact double_window _ _ _ _ _ _ _ _ _ _ (fun i j => weighted (net.at' i j) c)
      (fun f => window_piece h.p_pos h.nu s1 hru x f) (fun f => window_piece h.q_pos h.nv t1 hrv y f)
  obtain ⟨d, hd, d00⟩ := hd
  have sa : ∑ i ∈ Finset.range net.nu, a i = 1 := piece_sum h.p_pos h.nu s1 hru x
  have sb : ∑ j ∈ Finset.range net.nv, b j = 1 := piece_sum h.q_pos h.nv t1 hrv y
  have hw : d 0 0 3 = 1 := by
    rw [d00]
    have : ∀ i j, weighted (net.at' i j) 3 = 1 := fun i j => rfl
    simp only [this, mul_one]
    rw [← Finset.sum_mul_sum, sa, sb, one_mul]
  refine ⟨pointOf d, crossOf d, by simp only [← hsu, ← hsv, hd]; rfl, rfl, ?_⟩
  have e1 : pointOf d c.castSucc = d 0 0 c.castSucc := by
    unfold pointOf
    rw [hw]
    fin_cases c <;> simp
  rw [e1, d00]
  simp only [weighted_castSucc]
  unfold surface
  obtain ⟨na, ma, -⟩ := N_nonneg_sum h.p_pos h.nu h.x0 h.x1
  have e2 : (∑ i ∈ Finset.range net.nu, ∑ j ∈ Finset.range net.nv, a i * b j * net.at' i j c) -
      ∑ i ∈ Finset.range net.nu, ∑ j ∈ Finset.range net.nv, a₀ i * b₀ j * net.at' i j c =
      ∑ i ∈ Finset.range net.nu, ∑ j ∈ Finset.range net.nv, ((a i - a₀ i) * b j * net.at' i j c + a₀ i * (b j - b₀ j) * net.at' i j c) := by
    simp only [← Finset.sum_sub_distrib]
    exact Finset.sum_congr rfl fun i _ => Finset.sum_congr rfl fun j _ => by ring
  show |(_ : ℝ) - ∑ i ∈ Finset.range net.nu, ∑ j ∈ Finset.range net.nv, a₀ i * b₀ j * net.at' i j c| ≤ _
  rw [e2]
  have e3 : |∑ i ∈ Finset.range net.nu, ∑ j ∈ Finset.range net.nv, ((a i - a₀ i) * b j * net.at' i j c + a₀ i * (b j - b₀ j) * net.at' i j c)| ≤
      ∑ i ∈ Finset.range net.nu, ∑ j ∈ Finset.range net.nv, (|a i - a₀ i| * |b j| * B + |a₀ i| * |b j - b₀ j| * B) := by
    refine (Finset.abs_sum_le_sum_abs _ _).trans (Finset.sum_le_sum fun i hi => ?_)
    refine (Finset.abs_sum_le_sum_abs _ _).trans (Finset.sum_le_sum fun j hj => ?_)
    rw [Finset.mem_range] at hi hj
    refine (abs_add_le _ _).trans ?_
    rw [abs_mul, abs_mul, abs_mul, abs_mul]
    have := hB i j hi hj
    exact add_le_add (mul_le_mul_of_nonneg_left this (by positivity)) (mul_le_mul_of_nonneg_left this (by positivity))
  refine e3.trans ?_
  have e4 : ∑ i ∈ Finset.range net.nu, ∑ j ∈ Finset.range net.nv, (|a i - a₀ i| * |b j| * B + |a₀ i| * |b j - b₀ j| * B) =
      B * ((∑ i ∈ Finset.range net.nu, |a i - a₀ i|) * (∑ j ∈ Finset.range net.nv, |b j|) +
        (∑ i ∈ Finset.range net.nu, |a₀ i|) * (∑ j ∈ Finset.range net.nv, |b j - b₀ j|)) := by
    rw [Finset.sum_mul_sum, Finset.sum_mul_sum, ← Finset.sum_add_distrib, Finset.mul_sum]
    refine Finset.sum_congr rfl fun i _ => ?_
    rw [← Finset.sum_add_distrib, Finset.mul_sum]
    exact Finset.sum_congr rfl fun j _ => by ring
  rw [e4]
  apply mul_le_mul_of_nonneg_left _ hB0
  have ea : ∑ i ∈ Finset.range net.nu, |a₀ i| = 1 := by
    rw [← ma]
    exact Finset.sum_congr rfl fun i hi => abs_of_nonneg (na i (Finset.mem_range.1 hi))
  have eb : ∑ j ∈ Finset.range net.nv, |b j| ≤ 1 + spread u η net.nv q := by
    obtain ⟨nb, mb, -⟩ := N_nonneg_sum h.q_pos h.nv h.y0 h.y1
    have : ∀ j ∈ Finset.range net.nv, |b j| ≤ b₀ j + |b j - b₀ j| := by
      intro j hj
      have h1 := abs_sub_abs_le_abs_sub (b j) (b₀ j)
      have h2 : |b₀ j| = b₀ j := abs_of_nonneg (nb j (Finset.mem_range.1 hj))
      linarith
    refine (Finset.sum_le_sum this).trans ?_
    rw [Finset.sum_add_distrib]
    have : ∑ j ∈ Finset.range net.nv, b₀ j = 1 := mb
    rw [this]
    linarith [tv]
  rw [ea, one_mul]
  have su0 : 0 ≤ ∑ j ∈ Finset.range net.nv, |b j| := Finset.sum_nonneg fun _ _ => abs_nonneg _
  have sp0 : 0 ≤ spread u η net.nu p := (Finset.sum_nonneg fun _ _ => abs_nonneg _).trans tu
  exact add_le_add (mul_le_mul tu eb su0 sp0) tv

end

/-! ### float32 -/

/-- the error of a rounding is at most half of the last digit -/
theorem float32_error {x : ℝ} (k : Int) (hk : -126 ≤ k) (h0 : 0 < x) (h1 : x < 2 ^ (k + 1)) : |float32 x - x| ≤ 2 ^ (k - 24) := by
  unfold float32 binary
  rw [if_pos h0.le]
  refine (roundPos_error 24 (-149) x).trans ?_
  have hl : Int.log 2 x < k + 1 := by
    rw [← Int.lt_zpow_iff_log_lt (by norm_num) h0]; exact_mod_cast h1
  have hd : lastDigit 24 (-149) x ≤ k - 23 := by unfold lastDigit; omega
  have := zpow_le_zpow_right₀ (show (1 : ℝ) ≤ 2 by norm_num) hd
  rw [show k - 23 = (k - 24) + 1 by ring, zpow_add_one₀ (by norm_num)] at this
  linarith

/-- the largest number of the format below one -/
theorem float32_below_one {x : ℝ} (hx : float32 x = x) (h1 : x < 1) : x ≤ 1 - 1 / 2 ^ 24 := by
  by_contra h
  push Not at h
  have x0 : 1 / 2 < x := lt_of_le_of_lt (by norm_num) h
  have hlog : Int.log 2 x = -1 := by
    have a : -1 ≤ Int.log 2 x := by
      rw [← Int.zpow_le_iff_le_log (by norm_num) (by linarith)]; norm_num; linarith
    have b : Int.log 2 x < 0 := by
      rw [← Int.lt_zpow_iff_log_lt (by norm_num) (by linarith)]; norm_num; exact h1
    omega
  have hd : lastDigit 24 (-149) x = -24 := by unfold lastDigit; rw [hlog]; norm_num
  unfold float32 binary at hx
  rw [if_pos (by linarith)] at hx
  unfold roundPos at hx
  rw [hd] at hx
  set k := nearestEven (x / 2 ^ (-24 : Int))
  have e : (k : ℝ) = x * 2 ^ 24 := by
    rw [zpow_neg, ← div_eq_mul_inv, div_eq_iff (by positivity)] at hx
    exact_mod_cast hx
  have k1 : ((2 ^ 24 - 1 : Int) : ℝ) < k := by rw [e]; norm_num at h ⊢; linarith
  have k2 : (k : ℝ) < ((2 ^ 24 : Int) : ℝ) := by rw [e]; norm_num at h ⊢; linarith
  rw [Int.cast_lt] at k1 k2
  omega

/-- C107: the search never leaves the control points.  For a number of the format below one, the rounded product stays below the number of spans. -/
theorem C107_in_range {n p : Nat} (hp : 1 ≤ p) (hn : p < n) (hM : n - p ≤ 2 ^ 24) {x : ℝ} (hx : float32 x = x) (h0 : 0 ≤ x) (h1 : x < 1) :
    findSpan float32 (uniformKnots n p) p x < n := by
  have A := C103_float32
  unfold findSpan
  rw [unique_uniform hp hn, Nat.add_sub_cancel]
  set m := n - p with hm
  have hm0 : 0 < m := by omega
  have hpos : (1 : ℝ) ≤ (m : ℝ) := by exact_mod_cast hm0
  suffices h : float32 (x * m) < m by
    have : ⌊float32 (x * m)⌋₊ < m := (Nat.floor_lt (A.nonneg (mul_nonneg h0 (by linarith)))).2 h
    omega
  have hle : x * m ≤ (1 - 1 / 2 ^ 24) * m := mul_le_mul_of_nonneg_right (float32_below_one hx h1) (by linarith)
  refine (A.mono hle).trans_lt ?_
  set y : ℝ := (1 - 1 / 2 ^ 24) * m with hy
  have y0 : 0 < y := by rw [hy]; nlinarith
  obtain ⟨k, hk1, hk2⟩ : ∃ k : Nat, 2 ^ k ≤ m ∧ m < 2 ^ (k + 1) := ⟨Nat.log 2 m, Nat.pow_log_le_self 2 (by omega), Nat.lt_pow_succ_log_self (by norm_num) m⟩
  have hk1' : (2 : ℝ) ^ (k : Int) ≤ m := by rw [zpow_natCast]; exact_mod_cast hk1
  have hk2' : (m : ℝ) < 2 ^ ((k : Int) + 1) := by
    have : (m : ℝ) < 2 ^ (k + 1) := by exact_mod_cast hk2
    exact_mod_cast this
  have key : (m : ℝ) - y = m * 2 ^ (-24 : Int) := by rw [hy]; norm_num; ring
  rcases eq_or_lt_of_le hk1' with he | hl
  · have e := float32_error (x := y) ((k : Int) - 1) (by omega) y0 (by
      rw [sub_add_cancel, he]; rw [hy]; nlinarith)
    have h3 := (abs_le.1 e).2
    have h4 : (2 : ℝ) ^ ((k : Int) - 1 - 24) < m * 2 ^ (-24 : Int) := by
      rw [← he, ← zpow_add₀ (by norm_num)]
      exact zpow_lt_zpow_right₀ (by norm_num) (by omega)
    linarith
  · have e := float32_error (x := y) (k : Int) (by omega) y0 (lt_of_le_of_lt (by rw [hy]; nlinarith) hk2')
    have h3 := (abs_le.1 e).2
    have h4 : (2 : ℝ) ^ ((k : Int) - 24) < m * 2 ^ (-24 : Int) := by
      rw [sub_eq_add_neg, zpow_add₀ (by norm_num)]
      exact mul_lt_mul_of_pos_right hl (by positivity)
    linarith

/-- C107 for float32: every evaluation point of the format in the half-open unit square is evaluated, and the point is on the textbook surface up to the error of
`C107_surface`. -/
theorem C107_float32 {net : Net ℝ} {p q : Nat} {x y : ℝ} (h : Valid net p q x y) (hMu : net.nu - p ≤ 2 ^ 24) (hMv : net.nv - q ≤ 2 ^ 24)
    (hx : float32 x = x) (hy : float32 y = y) (c : Fin 3) (B : ℝ) (hB : ∀ i j, i < net.nu → j < net.nv → |net.at' i j c| ≤ B) :
    ∃ pt cr, evaluate float32 net p q x y = .ok (pt, cr) ∧ pt 3 = 1 ∧
      |pt c.castSucc - surface (clampedUniform net.nu p) (clampedUniform net.nv q) p q net.nu net.nv (fun i j => net.at' i j c) x y| ≤
        B * (spread (1 / 2 ^ 24) (2 ^ (-149 : Int) / 2) net.nu p * (1 + spread (1 / 2 ^ 24) (2 ^ (-149 : Int) / 2) net.nv q) +
          spread (1 / 2 ^ 24) (2 ^ (-149 : Int) / 2) net.nv q) :=
  C107_surface C103_float32 h hMu hMv (C107_in_range h.p_pos h.nu hMu hx h.x0 h.x1) (C107_in_range h.q_pos h.nv hMv hy h.y0 h.y1) c B hB

/-- C107: the two searches do differ.  For nine control points and degree three, the float32 number `13981013 / 2^24` lies below the knot `5/6`, but the
rounded product is five. -/
theorem C107_next_span : float32 (13981013 / 2 ^ 24) = 13981013 / 2 ^ 24 ∧ findSpanUniform (uniformKnots 9 3) 3 (13981013 / 2 ^ 24 : ℝ) = 7 ∧
    findSpan float32 (uniformKnots 9 3) 3 (13981013 / 2 ^ 24) = 8 := by
  refine ⟨?_, ?_, ?_⟩
  · have := float32_eq (13981013 / 2 ^ 24) (-24) 13981013 (by norm_num) (by norm_num) (by norm_num) (by norm_num)
    rw [this]; norm_num
  · unfold findSpanUniform
    rw [unique_uniform (by norm_num) (by norm_num)]
    have : ⌊(13981013 / 2 ^ 24 : ℝ) * ((9 - 3 + 1 - 1 : Nat) : ℝ)⌋₊ = 4 := by
      rw [Nat.floor_eq_iff (by norm_num)]; norm_num
    rw [this]
  · unfold findSpan
    rw [unique_uniform (by norm_num) (by norm_num)]
    have e : float32 (13981013 / 2 ^ 24 * ((9 - 3 + 1 - 1 : Nat) : ℝ)) = 5 := by
      have := float32_eq (13981013 / 2 ^ 24 * ((9 - 3 + 1 - 1 : Nat) : ℝ)) (-21) (5 * 2 ^ 21) (by norm_num) (by norm_num) (by norm_num) (by rw [abs_lt]; norm_num)
      rw [this]; norm_num
    rw [e]
    have : ⌊(5 : ℝ)⌋₊ = 5 := by exact_mod_cast Nat.floor_natCast (R := ℝ) 5
    rw [this]

/-- A facet with nine times nine control points and degree three: coordinates up to one metre are off by less than `10^-16` metres. -/
example : (1 : ℝ) * (spread (1 / 2 ^ 24) (2 ^ (-149 : Int) / 2) 9 3 * (1 + spread (1 / 2 ^ 24) (2 ^ (-149 : Int) / 2) 9 3) +
    spread (1 / 2 ^ 24) (2 ^ (-149 : Int) / 2) 9 3) ≤ 1 / 10 ^ 16 := by
  unfold spread
  norm_num

/-- A net and an evaluation point that satisfy the assumptions, with a wrong span in both directions. -/
example : Valid (⟨9, 9, fun i j => ![i / 8, j / 8, 0]⟩ : Net ℝ) 3 3 (13981013 / 2 ^ 24) (13981013 / 2 ^ 24) :=
  ⟨by norm_num, by norm_num, by norm_num, by norm_num, by norm_num, by norm_num, by norm_num, by norm_num⟩

end Artist.RoundedSpan
