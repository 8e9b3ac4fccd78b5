import Verif.Spec.RoundedKinematics
import Verif.Proofs.RoundedRay
import Verif.Proofs.Pointing
/-! Helper lemmas for C130. -/
namespace Artist.RoundedKinematics
open Artist Transforms Kinematics RoundedRay Matrix Rounded Converge Pointing
open Real (sin cos)
noncomputable section

variable {rnd : ℝ → ℝ} {u η : ℝ} {M : Nat}

theorem plan_nat (A : Arithmetic rnd u η M) (a b : Fin 4 → ℝ) (k : Fin 4 → ℕ) (hk : ∀ i, a i * b i = k i) (P : Plan) (h : (P.terms.map k).sum ≤ M) :
    P.eval rnd a b = ((P.terms.map k).sum : ℕ) := by
  induction P with
  | product i =>
    simp only [Plan.terms, List.map_cons, List.map_nil, List.sum_cons, List.sum_nil, add_zero] at h ⊢
    rw [Plan.eval, hk, A.nat _ h]
  | add l r hl hr =>
    simp only [Plan.terms, List.map_append, List.sum_append] at h ⊢
    rw [Plan.eval, hl (by omega), hr (by omega), ← Nat.cast_add, A.nat _ h]
  | fused i r hr =>
    simp only [Plan.terms, List.map_cons, List.sum_cons] at h ⊢
    rw [Plan.eval, hr (by omega), hk, ← Nat.cast_add, A.nat _ h]

theorem plan_exact (A : Arithmetic rnd u η M) (a b : Fin 4 → ℝ) (k : Fin 4 → ℕ) (hk : ∀ i, a i * b i = k i) (P : Plan) (hP : P.Complete) (h : k 0 + k 1 + k 2 + k 3 ≤ M) :
    P.eval rnd a b = ((k 0 + k 1 + k 2 + k 3 : ℕ) : ℝ) := by
  have e : (P.terms.map k).sum = k 0 + k 1 + k 2 + k 3 := by
    rw [(List.Perm.map k hP).sum_eq]
    simp [add_assoc]
  rw [plan_nat A a b k hk P (by rw [e]; exact h), e]

/-- the homogeneous component is exact -/
theorem plan_last (A : Arithmetic rnd u η M) (hM : 1 ≤ M) (b : Fin 4 → ℝ) (n : ℕ) (hn : n ≤ 1) (hb : b 3 = n) (P : Plan) (hP : P.Complete) :
    P.eval rnd ![0, 0, 0, 1] b = n ∧ P.eval rnd b ![0, 0, 0, 1] = n := by
  have h : ∀ i, (![0, 0, 0, 1] : Fin 4 → ℝ) i * b i = ((![0, 0, 0, n] : Fin 4 → ℕ) i : ℝ) := by
    intro i
    fin_cases i <;> simp [hb]
  have h' : ∀ i, b i * (![0, 0, 0, 1] : Fin 4 → ℝ) i = ((![0, 0, 0, n] : Fin 4 → ℕ) i : ℝ) := by
    intro i
    rw [mul_comm, h]
  have s : (![0, 0, 0, n] : Fin 4 → ℕ) 0 + (![0, 0, 0, n] : Fin 4 → ℕ) 1 + (![0, 0, 0, n] : Fin 4 → ℕ) 2 + (![0, 0, 0, n] : Fin 4 → ℕ) 3 = n := by simp
  refine ⟨?_, ?_⟩
  · rw [plan_exact A _ _ _ h P hP (by rw [s]; omega), s]
  · rw [plan_exact A _ _ _ h' P hP (by rw [s]; omega), s]

theorem comp_le_length (v : Fin 4 → ℝ) : |v 0| ≤ length3 v ∧ |v 1| ≤ length3 v ∧ |v 2| ≤ length3 v := by
  refine ⟨?_, ?_, ?_⟩ <;> exact Real.abs_le_sqrt (by nlinarith [sq_nonneg (v 0), sq_nonneg (v 1), sq_nonneg (v 2)])

theorem length_sq (v : Fin 4 → ℝ) : length3 v ^ 2 = v 0 ^ 2 + v 1 ^ 2 + v 2 ^ 2 := Real.sq_sqrt (by positivity)

theorem length_le_comp {v : Fin 4 → ℝ} {δ : ℝ} (h0 : |v 0| ≤ δ) (h1 : |v 1| ≤ δ) (h2 : |v 2| ≤ δ) : length3 v ≤ 7 / 4 * δ := by
  have hδ : 0 ≤ δ := (abs_nonneg _).trans h0
  refine length3_le_of_sq (by linarith) ?_
  have a0 := sq_le_sq' (abs_le.1 h0).1 (abs_le.1 h0).2
  have a1 := sq_le_sq' (abs_le.1 h1).1 (abs_le.1 h1).2
  have a2 := sq_le_sq' (abs_le.1 h2).1 (abs_le.1 h2).2
  nlinarith [sq_nonneg δ]

theorem sum_le_length (v : Fin 4 → ℝ) : |v 0| + |v 1| + |v 2| ≤ 7 / 4 * length3 v := by
  have h := length_sq v
  have l := length3_nonneg v
  refine abs_le_of_sq_le_sq' ?_ (by linarith) |>.2
  nlinarith [sq_nonneg (|v 0| - |v 1|), sq_nonneg (|v 0| - |v 2|), sq_nonneg (|v 1| - |v 2|), sq_abs (v 0), sq_abs (v 1), sq_abs (v 2), sq_nonneg (length3 v)]

theorem inner_abs (a b : Fin 4 → ℝ) : |a 0 * b 0| + |a 1 * b 1| + |a 2 * b 2| ≤ length3 a * length3 b :=
  cauchy_abs (length3_nonneg a) (length3_nonneg b) (length_sq a).ge (length_sq b).ge

/-- `M'` is the rigid motion `M` up to `c` for directions of unit length and up to `b` for the origin, which moves by `τ` at most. -/
structure Close (c b τ : ℝ) (M' M : Mat) : Prop where
  rigid : Rigid M
  last : M' 3 = ![0, 0, 0, 1]
  dir : ∀ x : Fin 4 → ℝ, x 3 = 0 → length3 (M' *ᵥ x - M *ᵥ x) ≤ c * length3 x
  org : length3 (M' *ᵥ origin - M *ᵥ origin) ≤ b
  pos : length3 (M *ᵥ origin) ≤ τ

variable {c b τ c₁ b₁ τ₁ c₂ b₂ τ₂ : ℝ} {M' N A' A B' B : Mat}

theorem Close.dir_length (C : Close c b τ M' N) {x : Fin 4 → ℝ} (hx : x 3 = 0) : length3 (M' *ᵥ x) ≤ (1 + c) * length3 x := by
  have h := length3_triangle (M' *ᵥ x) (N *ᵥ x) 0
  rw [sub_zero, sub_zero, C.rigid.length_dir x hx] at h
  linarith [C.dir x hx]

theorem Close.org_length (C : Close c b τ M' N) : length3 (M' *ᵥ origin) ≤ τ + b := by
  have h := length3_triangle (M' *ᵥ origin) (N *ᵥ origin) 0
  rw [sub_zero, sub_zero] at h
  linarith [C.org, C.pos]

theorem Close.mono (C : Close c b τ M' N) (hc : c ≤ c₁) (hb : b ≤ b₁) (ht : τ ≤ τ₁) : Close c₁ b₁ τ₁ M' N :=
  ⟨C.rigid, C.last, fun x hx => (C.dir x hx).trans (mul_le_mul_of_nonneg_right hc (length3_nonneg x)), C.org.trans hb, C.pos.trans ht⟩

theorem Close.hom (C : Close c b τ M' N) (x : Fin 4 → ℝ) : (M' *ᵥ x) 3 = x 3 := by
  simp [mulVec, C.last, dotProduct, Fin.sum_univ_four]

theorem Close.row (C : Close c b τ M' N) (c0 : 0 ≤ c) (i : Fin 4) (hi : i ≠ 3) : length3 ![M' i 0, M' i 1, M' i 2, 0] ≤ 1 + c := by
  set r : Fin 4 → ℝ := ![M' i 0, M' i 1, M' i 2, 0] with hr
  have e : (M' *ᵥ r) i = length3 r ^ 2 := by
    rw [length_sq]
    simp [hr, mulVec, dotProduct, Fin.sum_univ_four]
    ring
  have h1 : |(M' *ᵥ r) i| ≤ length3 (M' *ᵥ r) := by
    have := comp_le_length (M' *ᵥ r)
    fin_cases i
    · exact this.1
    · exact this.2.1
    · exact this.2.2
    · exact absurd rfl hi
  have h2 := C.dir_length (x := r) (by simp [hr])
  rw [e, abs_of_nonneg (sq_nonneg _)] at h1
  rcases (length3_nonneg r).eq_or_lt with h | h
  · rw [← h]; linarith
  · nlinarith

/-- the three columns of the linear part -/
def unit (j : Fin 4) : Fin 4 → ℝ := fun k => if k = j then 1 else 0

theorem mulVec_unit (A : Mat) (j : Fin 4) : A *ᵥ unit j = fun i => A i j := by
  ext i
  fin_cases j <;> simp [unit, mulVec, dotProduct, Fin.sum_univ_four]

theorem unit_length (j : Fin 4) (hj : j ≠ 3) : length3 (unit j) = 1 := by
  fin_cases j <;> simp [unit, length3] at hj ⊢

theorem Close.column (C : Close c b τ M' N) (j : Fin 4) (hj : j ≠ 3) : length3 (fun k => M' k j) ≤ 1 + c := by
  have := C.dir_length (x := unit j) (by simp [unit, hj.symm])
  rwa [mulVec_unit, unit_length j hj, mul_one] at this

theorem Close.column_last (C : Close c b τ M' N) : length3 (fun k => M' k 3) ≤ τ + b := by
  have h := C.org_length
  have e : origin = unit 3 := by ext k; fin_cases k <;> simp [origin, unit]
  rwa [e, mulVec_unit] at h

theorem Close.entry_last (C : Close c b τ M' N) (i : Fin 4) (hi : i ≠ 3) : |M' i 3| ≤ τ + b := by
  have h := comp_le_length (fun k => M' k 3)
  have l := C.column_last
  fin_cases i
  · exact h.1.trans l
  · exact h.2.1.trans l
  · exact h.2.2.trans l
  · exact absurd rfl hi

theorem last_entry (hl : M' 3 = ![0, 0, 0, 1]) : M' 3 0 = 0 ∧ M' 3 1 = 0 ∧ M' 3 2 = 0 ∧ M' 3 3 = 1 := by
  rw [hl]; simp

/-- the product before rounding -/
theorem mul_close (C : Close c₁ b₁ τ₁ A' A) (D : Close c₂ b₂ τ₂ B' B) (c0 : 0 ≤ c₁) (d0 : 0 ≤ c₂) : Close (c₁ + (1 + c₁) * c₂) (b₁ + c₁ * τ₂ + (1 + c₁) * b₂) (τ₁ + τ₂) (A' * B') (A * B) := by
  have o3 : (origin : Fin 4 → ℝ) 3 = 1 := by simp [origin]
  have split : ∀ x : Fin 4 → ℝ, (A' * B') *ᵥ x - (A * B) *ᵥ x = A' *ᵥ (B' *ᵥ x - B *ᵥ x) + (A' *ᵥ (B *ᵥ x) - A *ᵥ (B *ᵥ x)) := by
    intro x
    rw [← mulVec_mulVec, ← mulVec_mulVec, mulVec_sub]
    abel
  have B3 : ∀ x, (B' *ᵥ x - B *ᵥ x) 3 = 0 := by
    intro x
    rw [Pi.sub_apply, D.hom, D.rigid.homogeneous, sub_self]
  have shift : ∀ K : Mat, K *ᵥ (B *ᵥ origin) = K *ᵥ (B *ᵥ origin - origin) + K *ᵥ origin := by
    intro K
    rw [mulVec_sub]
    abel
  have lenB : length3 (B *ᵥ origin - origin) = length3 (B *ᵥ origin) := by simp [length3, origin]
  have t3 : (B *ᵥ origin - origin) 3 = 0 := by rw [Pi.sub_apply, D.rigid.homogeneous, sub_self]
  refine ⟨C.rigid.mul D.rigid, ?_, ?_, ?_, ?_⟩
  · ext j
    have a := last_entry C.last
    have b := last_entry D.last
    rw [mul_apply, Fin.sum_univ_four, a.1, a.2.1, a.2.2.1, a.2.2.2, D.last]
    simp
  · intro x hx
    rw [split]
    refine (length3_add_le _ _).trans ?_
    have h1 := C.dir_length (B3 x)
    have h2 := C.dir (B *ᵥ x) (by rw [D.rigid.homogeneous, hx])
    rw [D.rigid.length_dir x hx] at h2
    have h3 := mul_le_mul_of_nonneg_left (D.dir x hx) (show 0 ≤ 1 + c₁ by linarith)
    linarith
  · rw [split]
    refine (length3_add_le _ _).trans ?_
    have h1 := (C.dir_length (B3 origin)).trans (mul_le_mul_of_nonneg_left D.org (show 0 ≤ 1 + c₁ by linarith))
    have h2 : length3 (A' *ᵥ (B *ᵥ origin) - A *ᵥ (B *ᵥ origin)) ≤ c₁ * τ₂ + b₁ := by
      rw [shift A', shift A, add_sub_add_comm]
      refine (length3_add_le _ _).trans (add_le_add ((C.dir _ t3).trans ?_) C.org)
      rw [lenB]
      exact mul_le_mul_of_nonneg_left D.pos c0
    linarith
  · rw [← mulVec_mulVec, shift A]
    refine (length3_add_le _ _).trans ?_
    rw [C.rigid.length_dir _ t3, lenB]
    linarith [C.pos, D.pos]

/-- what rounding adds to the entries of a product -/
theorem product_entries (Ar : Arithmetic rnd u η M) (small : 1000 * (u + η) ≤ 1) (P : Plans) (hP : ∀ i j, (P i j).Complete)
    (C : Close c₁ b₁ τ₁ A' A) (D : Close c₂ b₂ τ₂ B' B) (c0 : 0 ≤ c₁) (d0 : 0 ≤ c₂) (i : Fin 4) (hi : i ≠ 3) :
    (∀ j, j ≠ 3 → |product rnd P A' B' i j - (A' * B') i j| ≤ 8 * u * ((1 + c₁) * (1 + c₂)) + 10 * η) ∧
    |product rnd P A' B' i 3 - (A' * B') i 3| ≤ 8 * u * ((1 + c₁) * (τ₂ + b₂) + (τ₁ + b₁)) + 10 * η := by
  have l := last_entry D.last
  have key : ∀ j K, length3 (fun k => B' k j) ≤ K → |A' i 0 * B' 0 j| + |A' i 1 * B' 1 j| + |A' i 2 * B' 2 j| ≤ (1 + c₁) * K := by
    intro j K hK
    have h := inner_abs ![A' i 0, A' i 1, A' i 2, 0] (fun k => B' k j)
    have h2 := mul_le_mul (C.row c0 i hi) hK (length3_nonneg _) (by linarith)
    simp only [cons_val_zero, cons_val_one, cons_val] at h
    exact h.trans h2
  refine ⟨?_, ?_⟩
  · intro j hj
    rw [mul_apply, Fin.sum_univ_four]
    refine dot_error Ar.u_nonneg Ar.η_nonneg Ar.close small (A' i) (fun k => B' k j) (P i j) (hP i j) _ ?_
    have : B' 3 j = 0 := by fin_cases j <;> simp [l] at hj ⊢
    rw [this, mul_zero, abs_zero, add_zero]
    exact key j _ (D.column j hj)
  · rw [mul_apply, Fin.sum_univ_four]
    refine dot_error Ar.u_nonneg Ar.η_nonneg Ar.close small (A' i) (fun k => B' k 3) (P i 3) (hP i 3) _ ?_
    rw [l.2.2.2, mul_one]
    exact add_le_add (key 3 _ D.column_last) (C.entry_last i hi)

theorem product_last (Ar : Arithmetic rnd u η M) (hM : 1 ≤ M) (P : Plans) (hP : ∀ i j, (P i j).Complete) (ha : A' 3 = ![0, 0, 0, 1]) (hb : B' 3 = ![0, 0, 0, 1]) :
    product rnd P A' B' 3 = ![0, 0, 0, 1] := by
  have l := last_entry hb
  ext j
  have h : ∀ n : ℕ, n ≤ 1 → B' 3 j = n → product rnd P A' B' 3 j = n := by
    intro n hn h
    simp only [product, of_apply, ha]
    exact (plan_last Ar hM (fun k => B' k j) n hn h (P 3 j) (hP 3 j)).1
  fin_cases j
  · simpa using h 0 (by omega) (by simp [l])
  · simpa using h 0 (by omega) (by simp [l])
  · simpa using h 0 (by omega) (by simp [l])
  · simpa using h 1 le_rfl (by simp [l])

/-- the product as computed -/
theorem product_close (Ar : Arithmetic rnd u η M) (hM : 1 ≤ M) (small : 1000 * (u + η) ≤ 1) (P : Plans) (hP : ∀ i j, (P i j).Complete)
    (C : Close c₁ b₁ τ₁ A' A) (D : Close c₂ b₂ τ₂ B' B) (c0 : 0 ≤ c₁ ∧ c₁ ≤ 1 / 100) (d0 : 0 ≤ c₂ ∧ c₂ ≤ 1 / 100) (b0 : 0 ≤ b₁ ∧ b₁ ≤ 1 / 100) (e0 : 0 ≤ b₂ ∧ b₂ ≤ 1 / 100)
    (t0 : 0 ≤ τ₁) (s0 : 0 ≤ τ₂) :
    Close (c₁ + 101 / 100 * c₂ + 31 * (u + η)) (b₁ + c₁ * τ₂ + 101 / 100 * b₂ + 15 * (u + η) * (τ₁ + τ₂) + 19 * (u + η)) (τ₁ + τ₂) (product rnd P A' B') (A * B) := by
  have hu := Ar.u_nonneg
  have hη := Ar.η_nonneg
  have m := mul_close C D c0.1 d0.1
  have ent := product_entries Ar small P hP C D c0.1 d0.1
  have big : 8 * u * ((1 + c₁) * (1 + c₂)) + 10 * η ≤ 10 * (u + η) := by
    have : (1 + c₁) * (1 + c₂) ≤ 5 / 4 := by nlinarith [c0.1, c0.2, d0.1, d0.2]
    nlinarith
  have big3 : 8 * u * ((1 + c₁) * (τ₂ + b₂) + (τ₁ + b₁)) + 10 * η ≤ 8 * (u + η) * (101 / 100 * (τ₁ + τ₂) + 3 / 100) + 10 * (u + η) := by
    have h1 : (1 + c₁) * (τ₂ + b₂) + (τ₁ + b₁) ≤ 101 / 100 * (τ₁ + τ₂) + 3 / 100 := by nlinarith [c0.1, c0.2, e0.1, e0.2, b0.1, b0.2]
    have h2 : 8 * u * ((1 + c₁) * (τ₂ + b₂) + (τ₁ + b₁)) ≤ 8 * u * (101 / 100 * (τ₁ + τ₂) + 3 / 100) := mul_le_mul_of_nonneg_left h1 (by linarith)
    have h3 : 0 ≤ η * (101 / 100 * (τ₁ + τ₂) + 3 / 100) := by positivity
    nlinarith
  refine ⟨m.rigid, product_last Ar hM P hP C.last D.last, ?_, ?_, m.pos⟩
  · intro x hx
    refine (length3_triangle _ ((A' * B') *ᵥ x) _).trans ?_
    have h1 : length3 (product rnd P A' B' *ᵥ x - (A' * B') *ᵥ x) ≤ 31 * (u + η) * length3 x := by
      have comp : ∀ i, i ≠ 3 → |(product rnd P A' B' *ᵥ x - (A' * B') *ᵥ x) i| ≤ 10 * (u + η) * (7 / 4 * length3 x) := by
        intro i hi
        have e : (product rnd P A' B' *ᵥ x - (A' * B') *ᵥ x) i = (product rnd P A' B' i 0 - (A' * B') i 0) * x 0 + (product rnd P A' B' i 1 - (A' * B') i 1) * x 1 +
            (product rnd P A' B' i 2 - (A' * B') i 2) * x 2 := by
          simp only [Pi.sub_apply, mulVec, dotProduct, Fin.sum_univ_four, hx]
          ring
        have t : ∀ j, j ≠ 3 → |(product rnd P A' B' i j - (A' * B') i j) * x j| ≤ 10 * (u + η) * |x j| := by
          intro j hj
          rw [abs_mul]
          exact mul_le_mul_of_nonneg_right (((ent i hi).1 j hj).trans big) (abs_nonneg _)
        rw [e]
        refine (abs_add_three _ _ _).trans ?_
        have := mul_le_mul_of_nonneg_left (sum_le_length x) (show 0 ≤ 10 * (u + η) by linarith)
        linarith [t 0 (by decide), t 1 (by decide), t 2 (by decide)]
      have := length_le_comp (comp 0 (by decide)) (comp 1 (by decide)) (comp 2 (by decide))
      have : 0 ≤ (u + η) * length3 x := mul_nonneg (by linarith) (length3_nonneg x)
      linarith
    have h2 := m.dir x hx
    have h3 : (c₁ + (1 + c₁) * c₂) * length3 x ≤ (c₁ + 101 / 100 * c₂) * length3 x := mul_le_mul_of_nonneg_right (by nlinarith [d0.1, c0.2]) (length3_nonneg x)
    linarith
  · refine (length3_triangle _ ((A' * B') *ᵥ origin) _).trans ?_
    have h1 : length3 (product rnd P A' B' *ᵥ origin - (A' * B') *ᵥ origin) ≤ 7 / 4 * (8 * (u + η) * (101 / 100 * (τ₁ + τ₂) + 3 / 100) + 10 * (u + η)) := by
      have comp : ∀ i, i ≠ 3 → |(product rnd P A' B' *ᵥ origin - (A' * B') *ᵥ origin) i| ≤ 8 * (u + η) * (101 / 100 * (τ₁ + τ₂) + 3 / 100) + 10 * (u + η) := by
        intro i hi
        have e : (product rnd P A' B' *ᵥ origin - (A' * B') *ᵥ origin) i = product rnd P A' B' i 3 - (A' * B') i 3 := by
          simp [mulVec, dotProduct, Fin.sum_univ_four, origin]
        rw [e]
        exact ((ent i hi).2).trans big3
      exact length_le_comp (comp 0 (by decide)) (comp 1 (by decide)) (comp 2 (by decide))
    have h2 := m.org
    have h3 : (1 + c₁) * b₂ ≤ 101 / 100 * b₂ := mul_le_mul_of_nonneg_right (by linarith [c0.2]) e0.1
    have : 0 ≤ (u + η) * (τ₁ + τ₂) := mul_nonneg (by linarith) (by linarith)
    linarith

theorem trig_near {ε : ℝ} {fcos fsin : ℝ → ℝ} {f a : ℝ} (h : Faithful ε fcos fsin f) (ha : |f - a| ≤ 2 * ε) : |fcos f - cos a| ≤ 4 * ε ∧ |fsin f - sin a| ≤ 4 * ε := by
  have t := turn_le f a
  unfold turn at t
  have h1 : |cos f - cos a| ≤ |f - a| := (Real.abs_le_sqrt (by nlinarith [sq_nonneg (sin f - sin a)])).trans t
  have h2 : |sin f - sin a| ≤ |f - a| := (Real.abs_le_sqrt (by nlinarith [sq_nonneg (cos f - cos a)])).trans t
  exact ⟨(abs_sub_le _ (cos f) _).trans (by linarith [h.1]), (abs_sub_le _ (sin f) _).trans (by linarith [h.2])⟩

theorem plane_turn {p q s t δ L : ℝ} (hp : |p| ≤ δ) (hq : |q| ≤ δ) (hL : s ^ 2 + t ^ 2 ≤ L ^ 2) : (p * s - q * t) ^ 2 + (q * s + p * t) ^ 2 ≤ (3 / 2 * δ * L) ^ 2 := by
  have a := sq_le_sq' (abs_le.1 hp).1 (abs_le.1 hp).2
  have b := sq_le_sq' (abs_le.1 hq).1 (abs_le.1 hq).2
  have e : (p * s - q * t) ^ 2 + (q * s + p * t) ^ 2 = (p ^ 2 + q ^ 2) * (s ^ 2 + t ^ 2) := by ring
  have h : (p ^ 2 + q ^ 2) * (s ^ 2 + t ^ 2) ≤ (2 * δ ^ 2) * L ^ 2 := mul_le_mul (by linarith) hL (by positivity) (by positivity)
  rw [e]
  nlinarith [mul_nonneg (sq_nonneg δ) (sq_nonneg L)]

theorem turnE_close {fcos fsin : ℝ → ℝ} {f a δ : ℝ} (hc : |fcos f - cos a| ≤ δ) (hs : |fsin f - sin a| ≤ δ) : Close (3 / 2 * δ) 0 0 (turnE fcos fsin f) (rotE a) := by
  have hδ : 0 ≤ δ := (abs_nonneg _).trans hc
  refine ⟨rigid_rotE a, by ext j; fin_cases j <;> simp [turnE], ?_, ?_, ?_⟩
  · intro x hx
    refine length3_le_of_sq (mul_nonneg (by linarith) (length3_nonneg _)) ?_
    have h := plane_turn (s := x 1) (t := x 2) (L := length3 x) hc hs (by rw [length_sq]; nlinarith [sq_nonneg (x 0)])
    refine le_trans (le_of_eq ?_) h
    simp [turnE, rotE, mulVec, dotProduct, Fin.sum_univ_four, hx]
    ring
  · simp [turnE, rotE, mulVec, dotProduct, Fin.sum_univ_four, origin, length3]
  · simp [rotE, mulVec, dotProduct, Fin.sum_univ_four, origin, length3]

theorem turnN_close {fcos fsin : ℝ → ℝ} {f a δ : ℝ} (hc : |fcos f - cos a| ≤ δ) (hs : |fsin f - sin a| ≤ δ) : Close (3 / 2 * δ) 0 0 (turnN fcos fsin f) (rotN a) := by
  have hδ : 0 ≤ δ := (abs_nonneg _).trans hc
  refine ⟨rigid_rotN a, by ext j; fin_cases j <;> simp [turnN], ?_, ?_, ?_⟩
  · intro x hx
    refine length3_le_of_sq (mul_nonneg (by linarith) (length3_nonneg _)) ?_
    have h := plane_turn (s := x 0) (t := x 2) (L := length3 x) hc hs (by rw [length_sq]; nlinarith [sq_nonneg (x 1)])
    refine le_trans (le_of_eq ?_) h
    simp [turnN, rotN, mulVec, dotProduct, Fin.sum_univ_four, hx]
    ring
  · simp [turnN, rotN, mulVec, dotProduct, Fin.sum_univ_four, origin, length3]
  · simp [rotN, mulVec, dotProduct, Fin.sum_univ_four, origin, length3]

theorem turnU_close {fcos fsin : ℝ → ℝ} {f a δ : ℝ} (hc : |fcos f - cos a| ≤ δ) (hs : |fsin f - sin a| ≤ δ) : Close (3 / 2 * δ) 0 0 (turnU fcos fsin f) (rotU a) := by
  have hδ : 0 ≤ δ := (abs_nonneg _).trans hc
  refine ⟨rigid_rotU a, by ext j; fin_cases j <;> simp [turnU], ?_, ?_, ?_⟩
  · intro x hx
    refine length3_le_of_sq (mul_nonneg (by linarith) (length3_nonneg _)) ?_
    have h := plane_turn (s := x 0) (t := x 1) (L := length3 x) hc hs (by rw [length_sq]; nlinarith [sq_nonneg (x 2)])
    refine le_trans (le_of_eq ?_) h
    simp [turnU, rotU, mulVec, dotProduct, Fin.sum_univ_four, hx]
    ring
  · simp [turnU, rotU, mulVec, dotProduct, Fin.sum_univ_four, origin, length3]
  · simp [rotU, mulVec, dotProduct, Fin.sum_univ_four, origin, length3]

theorem transl_close {e n w ρ : ℝ} (h : length3 ![e, n, w, 0] ≤ ρ) : Close 0 0 ρ (transl e n w) (transl e n w) := by
  refine ⟨rigid_transl e n w, by ext j; fin_cases j <;> simp [transl], fun x _ => by simp [length3], by simp [length3], ?_⟩
  rw [transl_mulVec]
  have : length3 (origin + origin 3 • ![e, n, w, 0]) = length3 ![e, n, w, 0] := by simp [length3, origin]
  rw [this]
  exact h

theorem one_close : Close 0 0 0 (1 : Mat) 1 := by
  refine ⟨Rigid.one, ?_, fun x _ => by simp [length3], by simp [length3], by simp [length3, origin]⟩
  ext j
  fin_cases j <;> simp [one_apply]

/-- one product of the chain, in units of `ε` -/
theorem step (Ar : Arithmetic rnd u η M) (hM : 1 ≤ M) {ε : ℝ} (hε : ε = u + η) (small : 160000 * ε ≤ 1) (P : Plans) (hP : ∀ i j, (P i j).Complete) {k₁ k₂ m₁ m₂ k m τ : ℝ}
    (C : Close (k₁ * ε) (m₁ * ε) τ₁ A' A) (D : Close (k₂ * ε) (m₂ * ε) τ₂ B' B) (c0 : 0 ≤ k₁ ∧ k₁ ≤ 800) (d0 : 0 ≤ k₂ ∧ k₂ ≤ 800) (b0 : 0 ≤ m₁) (b1 : 100 * m₁ * ε ≤ 1) (e0 : 0 ≤ m₂)
    (e1 : 100 * m₂ * ε ≤ 1) (t0 : 0 ≤ τ₁) (s0 : 0 ≤ τ₂) (hk : k₁ + 101 / 100 * k₂ + 31 ≤ k) (hm : m₁ + k₁ * τ₂ + 101 / 100 * m₂ + 15 * (τ₁ + τ₂) + 19 ≤ m) (hτ : τ₁ + τ₂ ≤ τ) :
    Close (k * ε) (m * ε) τ (product rnd P A' B') (A * B) := by
  have h0 : 0 ≤ ε := by rw [hε]; exact add_nonneg Ar.u_nonneg Ar.η_nonneg
  refine (product_close Ar hM (by rw [← hε]; linarith) P hP C D ⟨mul_nonneg c0.1 h0, by nlinarith⟩ ⟨mul_nonneg d0.1 h0, by nlinarith⟩ ⟨mul_nonneg b0 h0, by linarith⟩ ⟨mul_nonneg e0 h0, by linarith⟩
    t0 s0).mono ?_ ?_ hτ
  · rw [← hε]
    have := mul_le_mul_of_nonneg_right hk h0
    linarith
  · rw [← hε]
    have := mul_le_mul_of_nonneg_right hm h0
    linarith

section chain
variable {fcos fsin : ℝ → ℝ} {f : Fin 3 → ℝ} {P : Nat → Plans} {h : Heliostat} {θ₁ θ₂ R ρ : ℝ}

theorem Sized.facts {ε : ℝ} (h0 : 0 ≤ ε) (S : Sized ε R ρ h) : 0 ≤ R ∧ 0 ≤ ρ ∧ 160000 * ε ≤ 1 ∧ ∀ k l m : ℝ, 0 ≤ k → 0 ≤ l → 0 ≤ m → k ≤ 200 → l ≤ 2000 → m ≤ 800 → 100 * (k * R + l * ρ + m) * ε ≤ 1 := by
  have hR : 0 ≤ R := (length3_nonneg _).trans S.position
  have hρ : 0 ≤ ρ := (length3_nonneg _).trans S.first
  have s := S.small
  have eR := mul_nonneg h0 hR
  have eρ := mul_nonneg h0 hρ
  refine ⟨hR, hρ, by nlinarith, ?_⟩
  intro k l m _ _ _ k1 l1 m1
  have := mul_le_mul_of_nonneg_right k1 eR
  have := mul_le_mul_of_nonneg_right l1 eρ
  have := mul_le_mul_of_nonneg_right m1 h0
  nlinarith

theorem first_close (Ar : Arithmetic rnd u η M) (hM : 1 ≤ M) {ε : ℝ} (hε : ε = u + η) (hP : AllComplete P) (S : Sized ε R ρ h) (T : Angles ε fcos fsin f h θ₁ θ₂) :
    Close (104 * ε) ((68 * ρ + 57) * ε) ρ (firstJoint rnd fcos fsin P h θ₁)
      (rotN (h.rotation 0) * rotU (h.rotation 1) * transl (h.translation 0) (h.translation 1) (h.translation 2) * rotE θ₁) := by
  have h0 : 0 ≤ ε := by rw [hε]; exact add_nonneg Ar.u_nonneg Ar.η_nonneg
  obtain ⟨hR, hρ, sm, bd⟩ := S.facts h0
  have c1 : Close (3 * ε) (0 * ε) 0 (turnN fcos fsin (h.rotation 0)) (rotN (h.rotation 0)) := (turnN_close (T.deviations 0).1 (T.deviations 0).2).mono (by linarith) (by simp) le_rfl
  have c2 : Close (3 * ε) (0 * ε) 0 (turnU fcos fsin (h.rotation 1)) (rotU (h.rotation 1)) := (turnU_close (T.deviations 1).1 (T.deviations 1).2).mono (by linarith) (by simp) le_rfl
  have c3 : Close (3 * ε) (0 * ε) 0 (turnE fcos fsin θ₁) (rotE θ₁) := (turnE_close T.joints.1.1 T.joints.1.2).mono (by linarith) (by simp) le_rfl
  have t : Close (0 * ε) (0 * ε) ρ (transl (h.translation 0) (h.translation 1) (h.translation 2)) (transl (h.translation 0) (h.translation 1) (h.translation 2)) :=
    (transl_close S.first).mono (by simp) (by simp) le_rfl
  have d1 := step Ar hM hε sm (P 1) (hP 1) (k := 38) (m := 19) (τ := 0) c1 c2 (by norm_num) (by norm_num) (by norm_num) (by linarith) (by norm_num) (by linarith) (by norm_num) (by norm_num) (by norm_num) (by norm_num) (by norm_num)
  have d2 := step Ar hM hε sm (P 2) (hP 2) (k := 69) (m := 53 * ρ + 38) (τ := ρ) d1 t (by norm_num) (by norm_num) (by norm_num) (by linarith) (by norm_num) (by linarith) (by norm_num) hρ (by norm_num) (by linarith) (by linarith)
  exact step Ar hM hε sm (P 3) (hP 3) d2 c3 (by norm_num) (by norm_num) (by positivity) (by simpa using bd 0 53 38 (by norm_num) (by norm_num) (by norm_num) (by norm_num) (by norm_num) (by norm_num)) (by norm_num)
    (by linarith) hρ (by norm_num) (by norm_num) (by linarith) (by linarith)

theorem second_close (Ar : Arithmetic rnd u η M) (hM : 1 ≤ M) {ε : ℝ} (hε : ε = u + η) (hP : AllComplete P) (S : Sized ε R ρ h) (T : Angles ε fcos fsin f h θ₁ θ₂) :
    Close (104 * ε) ((68 * ρ + 57) * ε) ρ (secondJoint rnd fcos fsin P h θ₂)
      (rotE (h.rotation 2) * rotN (h.rotation 3) * transl (h.translation 3) (h.translation 4) (h.translation 5) * rotU θ₂) := by
  have h0 : 0 ≤ ε := by rw [hε]; exact add_nonneg Ar.u_nonneg Ar.η_nonneg
  obtain ⟨hR, hρ, sm, bd⟩ := S.facts h0
  have c1 : Close (3 * ε) (0 * ε) 0 (turnE fcos fsin (h.rotation 2)) (rotE (h.rotation 2)) := (turnE_close (T.deviations 2).1 (T.deviations 2).2).mono (by linarith) (by simp) le_rfl
  have c2 : Close (3 * ε) (0 * ε) 0 (turnN fcos fsin (h.rotation 3)) (rotN (h.rotation 3)) := (turnN_close (T.deviations 3).1 (T.deviations 3).2).mono (by linarith) (by simp) le_rfl
  have c3 : Close (3 * ε) (0 * ε) 0 (turnU fcos fsin θ₂) (rotU θ₂) := (turnU_close T.joints.2.1 T.joints.2.2).mono (by linarith) (by simp) le_rfl
  have t : Close (0 * ε) (0 * ε) ρ (transl (h.translation 3) (h.translation 4) (h.translation 5)) (transl (h.translation 3) (h.translation 4) (h.translation 5)) :=
    (transl_close S.second).mono (by simp) (by simp) le_rfl
  have d1 := step Ar hM hε sm (P 4) (hP 4) (k := 38) (m := 19) (τ := 0) c1 c2 (by norm_num) (by norm_num) (by norm_num) (by linarith) (by norm_num) (by linarith) (by norm_num) (by norm_num) (by norm_num) (by norm_num) (by norm_num)
  have d2 := step Ar hM hε sm (P 5) (hP 5) (k := 69) (m := 53 * ρ + 38) (τ := ρ) d1 t (by norm_num) (by norm_num) (by norm_num) (by linarith) (by norm_num) (by linarith) (by norm_num) hρ (by norm_num) (by linarith) (by linarith)
  exact step Ar hM hε sm (P 6) (hP 6) d2 c3 (by norm_num) (by norm_num) (by positivity) (by simpa using bd 0 53 38 (by norm_num) (by norm_num) (by norm_num) (by norm_num) (by norm_num) (by norm_num)) (by norm_num)
    (by linarith) hρ (by norm_num) (by norm_num) (by linarith) (by linarith)

theorem angles_close (Ar : Arithmetic rnd u η M) (hM : 1 ≤ M) {ε : ℝ} (hε : ε = u + η) (hP : AllComplete P) (S : Sized ε R ρ h) (T : Angles ε fcos fsin f h θ₁ θ₂) :
    Close (336 * ε) ((60 * R + 732 * ρ + 192) * ε) (R + 3 * ρ) (anglesToOrientation rnd fcos fsin P h θ₁ θ₂) (h.anglesToOrientation θ₁ θ₂) := by
  have h0 : 0 ≤ ε := by rw [hε]; exact add_nonneg Ar.u_nonneg Ar.η_nonneg
  obtain ⟨hR, hρ, sm, bd⟩ := S.facts h0
  have o : Close (0 * ε) (0 * ε) 0 (1 : Mat) 1 := one_close.mono (by simp) (by simp) le_rfl
  have t : Close (0 * ε) (0 * ε) R (transl (h.position 0) (h.position 1) (h.position 2)) (transl (h.position 0) (h.position 1) (h.position 2)) :=
    (transl_close S.position).mono (by simp) (by simp) le_rfl
  have t' : Close (0 * ε) (0 * ε) ρ (transl (h.translation 6) (h.translation 7) (h.translation 8)) (transl (h.translation 6) (h.translation 7) (h.translation 8)) :=
    (transl_close S.concentrator).mono (by simp) (by simp) le_rfl
  have j1 := first_close Ar hM hε hP S T
  have j2 := second_close Ar hM hε hP S T
  have jb : 100 * (68 * ρ + 57) * ε ≤ 1 := by simpa using bd 0 68 57 (by norm_num) (by norm_num) (by norm_num) (by norm_num) (by norm_num) (by norm_num)
  have d0 := step Ar hM hε sm (P 0) (hP 0) (k := 31) (m := 15 * R + 19) (τ := R) o t (by norm_num) (by norm_num) (by norm_num) (by linarith) (by norm_num) (by linarith) (by norm_num) hR (by norm_num) (by linarith) (by linarith)
  have d1 := step Ar hM hε sm (P 7) (hP 7) (k := 168) (m := 30 * R + 115 * ρ + 96) (τ := R + ρ) d0 j1 (by norm_num) (by norm_num) (by positivity)
    (by simpa using bd 15 0 19 (by norm_num) (by norm_num) (by norm_num) (by norm_num) (by norm_num) (by norm_num)) (by positivity) jb hR hρ (by norm_num) (by linarith) (by linarith)
  have d2 := step Ar hM hε sm (P 8) (hP 8) (k := 305) (m := 45 * R + 382 * ρ + 173) (τ := R + 2 * ρ) d1 j2 (by norm_num) (by norm_num) (by positivity)
    (bd 30 115 96 (by norm_num) (by norm_num) (by norm_num) (by norm_num) (by norm_num) (by norm_num)) (by positivity) jb (by positivity) hρ (by norm_num) (by linarith) (by linarith)
  exact step Ar hM hε sm (P 9) (hP 9) d2 t' (by norm_num) (by norm_num) (by positivity)
    (bd 45 382 173 (by norm_num) (by norm_num) (by norm_num) (by norm_num) (by norm_num) (by norm_num)) (by norm_num) (by linarith) (by positivity) hρ (by norm_num) (by linarith) (by linarith)

theorem offset_close (Ar : Arithmetic rnd u η M) (hM : 1 ≤ M) {ε : ℝ} (hε : ε = u + η) (sm : 160000 * ε ≤ 1) (hP : AllComplete P) (T : Angles ε fcos fsin f h θ₁ θ₂) :
    Close (82 * ε) (38 * ε) 0 (offset rnd fcos fsin P f) orientationOffset := by
  have h0 : 0 ≤ ε := by rw [hε]; exact add_nonneg Ar.u_nonneg Ar.η_nonneg
  have n : ∀ i, |fcos (f i) - cos (decomposeRotations ![0, 0, 1] ![0, -1, 0] i)| ≤ 4 * ε ∧ |fsin (f i) - sin (decomposeRotations ![0, 0, 1] ![0, -1, 0] i)| ≤ 4 * ε := fun i => trig_near (T.turn i) (T.turn_near i)
  have c1 : Close (6 * ε) (0 * ε) 0 (turnE fcos fsin (f 0)) (rotE (decomposeRotations ![0, 0, 1] ![0, -1, 0] 0)) := (turnE_close (n 0).1 (n 0).2).mono (by linarith) (by simp) le_rfl
  have c2 : Close (6 * ε) (0 * ε) 0 (turnN fcos fsin (f 1)) (rotN (decomposeRotations ![0, 0, 1] ![0, -1, 0] 1)) := (turnN_close (n 1).1 (n 1).2).mono (by linarith) (by simp) le_rfl
  have c3 : Close (6 * ε) (0 * ε) 0 (turnU fcos fsin (f 2)) (rotU (decomposeRotations ![0, 0, 1] ![0, -1, 0] 2)) := (turnU_close (n 2).1 (n 2).2).mono (by linarith) (by simp) le_rfl
  have d1 := step Ar hM hε sm (P 10) (hP 10) (k := 44) (m := 19) (τ := 0) c1 c2 (by norm_num) (by norm_num) (by norm_num) (by linarith) (by norm_num) (by linarith) (by norm_num) (by norm_num) (by norm_num) (by norm_num) (by norm_num)
  have e : orientationOffset = rotE (decomposeRotations ![0, 0, 1] ![0, -1, 0] 0) * rotN (decomposeRotations ![0, 0, 1] ![0, -1, 0] 1) * rotU (decomposeRotations ![0, 0, 1] ![0, -1, 0] 2) := by
    simp [orientationOffset, up, south]
  rw [e]
  exact step Ar hM hε sm (P 11) (hP 11) d1 c3 (by norm_num) (by norm_num) (by norm_num) (by linarith) (by norm_num) (by linarith) (by norm_num) (by norm_num) (by norm_num) (by norm_num) (by norm_num)

theorem orientation_close (Ar : Arithmetic rnd u η M) (hM : 1 ≤ M) {ε : ℝ} (hε : ε = u + η) (hP : AllComplete P) (S : Sized ε R ρ h) (T : Angles ε fcos fsin f h θ₁ θ₂) :
    Close (450 * ε) ((75 * R + 777 * ρ + 250) * ε) (R + 3 * ρ) (orientation rnd fcos fsin P f h θ₁ θ₂) (h.anglesToOrientation θ₁ θ₂ * orientationOffset) := by
  have h0 : 0 ≤ ε := by rw [hε]; exact add_nonneg Ar.u_nonneg Ar.η_nonneg
  obtain ⟨hR, hρ, sm, bd⟩ := S.facts h0
  exact step Ar hM hε sm (P 12) (hP 12) (angles_close Ar hM hε hP S T) (offset_close Ar hM hε sm hP T) (by norm_num) (by norm_num) (by positivity)
    (bd 60 732 192 (by norm_num) (by norm_num) (by norm_num) (by norm_num) (by norm_num) (by norm_num)) (by norm_num) (by linarith) (by positivity) le_rfl (by norm_num) (by linarith) (by linarith)

end chain

/-- a point or a normal that is placed with a matrix as computed -/
theorem place_close (Ar : Arithmetic rnd u η M) (small : 1000 * (u + η) ≤ 1) (Q : Fin 4 → Plan) (hQ : ∀ i, (Q i).Complete) (C : Close c b τ M' N) (c0 : 0 ≤ c) (c1 : c ≤ 1 / 100)
    (b1 : b ≤ 1 / 100) (v : Fin 4 → ℝ) :
    length3 (place rnd Q M' v - N *ᵥ v) ≤ c * length3 v + |v 3| * b + 15 * (u + η) * (length3 v + |v 3| * (τ + 1 / 100)) + 18 * (u + η) := by
  have hu := Ar.u_nonneg
  have hη := Ar.η_nonneg
  have b0 : 0 ≤ b := (length3_nonneg _).trans C.org
  have t0 : 0 ≤ τ := (length3_nonneg _).trans C.pos
  refine (length3_triangle _ (M' *ᵥ v) _).trans ?_
  have h1 : length3 (place rnd Q M' v - M' *ᵥ v) ≤ 7 / 4 * (8 * u * ((1 + c) * length3 v + |v 3| * (τ + b)) + 10 * η) := by
    have comp : ∀ i, i ≠ 3 → |(place rnd Q M' v - M' *ᵥ v) i| ≤ 8 * u * ((1 + c) * length3 v + |v 3| * (τ + b)) + 10 * η := by
      intro i hi
      have e : (M' *ᵥ v) i = v 0 * M' i 0 + v 1 * M' i 1 + v 2 * M' i 2 + v 3 * M' i 3 := by
        simp only [mulVec, dotProduct, Fin.sum_univ_four]
        ring
      rw [Pi.sub_apply, e]
      refine dot_error hu hη Ar.close small v (M' i) (Q i) (hQ i) _ (add_le_add ?_ ?_)
      · have k := inner_abs ![M' i 0, M' i 1, M' i 2, 0] v
        simp only [cons_val_zero, cons_val_one, cons_val] at k
        rw [mul_comm (v 0), mul_comm (v 1), mul_comm (v 2)]
        exact k.trans (mul_le_mul_of_nonneg_right (C.row c0 i hi) (length3_nonneg v))
      · rw [abs_mul]
        exact mul_le_mul_of_nonneg_left (C.entry_last i hi) (abs_nonneg _)
    exact length_le_comp (comp 0 (by decide)) (comp 1 (by decide)) (comp 2 (by decide))
  have h2 : length3 (M' *ᵥ v - N *ᵥ v) ≤ c * length3 v + |v 3| * b := by
    set d : Fin 4 → ℝ := v - v 3 • origin with hd
    have o : (origin 0 = 0 ∧ origin 1 = 0 ∧ origin 2 = 0) ∧ origin 3 = 1 := by simp [origin]
    have d3 : d 3 = 0 := by rw [hd, Pi.sub_apply, Pi.smul_apply, o.2, smul_eq_mul]; ring
    have dl : length3 d = length3 v := by simp only [hd, length3, Pi.sub_apply, Pi.smul_apply, o.1.1, o.1.2.1, o.1.2.2, smul_zero, sub_zero]
    have s : ∀ K : Mat, K *ᵥ v = K *ᵥ d + v 3 • (K *ᵥ origin) := by
      intro K
      rw [hd, mulVec_sub, mulVec_smul]
      abel
    rw [s M', s N, add_sub_add_comm, ← smul_sub]
    refine (length3_add_le _ _).trans (add_le_add ?_ ?_)
    · rw [← dl]; exact C.dir d d3
    · rw [length3_smul]
      exact mul_le_mul_of_nonneg_left C.org (abs_nonneg _)
  have h3 : 8 * u * ((1 + c) * length3 v + |v 3| * (τ + b)) ≤ 8 * (u + η) * (101 / 100 * length3 v + |v 3| * (τ + 1 / 100)) := by
    refine mul_le_mul (by linarith) (add_le_add (mul_le_mul_of_nonneg_right (by linarith) (length3_nonneg v)) (mul_le_mul_of_nonneg_left (by linarith) (abs_nonneg _))) ?_ (by positivity)
    have := length3_nonneg v
    positivity
  have h4 : 0 ≤ (u + η) * length3 v := mul_nonneg (by linarith) (length3_nonneg v)
  have h5 : 0 ≤ (u + η) * (|v 3| * (τ + 1 / 100)) := by positivity
  linarith

/-- its homogeneous component is exact -/
theorem place_last (Ar : Arithmetic rnd u η M) (hM : 1 ≤ M) (Q : Fin 4 → Plan) (hQ : ∀ i, (Q i).Complete) (hl : M' 3 = ![0, 0, 0, 1]) (v : Fin 4 → ℝ) (n : ℕ) (hn : n ≤ 1) (hv : v 3 = n) :
    place rnd Q M' v 3 = n := by
  unfold place
  rw [hl]
  exact (plan_last Ar hM v n hn hv (Q 3) (hQ 3)).2

/-- what a wrong normal does to the reflected direction -/
theorem reflect_wrong (d n n' : Fin 4 → ℝ) (hd : d 3 = 0) (hn : n 3 = 0) (hn' : n' 3 = 0) :
    length3 (Intersect.reflect d n' - Intersect.reflect d n) ≤ 2 * length3 d * (length3 n + length3 n') * length3 (n' - n) := by
  have e : Intersect.reflect d n' - Intersect.reflect d n = (-2 * inner3 d n) • (n' - n) + (-2 * inner3 d (n' - n)) • n' := by
    ext i
    simp [Intersect.reflect, inner3, Fin.sum_univ_four, dotProduct, hd, hn, hn']
    ring
  have a : ∀ v, |inner3 d v| ≤ length3 d * length3 v := fun v => (abs_add_three _ _ _).trans (inner_abs d v)
  rw [e]
  refine (length3_add_le _ _).trans ?_
  rw [length3_smul, length3_smul, abs_mul, abs_mul, show |(-2 : ℝ)| = 2 by norm_num]
  have h1 := mul_le_mul_of_nonneg_right (a n) (length3_nonneg (n' - n))
  have h2 := mul_le_mul_of_nonneg_right (a (n' - n)) (length3_nonneg n')
  linarith

end
end Artist.RoundedKinematics
