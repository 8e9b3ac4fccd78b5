import Verif.Spec.RoundedRay
import Verif.Spec.Rounded
import Verif.Model.Flux
import Mathlib.Algebra.BigOperators.Fin
import Mathlib.Tactic.LinearCombination
/-! Helper lemmas for C129. -/
namespace Artist.RoundedRay
open Artist Intersect RoundedLanding Rounded
noncomputable section

variable {rnd : ℝ → ℝ} {u η : ℝ}

/-- sums of the products of a plan, exact, and of their absolute values -/
def Plan.exact (a b : Fin 4 → ℝ) (P : Plan) : ℝ := (P.terms.map fun i => a i * b i).sum
def Plan.absolute (a b : Fin 4 → ℝ) (P : Plan) : ℝ := (P.terms.map fun i => |a i * b i|).sum

theorem Plan.absolute_nonneg (a b : Fin 4 → ℝ) (P : Plan) : 0 ≤ P.absolute a b :=
  List.sum_nonneg (by intro x hx; obtain ⟨i, _, rfl⟩ := List.mem_map.1 hx; exact abs_nonneg _)

theorem Plan.exact_le (a b : Fin 4 → ℝ) (P : Plan) : |P.exact a b| ≤ P.absolute a b := by
  unfold Plan.exact Plan.absolute
  induction P.terms with
  | nil => simp
  | cons i l ih =>
    simp only [List.map_cons, List.sum_cons]
    exact (abs_add_le _ _).trans (by linarith)

theorem round_sum (hu : 0 ≤ u) (hη : 0 ≤ η) (close : ∀ x, |rnd x - x| ≤ u * |x| + η) {s e S k eS : ℝ} (hs : |s - e| ≤ eS) (he : |e| ≤ S)
    (hS : 0 ≤ S) (hk : 3 * k * u ≤ 1) (hb : eS ≤ 2 * k * u * S - 2 * u * S + (3 * k - 4) * η) (k1 : 1 ≤ k) :
    |rnd s - e| ≤ 2 * k * u * S + (3 * k - 2) * η := by
  have h1 := close s
  have h2 : |s| ≤ S + eS := by
    have := abs_sub_abs_le_abs_sub s e
    linarith
  have h3 : u * |s| ≤ u * (S + eS) := mul_le_mul_of_nonneg_left h2 hu
  have h4 : |rnd s - e| ≤ |rnd s - s| + |s - e| := abs_sub_le _ _ _
  have h5 : u * eS ≤ u * (2 * k * u * S + 3 * k * η) := by
    refine mul_le_mul_of_nonneg_left ?_ hu
    have : 0 ≤ u * S := mul_nonneg hu hS
    linarith
  have h6 : u * (2 * k * u * S + 3 * k * η) ≤ u * S + η := by
    have a1 : 3 * k * u * (u * S) ≤ 1 * (u * S) := mul_le_mul_of_nonneg_right hk (mul_nonneg hu hS)
    have a2 : 3 * k * u * η ≤ 1 * η := mul_le_mul_of_nonneg_right hk hη
    have a3 : 0 ≤ k * u * (u * S) := mul_nonneg (mul_nonneg (by linarith) hu) (mul_nonneg hu hS)
    nlinarith
  linarith

/-- the error of a sum of products, whatever the order -/
theorem Plan.error (hu : 0 ≤ u) (hη : 0 ≤ η) (close : ∀ x, |rnd x - x| ≤ u * |x| + η) (a b : Fin 4 → ℝ) (P : Plan) (n : Nat) (hn : P.terms.length ≤ n) (hk : 3 * (n : ℝ) * u ≤ 1) :
    1 ≤ P.terms.length ∧ |P.eval rnd a b - P.exact a b| ≤ 2 * (P.terms.length : ℝ) * u * P.absolute a b + (3 * (P.terms.length : ℝ) - 2) * η := by
  have mono : ∀ k : Nat, k ≤ n → 3 * (k : ℝ) * u ≤ 1 := by
    intro k h
    have : (k : ℝ) ≤ n := by exact_mod_cast h
    nlinarith
  induction P with
  | product i =>
    refine ⟨by simp [Plan.terms], ?_⟩
    have := close (a i * b i)
    simp only [Plan.eval, Plan.exact, Plan.absolute, Plan.terms, List.map_cons, List.map_nil, List.sum_cons, List.sum_nil, List.length_cons, List.length_nil, add_zero]
    have : 0 ≤ u * |a i * b i| := mul_nonneg hu (abs_nonneg _)
    push_cast
    linarith
  | add l r hl hr =>
    have len : (Plan.add l r).terms.length = l.terms.length + r.terms.length := by simp [Plan.terms]
    rw [len] at hn ⊢
    obtain ⟨l1, hl⟩ := hl (by omega)
    obtain ⟨r1, hr⟩ := hr (by omega)
    refine ⟨by omega, ?_⟩
    have e : (Plan.add l r).exact a b = l.exact a b + r.exact a b := by simp [Plan.exact, Plan.terms]
    have s : (Plan.add l r).absolute a b = l.absolute a b + r.absolute a b := by simp [Plan.absolute, Plan.terms]
    have hm := mono _ hn
    have L1 : (1 : ℝ) ≤ l.terms.length := by exact_mod_cast l1
    have R1 : (1 : ℝ) ≤ r.terms.length := by exact_mod_cast r1
    push_cast at hm ⊢
    have ul : 0 ≤ u * l.absolute a b := mul_nonneg hu (l.absolute_nonneg a b)
    have ur : 0 ≤ u * r.absolute a b := mul_nonneg hu (r.absolute_nonneg a b)
    refine round_sum hu hη close (eS := (2 * (l.terms.length : ℝ) * u * l.absolute a b + (3 * (l.terms.length : ℝ) - 2) * η) +
      (2 * (r.terms.length : ℝ) * u * r.absolute a b + (3 * (r.terms.length : ℝ) - 2) * η)) ?_ ((Plan.add l r).exact_le a b) ((Plan.add l r).absolute_nonneg a b) hm ?_ (by linarith)
    · rw [e, add_sub_add_comm]
      exact (abs_add_le _ _).trans (add_le_add hl hr)
    · rw [s]
      have := mul_le_mul_of_nonneg_right R1 ul
      have := mul_le_mul_of_nonneg_right L1 ur
      nlinarith
  | fused i r hr =>
    have len : (Plan.fused i r).terms.length = r.terms.length + 1 := by simp [Plan.terms]
    rw [len] at hn ⊢
    obtain ⟨r1, hr⟩ := hr (by omega)
    refine ⟨by omega, ?_⟩
    have e : (Plan.fused i r).exact a b = a i * b i + r.exact a b := by simp [Plan.exact, Plan.terms]
    have s : (Plan.fused i r).absolute a b = |a i * b i| + r.absolute a b := by simp [Plan.absolute, Plan.terms]
    have hm := mono _ hn
    have R1 : (1 : ℝ) ≤ r.terms.length := by exact_mod_cast r1
    push_cast at hm ⊢
    have ul : 0 ≤ u * |a i * b i| := mul_nonneg hu (abs_nonneg _)
    have ur : 0 ≤ u * r.absolute a b := mul_nonneg hu (r.absolute_nonneg a b)
    refine round_sum hu hη close (eS := 2 * (r.terms.length : ℝ) * u * r.absolute a b + (3 * (r.terms.length : ℝ) - 2) * η) ?_ ((Plan.fused i r).exact_le a b)
      ((Plan.fused i r).absolute_nonneg a b) hm ?_ (by linarith)
    · rw [e, add_sub_add_left_eq_sub]
      exact hr
    · rw [s]
      have := mul_le_mul_of_nonneg_right R1 ul
      nlinarith

/-- the error of a complete sum of four products -/
theorem dot_error (hu : 0 ≤ u) (hη : 0 ≤ η) (close : ∀ x, |rnd x - x| ≤ u * |x| + η) (small : 1000 * (u + η) ≤ 1) (a b : Fin 4 → ℝ) (P : Plan) (hP : P.Complete) (S : ℝ)
    (hS : |a 0 * b 0| + |a 1 * b 1| + |a 2 * b 2| + |a 3 * b 3| ≤ S) :
    |P.eval rnd a b - (a 0 * b 0 + a 1 * b 1 + a 2 * b 2 + a 3 * b 3)| ≤ 8 * u * S + 10 * η := by
  have len : P.terms.length = 4 := by rw [hP.length_eq]; rfl
  have h := (P.error hu hη close a b 4 len.le (by push_cast; linarith)).2
  have e : P.exact a b = a 0 * b 0 + a 1 * b 1 + a 2 * b 2 + a 3 * b 3 := by
    unfold Plan.exact
    rw [(hP.map _).sum_eq]
    simp; ring
  have s : P.absolute a b = |a 0 * b 0| + |a 1 * b 1| + |a 2 * b 2| + |a 3 * b 3| := by
    unfold Plan.absolute
    rw [(hP.map _).sum_eq]
    simp; ring
  rw [e, s, len] at h
  push_cast at h
  have := mul_le_mul_of_nonneg_left hS hu
  linarith

theorem round_to (hu : 0 ≤ u) (hη : 0 ≤ η) (close : ∀ x, |rnd x - x| ≤ u * |x| + η) {x y e b : ℝ} (h : |x - y| ≤ e) (hb : |y| + e ≤ b) (b1 : 1 ≤ b) : |rnd x - y| ≤ e + b * (u + η) := by
  have h1 := close x
  have h2 : |x| ≤ b := by
    have := abs_sub_abs_le_abs_sub x y
    linarith
  have h3 := mul_le_mul_of_nonneg_left h2 hu
  have h4 := mul_le_mul_of_nonneg_right b1 hη
  have h5 : |rnd x - y| ≤ |rnd x - x| + |x - y| := abs_sub_le _ _ _
  linarith

/-- a component of a vector is at most its length -/
theorem comp_le {x y z B : ℝ} (hB : 0 ≤ B) (h : x ^ 2 + y ^ 2 + z ^ 2 ≤ B ^ 2) : |x| ≤ B ∧ |y| ≤ B ∧ |z| ≤ B := by
  refine ⟨abs_le_of_sq_le_sq ?_ hB, abs_le_of_sq_le_sq ?_ hB, abs_le_of_sq_le_sq ?_ hB⟩ <;> nlinarith [sq_nonneg x, sq_nonneg y, sq_nonneg z]

/-- the sum of the absolute products is at most the product of the lengths -/
theorem cauchy_abs {x y z x' y' z' A B : ℝ} (hA : 0 ≤ A) (hB : 0 ≤ B) (h : x ^ 2 + y ^ 2 + z ^ 2 ≤ A ^ 2) (h' : x' ^ 2 + y' ^ 2 + z' ^ 2 ≤ B ^ 2) :
    |x * x'| + |y * y'| + |z * z'| ≤ A * B := by
  have e : (|x * x'| + |y * y'| + |z * z'|) ^ 2 ≤ (x ^ 2 + y ^ 2 + z ^ 2) * (x' ^ 2 + y' ^ 2 + z' ^ 2) := by
    rw [abs_mul, abs_mul, abs_mul, ← sq_abs x, ← sq_abs y, ← sq_abs z, ← sq_abs x', ← sq_abs y', ← sq_abs z']
    nlinarith [sq_nonneg (|x| * |y'| - |y| * |x'|), sq_nonneg (|x| * |z'| - |z| * |x'|), sq_nonneg (|y| * |z'| - |z| * |y'|)]
  refine le_of_sq_le_sq' ?_ (by positivity)
  have n : 0 ≤ x' ^ 2 + y' ^ 2 + z' ^ 2 := by positivity
  calc _ ≤ (x ^ 2 + y ^ 2 + z ^ 2) * (x' ^ 2 + y' ^ 2 + z' ^ 2) := e
    _ ≤ A ^ 2 * B ^ 2 := mul_le_mul h h' n (sq_nonneg _)
    _ = _ := by ring
where
  le_of_sq_le_sq' {a b : ℝ} (h : a ^ 2 ≤ b ^ 2) (hb : 0 ≤ b) : a ≤ b := (abs_le_of_sq_le_sq' h hb).2

/-- the exact reflection has a length near one -/
theorem reflect_length (d n : Fin 4 → ℝ) (hd : AtMostUnit d) (hn : AtMostUnit n) :
    Intersect.reflect d n 3 = 0 ∧ (Intersect.reflect d n 0) ^ 2 + (Intersect.reflect d n 1) ^ 2 + (Intersect.reflect d n 2) ^ 2 ≤ (104 / 100) ^ 2 := by
  obtain ⟨d3, d1⟩ := hd
  obtain ⟨n3, n1⟩ := hn
  have z : dotProduct d n = d 0 * n 0 + d 1 * n 1 + d 2 * n 2 := by simp [dotProduct, Fin.sum_univ_four, d3]
  constructor
  · simp [Intersect.reflect, d3, n3]
  · simp only [Intersect.reflect, z, Pi.sub_apply, Pi.smul_apply, smul_eq_mul]
    set s := d 0 * n 0 + d 1 * n 1 + d 2 * n 2 with hs
    have e : (d 0 - 2 * s * n 0) ^ 2 + (d 1 - 2 * s * n 1) ^ 2 + (d 2 - 2 * s * n 2) ^ 2 =
        (d 0 ^ 2 + d 1 ^ 2 + d 2 ^ 2) + 4 * s ^ 2 * (n 0 ^ 2 + n 1 ^ 2 + n 2 ^ 2 - 1) := by rw [hs]; ring
    rw [e]
    have cs : s ^ 2 ≤ (d 0 ^ 2 + d 1 ^ 2 + d 2 ^ 2) * (n 0 ^ 2 + n 1 ^ 2 + n 2 ^ 2) := by
      rw [hs]
      nlinarith [sq_nonneg (d 0 * n 1 - d 1 * n 0), sq_nonneg (d 0 * n 2 - d 2 * n 0), sq_nonneg (d 1 * n 2 - d 2 * n 1)]
    have s2 : s ^ 2 ≤ 101 / 100 * (101 / 100) := cs.trans (mul_le_mul d1 n1 (by positivity) (by norm_num))
    have : s ^ 2 * (n 0 ^ 2 + n 1 ^ 2 + n 2 ^ 2 - 1) ≤ s ^ 2 * (1 / 100) := mul_le_mul_of_nonneg_left (by linarith) (sq_nonneg _)
    linarith

/-- rounding in the reflection -/
theorem reflect_near (hu : 0 ≤ u) (hη : 0 ≤ η) (close : ∀ x, |rnd x - x| ≤ u * |x| + η) (small : 10000 * (u + η) ≤ 1) (P : Plan) (hP : P.Complete) (d n : Fin 4 → ℝ)
    (hd : AtMostUnit d) (hn : AtMostUnit n) (i : Fin 4) : |reflect rnd P d n i - Intersect.reflect d n i| ≤ 32 * (u + η) := by
  obtain ⟨d3, d1⟩ := hd
  obtain ⟨n3, n1⟩ := hn
  have hε : 0 ≤ u + η := by linarith
  have z : dotProduct d n = d 0 * n 0 + d 1 * n 1 + d 2 * n 2 + d 3 * n 3 := by simp [dotProduct, Fin.sum_univ_four]
  have sq : (101 / 100 : ℝ) ≤ (1005 / 1000) ^ 2 := by norm_num
  have S := cauchy_abs (by norm_num : (0 : ℝ) ≤ 1005 / 1000) (by norm_num : (0 : ℝ) ≤ 1005 / 1000) (d1.trans sq) (n1.trans sq)
  have S' : |d 0 * n 0| + |d 1 * n 1| + |d 2 * n 2| + |d 3 * n 3| ≤ 1011 / 1000 := by
    rw [d3, zero_mul, abs_zero]
    linarith
  have h1 := dot_error hu hη close (by linarith) d n P hP _ S'
  rw [← z] at h1
  have sb : |dotProduct d n| ≤ 1011 / 1000 := by
    rw [z]
    refine (abs_add_le _ _).trans (le_trans (add_le_add ((abs_add_le _ _).trans (add_le_add (abs_add_le _ _) le_rfl)) le_rfl) S')
  set s := dotProduct d n with hs
  set s' := P.eval rnd d n with hs'
  have h1' : |s' - s| ≤ 10 * (u + η) := by linarith
  have h2 : |rnd (2 * s') - 2 * s| ≤ 23 * (u + η) := by
    have a : |2 * s' - 2 * s| ≤ 20 * (u + η) := by
      rw [← mul_sub, abs_mul, abs_of_pos (by norm_num : (0 : ℝ) < 2)]
      linarith
    refine (round_to hu hη close a (b := 205 / 100) ?_ (by norm_num)).trans (by linarith)
    rw [abs_mul, abs_of_pos (by norm_num : (0 : ℝ) < 2)]
    linarith
  have ni : |n i| ≤ 1005 / 1000 := by
    have c := comp_le (by norm_num : (0 : ℝ) ≤ 1005 / 1000) (n1.trans sq)
    fin_cases i
    · exact c.1
    · exact c.2.1
    · exact c.2.2
    · simp [n3]; norm_num
  have di : |d i| ≤ 1005 / 1000 := by
    have c := comp_le (by norm_num : (0 : ℝ) ≤ 1005 / 1000) (d1.trans sq)
    fin_cases i
    · exact c.1
    · exact c.2.1
    · exact c.2.2
    · simp [d3]; norm_num
  have sn : |2 * s * n i| ≤ 2033 / 1000 := by
    rw [abs_mul, abs_mul, abs_of_pos (by norm_num : (0 : ℝ) < 2)]
    calc 2 * |s| * |n i| ≤ 2 * (1011 / 1000) * (1005 / 1000) := mul_le_mul (by linarith) ni (abs_nonneg _) (by norm_num)
      _ ≤ _ := by norm_num
  have h3 : |rnd (rnd (2 * s') * n i) - 2 * s * n i| ≤ 26 * (u + η) := by
    have a : |rnd (2 * s') * n i - 2 * s * n i| ≤ 236 / 10 * (u + η) := by
      rw [← sub_mul, abs_mul]
      calc |rnd (2 * s') - 2 * s| * |n i| ≤ 23 * (u + η) * (1005 / 1000) := mul_le_mul h2 ni (abs_nonneg _) (by linarith)
        _ ≤ _ := by linarith
    exact (round_to hu hη close a (b := 21 / 10) (by linarith) (by norm_num)).trans (by linarith)
  have e : Intersect.reflect d n i = d i - 2 * s * n i := by simp [Intersect.reflect, hs]
  rw [e]
  unfold reflect
  have a : |d i - rnd (rnd (2 * s') * n i) - (d i - 2 * s * n i)| ≤ 26 * (u + η) := by
    rw [sub_sub_sub_cancel_left, abs_sub_comm]
    exact h3
  refine (round_to hu hη close a (b := 31 / 10) ?_ (by norm_num)).trans (by linarith)
  have := abs_sub (d i) (2 * s * n i)
  linarith

/-- the product of two approximate numbers of at most one -/
theorem mul_near {ε x y x' y' : ℝ} (hε : 0 ≤ ε) (small : 10000 * ε ≤ 1) (hx : |x| ≤ 1) (hy : |y| ≤ 1) (h : |x' - x| ≤ 2 * ε) (h' : |y' - y| ≤ 2 * ε) : |x' * y' - x * y| ≤ 401 / 100 * ε := by
  have e : x' * y' - x * y = (x' - x) * (y' - y) + x * (y' - y) + (x' - x) * y := by ring
  have a1 : |(x' - x) * (y' - y)| ≤ 2 * ε * (2 * ε) := by
    rw [abs_mul]
    exact mul_le_mul h h' (abs_nonneg _) (by linarith)
  have a2 : |x * (y' - y)| ≤ 1 * (2 * ε) := by
    rw [abs_mul]
    exact mul_le_mul hx h' (abs_nonneg _) (by norm_num)
  have a3 : |(x' - x) * y| ≤ 2 * ε * 1 := by
    rw [abs_mul]
    exact mul_le_mul h hy (abs_nonneg _) (by linarith)
  have a4 := mul_le_mul_of_nonneg_right small hε
  have := abs_add_le ((x' - x) * (y' - y) + x * (y' - y)) ((x' - x) * y)
  have := abs_add_le ((x' - x) * (y' - y)) (x * (y' - y))
  rw [e]
  linarith

/-- a row of a matrix times a vector, both approximate -/
theorem row_near (hu : 0 ≤ u) (hη : 0 ≤ η) (close : ∀ x, |rnd x - x| ≤ u * |x| + η) (small : 10000 * (u + η) ≤ 1) (Q : Plan) (hQ : Q.Complete) (m m' v v' : Fin 4 → ℝ)
    (hm : m 3 = 0 ∧ m' 3 = 0) (len : m 0 ^ 2 + m 1 ^ 2 + m 2 ^ 2 ≤ 1) (mm : ∀ i, |m' i - m i| ≤ 52 / 10 * (u + η))
    (vlen : v 0 ^ 2 + v 1 ^ 2 + v 2 ^ 2 ≤ (104 / 100) ^ 2) (vv : ∀ i, |v' i - v i| ≤ 32 * (u + η)) :
    |Q.eval rnd m' v' - (m 0 * v 0 + m 1 * v 1 + m 2 * v 2 + m 3 * v 3)| ≤ 78 * (u + η) := by
  have hε : 0 ≤ u + η := by linarith
  set ε := u + η with hεd
  have sm : |m 0| + |m 1| + |m 2| ≤ 1733 / 1000 := by
    have := cauchy_abs (x' := 1) (y' := 1) (z' := 1) (by norm_num : (0 : ℝ) ≤ 1) (by norm_num : (0 : ℝ) ≤ 1733 / 1000) (len.trans (by norm_num)) (by norm_num)
    simpa using this
  have sv : |v 0| + |v 1| + |v 2| ≤ 1803 / 1000 := by
    have := cauchy_abs (x' := 1) (y' := 1) (z' := 1) (by norm_num : (0 : ℝ) ≤ 104 / 100) (by norm_num : (0 : ℝ) ≤ 1733 / 1000) vlen (by norm_num)
    simp only [mul_one] at this
    linarith
  have smv := cauchy_abs (by norm_num : (0 : ℝ) ≤ 1) (by norm_num : (0 : ℝ) ≤ 104 / 100) (len.trans (by norm_num)) vlen
  have one : ∀ i, |m' i * v' i - m i * v i| ≤ 32 * ε * |m i| + 52 / 10 * ε * |v i| + ε * (2 / 100) := by
    intro i
    have e : m' i * v' i - m i * v i = (m' i - m i) * (v' i - v i) + m i * (v' i - v i) + (m' i - m i) * v i := by ring
    have a1 : |(m' i - m i) * (v' i - v i)| ≤ 52 / 10 * ε * (32 * ε) := by
      rw [abs_mul]
      exact mul_le_mul (mm i) (vv i) (abs_nonneg _) (by linarith)
    have a2 : |m i * (v' i - v i)| ≤ |m i| * (32 * ε) := by
      rw [abs_mul]
      exact mul_le_mul_of_nonneg_left (vv i) (abs_nonneg _)
    have a3 : |(m' i - m i) * v i| ≤ 52 / 10 * ε * |v i| := by
      rw [abs_mul]
      exact mul_le_mul_of_nonneg_right (mm i) (abs_nonneg _)
    have a4 := mul_le_mul_of_nonneg_right small hε
    have := abs_add_le ((m' i - m i) * (v' i - v i) + m i * (v' i - v i)) ((m' i - m i) * v i)
    have := abs_add_le ((m' i - m i) * (v' i - v i)) (m i * (v' i - v i))
    rw [e]
    nlinarith
  have three : ∀ x : ℝ, m' 3 * x = 0 := by simp [hm.2]
  have b := fun i => abs_sub_abs_le_abs_sub (m' i * v' i) (m i * v i)
  have S : |m' 0 * v' 0| + |m' 1 * v' 1| + |m' 2 * v' 2| + |m' 3 * v' 3| ≤ 106 / 100 := by
    rw [three, abs_zero]
    have := b 0; have := b 1; have := b 2
    have := one 0; have := one 1; have := one 2
    have c1 := mul_le_mul_of_nonneg_left sm hε
    have c2 := mul_le_mul_of_nonneg_left sv hε
    linarith
  have h := dot_error hu hη close (by linarith) m' v' Q hQ _ S
  have h' : |m' 0 * v' 0 + m' 1 * v' 1 + m' 2 * v' 2 + m' 3 * v' 3 - (m 0 * v 0 + m 1 * v 1 + m 2 * v 2 + m 3 * v 3)| ≤ 66 * ε := by
    rw [three, hm.1, zero_mul, add_zero, add_zero,
      show m' 0 * v' 0 + m' 1 * v' 1 + m' 2 * v' 2 - (m 0 * v 0 + m 1 * v 1 + m 2 * v 2) = (m' 0 * v' 0 - m 0 * v 0) + (m' 1 * v' 1 - m 1 * v 1) + (m' 2 * v' 2 - m 2 * v 2) by ring]
    have := one 0; have := one 1; have := one 2
    have c1 := mul_le_mul_of_nonneg_left sm hε
    have c2 := mul_le_mul_of_nonneg_left sv hε
    have := abs_add_le ((m' 0 * v' 0 - m 0 * v 0) + (m' 1 * v' 1 - m 1 * v 1)) (m' 2 * v' 2 - m 2 * v 2)
    have := abs_add_le (m' 0 * v' 0 - m 0 * v 0) (m' 1 * v' 1 - m 1 * v 1)
    linarith
  refine (abs_sub_le _ _ _).trans ((add_le_add h h').trans ?_)
  linarith

/-- rounding in the matrix that scatters -/
theorem matrix_near (hu : 0 ≤ u) (hη : 0 ≤ η) (close : ∀ x, |rnd x - x| ≤ u * |x| + η) (small : 10000 * (u + η) ≤ 1) (fcos fsin : ℝ → ℝ) (e w : ℝ)
    (he : Faithful (u + η) fcos fsin e) (hw : Faithful (u + η) fcos fsin w) (i j : Fin 4) : |matrix rnd fcos fsin e w i j - Transforms.rotDist e w i j| ≤ 52 / 10 * (u + η) := by
  have hε : 0 ≤ u + η := by linarith
  have two : ∀ x : ℝ, |x| ≤ 2 * (u + η) → |x| ≤ 52 / 10 * (u + η) := fun x h => by linarith
  have prod : ∀ x y x' y' : ℝ, |x| ≤ 1 → |y| ≤ 1 → |x' - x| ≤ 2 * (u + η) → |y' - y| ≤ 2 * (u + η) → |rnd (x' * y') - x * y| ≤ 52 / 10 * (u + η) := by
    intro x y x' y' hx hy h h'
    have := mul_near hε small hx hy h h'
    refine (round_to hu hη close this (b := 101 / 100) ?_ (by norm_num)).trans (by linarith)
    have : |x * y| ≤ 1 * 1 := by
      rw [abs_mul]
      exact mul_le_mul hx hy (abs_nonneg _) (by norm_num)
    linarith
  have neg : ∀ x y : ℝ, |x - y| ≤ 2 * (u + η) → |-x - -y| ≤ 52 / 10 * (u + η) := fun x y h => by
    rw [← neg_add', abs_neg, ← sub_eq_add_neg]
    linarith
  have z : |(0 : ℝ) - 0| ≤ 52 / 10 * (u + η) := by simp; linarith
  have o : |(1 : ℝ) - 1| ≤ 52 / 10 * (u + η) := by simp; linarith
  have ce := Real.abs_cos_le_one e
  have se := Real.abs_sin_le_one e
  have cw := Real.abs_cos_le_one w
  have sw := Real.abs_sin_le_one w
  fin_cases i <;> fin_cases j
  · exact two _ hw.1
  · exact neg _ _ hw.2
  · exact z
  · exact z
  · exact prod _ _ _ _ ce sw he.1 hw.2
  · exact prod _ _ _ _ ce cw he.1 hw.1
  · exact neg _ _ he.2
  · exact z
  · exact prod _ _ _ _ se sw he.2 hw.2
  · exact prod _ _ _ _ se cw he.2 hw.1
  · exact two _ he.1
  · exact z
  · exact z
  · exact z
  · exact z
  · exact o

theorem rotDist_row (e w : ℝ) (i : Fin 4) (hi : i ≠ 3) : Transforms.rotDist e w i 3 = 0 ∧ Transforms.rotDist e w i 0 ^ 2 + Transforms.rotDist e w i 1 ^ 2 + Transforms.rotDist e w i 2 ^ 2 ≤ 1 := by
  have h1 := Real.sin_sq_add_cos_sq e
  have h2 := Real.sin_sq_add_cos_sq w
  fin_cases i
  · refine ⟨rfl, ?_⟩
    simp [Transforms.rotDist]
  · refine ⟨rfl, ?_⟩
    simp only [Transforms.rotDist]
    simp
    nlinarith
  · refine ⟨rfl, ?_⟩
    simp only [Transforms.rotDist]
    simp
    nlinarith
  · exact absurd rfl hi

/-- the directions of a ray, exact and rounded -/
structure Apart (ε : ℝ) (d d' : V3 ℝ) : Prop where
  e : |d'.e - d.e| ≤ 78 * ε
  n : |d'.n - d.n| ≤ 78 * ε
  u : |d'.u - d.u| ≤ 78 * ε

theorem direction_near (hu : 0 ≤ u) (hη : 0 ≤ η) (close : ∀ x, |rnd x - x| ≤ u * |x| + η) (small : 10000 * (u + η) ≤ 1) (P : Plan) (hP : P.Complete) (Q : Fin 3 → Plan) (hQ : ∀ i, (Q i).Complete)
    (fcos fsin : ℝ → ℝ) (d n : Fin 4 → ℝ) (hd : AtMostUnit d) (hn : AtMostUnit n) (e w : ℝ)
    (he : Faithful (u + η) fcos fsin e) (hw : Faithful (u + η) fcos fsin w) :
    Apart (u + η) (Flux.direction d n e w) (direction rnd P Q fcos fsin d n e w) := by
  obtain ⟨v3, vlen⟩ := reflect_length d n hd hn
  have vv := reflect_near hu hη close small P hP d n hd hn
  have row : ∀ (q : Plan) (i : Fin 4), q.Complete → i ≠ 3 →
      |q.eval rnd (matrix rnd fcos fsin e w i) (reflect rnd P d n) - Matrix.mulVec (Transforms.rotDist e w) (Intersect.reflect d n) i| ≤ 78 * (u + η) := by
    intro q i hq hi
    obtain ⟨r3, rl⟩ := rotDist_row e w i hi
    have m3 : matrix rnd fcos fsin e w i 3 = 0 := by
      fin_cases i
      · rfl
      · rfl
      · rfl
      · exact absurd rfl hi
    have h := row_near hu hη close small q hq (Transforms.rotDist e w i) (matrix rnd fcos fsin e w i) _ _ ⟨r3, m3⟩ rl (fun j => matrix_near hu hη close small fcos fsin e w he hw i j) vlen vv
    have ex : Matrix.mulVec (Transforms.rotDist e w) (Intersect.reflect d n) i = Transforms.rotDist e w i 0 * Intersect.reflect d n 0 + Transforms.rotDist e w i 1 * Intersect.reflect d n 1 +
        Transforms.rotDist e w i 2 * Intersect.reflect d n 2 + Transforms.rotDist e w i 3 * Intersect.reflect d n 3 := by
      simp [Matrix.mulVec, dotProduct, Fin.sum_univ_four]
    rw [ex]
    exact h
  exact ⟨row _ 0 (hQ 0) (by decide), row _ 1 (hQ 1) (by decide), row _ 2 (hQ 2) (by decide)⟩

/-- the components of a scattered direction -/
theorem direction_within (d n : Fin 4 → ℝ) (hd : AtMostUnit d) (hn : AtMostUnit n) (e w : ℝ) : Within (104 / 100) (Flux.direction d n e w) := by
  obtain ⟨v3, vlen⟩ := reflect_length d n hd hn
  have row : ∀ i : Fin 4, i ≠ 3 → |Matrix.mulVec (Transforms.rotDist e w) (Intersect.reflect d n) i| ≤ 104 / 100 := by
    intro i hi
    obtain ⟨r3, rl⟩ := rotDist_row e w i hi
    have c := cauchy_abs (by norm_num : (0 : ℝ) ≤ 1) (by norm_num : (0 : ℝ) ≤ 104 / 100) (rl.trans (by norm_num)) vlen
    have ex : Matrix.mulVec (Transforms.rotDist e w) (Intersect.reflect d n) i = Transforms.rotDist e w i 0 * Intersect.reflect d n 0 + Transforms.rotDist e w i 1 * Intersect.reflect d n 1 +
        Transforms.rotDist e w i 2 * Intersect.reflect d n 2 := by
      simp [Matrix.mulVec, dotProduct, Fin.sum_univ_four, v3]
    rw [ex]
    refine (abs_add_le _ _).trans ((add_le_add (abs_add_le _ _) le_rfl).trans ?_)
    linarith
  exact ⟨row 0 (by decide), row 1 (by decide), row 2 (by decide)⟩

/-- the cosines of two directions -/
theorem cosine_near {ε : ℝ} (hε : 0 ≤ ε) {d d' n : V3 ℝ} (h : Apart ε d d') (hn : V3.normSq n ≤ 101 / 100) : |V3.dot d' n - V3.dot d n| ≤ 136 * ε := by
  have e : V3.dot d' n - V3.dot d n = (d'.e - d.e) * n.e + (d'.n - d.n) * n.n + (d'.u - d.u) * n.u := by
    unfold V3.dot; ring
  have l : |n.e| + |n.n| + |n.u| ≤ 1742 / 1000 := by
    have hn' : n.e ^ 2 + n.n ^ 2 + n.u ^ 2 ≤ (1005 / 1000) ^ 2 := by
      unfold V3.normSq V3.dot at hn
      nlinarith
    have := cauchy_abs (x' := 1) (y' := 1) (z' := 1) (by norm_num : (0 : ℝ) ≤ 1005 / 1000) (by norm_num : (0 : ℝ) ≤ 17325 / 10000) hn' (by norm_num)
    simp only [mul_one] at this
    linarith
  have a := mul_le_mul_of_nonneg_right h.e (abs_nonneg n.e)
  have b := mul_le_mul_of_nonneg_right h.n (abs_nonneg n.n)
  have c := mul_le_mul_of_nonneg_right h.u (abs_nonneg n.u)
  rw [← abs_mul] at a b c
  rw [e]
  have := abs_add_le ((d'.e - d.e) * n.e + (d'.n - d.n) * n.n) ((d'.u - d.u) * n.u)
  have := abs_add_le ((d'.e - d.e) * n.e) ((d'.n - d.n) * n.n)
  have := mul_le_mul_of_nonneg_left l hε
  linarith

/-- the rounded direction meets the plane near where the exact one does -/
theorem meets_near {ε R κ t : ℝ} (hε : 0 ≤ ε) {origin d d' : V3 ℝ} {p : Plane ℝ} (m : Arriving ε R κ origin d p t) (hd : Within (104 / 100) d) (h : Apart ε d d') :
    ∃ t', Meeting ε R (49 / 50 * κ) origin d' p t' ∧ |t' - t| ≤ 125 * (ε * (R / κ)) ∧ |t' * d'.e - t * d.e| ≤ 203 * (ε * (R / κ)) ∧ |t' * d'.u - t * d.u| ≤ 203 * (ε * (R / κ)) := by
  obtain ⟨k0, k1, kc⟩ := m.cosine
  have R1 := m.size
  have c := abs_le.1 (cosine_near hε h m.normal_unit)
  have cn := cosine_near hε h m.normal_unit
  have sm := m.small
  set a := V3.dot d p.normal with ha
  set a' := V3.dot d' p.normal with ha'
  have a'n : a' ≤ -(49 / 50 * κ) := by linarith [c.2]
  have a'0 : a' < 0 := by linarith
  set t' := t * a / a' with ht'
  have tt : (t' - t) * a' = t * (a - a') := by
    rw [ht', sub_mul, div_mul_cancel₀ _ a'0.ne]
    ring
  have X0 : 0 ≤ ε * (R / κ) := by positivity
  have near := m.near
  have d1 : |t' - t| ≤ 125 * (ε * (R / κ)) := by
    have e1 : |t' - t| * |a'| ≤ (9 / 10 * R) * (136 * ε) := by
      rw [← abs_mul, tt, abs_mul, abs_sub_comm a a']
      exact mul_le_mul near cn (abs_nonneg _) (by linarith)
    have e2 : 49 / 50 * κ ≤ |a'| := by
      rw [abs_of_neg a'0]; linarith
    have e3 : |t' - t| * (49 / 50 * κ) ≤ (9 / 10 * R) * (136 * ε) := (mul_le_mul_of_nonneg_left e2 (abs_nonneg _)).trans e1
    have e4 : 125 * (ε * (R / κ)) * (49 / 50 * κ) = 1225 / 10 * (ε * R) := by field_simp; ring
    have e5 : 0 ≤ ε * R := by positivity
    refine le_of_mul_le_mul_right (e3.trans ?_) (by linarith : 0 < 49 / 50 * κ)
    rw [e4]
    linarith
  have X1 : ε * (R / κ) ≤ R / 10000 := by
    rw [mul_div_assoc', div_le_iff₀ k0]
    have := mul_le_mul_of_nonneg_right sm (by linarith : 0 ≤ R)
    linarith
  have t1 : |t'| ≤ 92 / 100 * R := by
    have := abs_sub_abs_le_abs_sub t' t
    linarith
  have Rk : ε * R ≤ ε * (R / κ) := by
    refine mul_le_mul_of_nonneg_left ?_ hε
    rw [le_div_iff₀ k0]
    exact mul_le_of_le_one_right (by linarith) k1
  have move : ∀ x x' : ℝ, |x| ≤ 104 / 100 → |x' - x| ≤ 78 * ε → |t' * x' - t * x| ≤ 203 * (ε * (R / κ)) := by
    intro x x' hx hx'
    rw [show t' * x' - t * x = t' * (x' - x) + (t' - t) * x by ring]
    have b1 : |t' * (x' - x)| ≤ 92 / 100 * R * (78 * ε) := by
      rw [abs_mul]
      exact mul_le_mul t1 hx' (abs_nonneg _) (by linarith)
    have b2 : |(t' - t) * x| ≤ 125 * (ε * (R / κ)) * (104 / 100) := by
      rw [abs_mul]
      exact mul_le_mul d1 hx (abs_nonneg _) (by linarith)
    refine (abs_add_le _ _).trans ?_
    linarith
  have small : 10000 * ε ≤ 1 := sm.trans k1
  have wi : ∀ x x' : ℝ, |x| ≤ 104 / 100 → |x' - x| ≤ 78 * ε → |x'| ≤ 11 / 10 := fun x x' hx hx' => by
    have := abs_sub_abs_le_abs_sub x' x
    linarith
  have nw : Within (11 / 10) p.normal := by
    have hn := m.normal_unit
    unfold V3.normSq V3.dot at hn
    have := comp_le (x := p.normal.e) (y := p.normal.n) (z := p.normal.u) (by norm_num : (0 : ℝ) ≤ 11 / 10) (by nlinarith)
    exact this
  refine ⟨t', ⟨R1, m.origin_within, m.center_within, ⟨wi _ _ hd.1 h.e, wi _ _ hd.2.1 h.n, wi _ _ hd.2.2 h.u⟩, nw, m.width, m.height, ⟨by linarith, by linarith, a'n⟩, by linarith, ?_, by linarith⟩, d1,
    move _ _ hd.1 h.e, move _ _ hd.2.2 h.u⟩
  have me := m.meets
  have ex : ∀ (s : ℝ) (x : V3 ℝ), V3.dot (origin + s • x - p.center) p.normal = V3.dot (origin - p.center) p.normal + s * V3.dot x p.normal := by
    intro s x
    simp [V3.dot]
    ring
  rw [ex] at me ⊢
  rw [← ha', ht', div_mul_cancel₀ _ a'0.ne, ha]
  exact me

end
end Artist.RoundedRay
