import Verif.Spec.RoundedLanding
import Mathlib.Tactic.Linarith
import Mathlib.Tactic.Positivity
import Mathlib.Tactic.FieldSimp
/-! Helper lemmas for C126. -/
namespace Artist.RoundedLanding
open Artist Intersect Rounded

section
variable {rnd : ℝ → ℝ} {u η : ℝ} (hu : 0 ≤ u) (hη : 0 ≤ η) (close : ∀ x, |rnd x - x| ≤ u * |x| + η)
include hu hη close

theorem near_abs {x y e b : ℝ} (h : |x - y| ≤ e) (hy : |y| ≤ b) : |x| ≤ b + e := by
  have := abs_sub_abs_le_abs_sub x y
  linarith

/-- one rounding of a number that is near another one -/
theorem round_near {R x y e k : ℝ} (hR : 1 ≤ R) (hk : 0 ≤ k) (h : |x - y| ≤ e) (hx : |x| ≤ k * R) : |rnd x - y| ≤ e + (1 + k) * (R * (u + η)) := by
  have h1 := close x
  have h2 : |rnd x - y| ≤ |rnd x - x| + |x - y| := abs_sub_le _ _ _
  have h3 : u * |x| ≤ u * (k * R) := mul_le_mul_of_nonneg_left hx hu
  have h4 : η ≤ η * R := le_mul_of_one_le_right hη hR
  have h5 : 0 ≤ u * R := mul_nonneg hu (by linarith)
  have h6 : 0 ≤ k * (η * R) := mul_nonneg hk (mul_nonneg hη (by linarith))
  nlinarith

theorem sum3_near {R : ℝ} (hR : 1 ≤ R) (o : Order) {x y z x' y' z' e k : ℝ} (hk : 0 ≤ k) (he : 0 ≤ e) (ek : e ≤ R / 100)
    (hx : |x - x'| ≤ e) (hy : |y - y'| ≤ e) (hz : |z - z'| ≤ e) (bx : |x'| ≤ k * R) (bY : |y'| ≤ k * R) (bz : |z'| ≤ k * R) (s : (3 + 2 * k) * (R * (u + η)) ≤ R / 100) :
    |sum3 rnd o x y z - (x' + y' + z')| ≤ 3 * e + (3 + 5 * k) * (R * (u + η)) := by
  have X0 : 0 ≤ R * (u + η) := mul_nonneg (by linarith) (by linarith)
  have key : ∀ a b c a' b' c' : ℝ, |a - a'| ≤ e → |b - b'| ≤ e → |c - c'| ≤ e → |a'| ≤ k * R → |b'| ≤ k * R → |c'| ≤ k * R →
      |rnd (rnd (a + b) + c) - (a' + b' + c')| ≤ 3 * e + (3 + 5 * k) * (R * (u + η)) := by
    intro a b c a' b' c' ha hb hc ba bb bc
    have r0 : |a + b - (a' + b')| ≤ 2 * e := by
      have : a + b - (a' + b') = (a - a') + (b - b') := by ring
      rw [this]; exact (abs_add_le _ _).trans (by linarith)
    have r1 : |a' + b'| ≤ 2 * k * R := (abs_add_le _ _).trans (by linarith)
    have r2 : |a + b| ≤ (2 * k + 2 / 100) * R := (near_abs hu hη close r0 r1).trans (by linarith)
    have r3 := round_near hu hη close hR (by linarith) r0 r2
    have r4 : |rnd (a + b) + c - (a' + b' + c')| ≤ 3 * e + (1 + (2 * k + 2 / 100)) * (R * (u + η)) := by
      have : rnd (a + b) + c - (a' + b' + c') = (rnd (a + b) - (a' + b')) + (c - c') := by ring
      rw [this]; exact (abs_add_le _ _).trans (by linarith)
    have r5 : |a' + b' + c'| ≤ 3 * k * R := (abs_add_le _ _).trans (by linarith)
    have r6 : |rnd (a + b) + c| ≤ (3 * k + 4 / 100) * R := (near_abs hu hη close r4 r5).trans (by nlinarith)
    have r7 := round_near hu hη close hR (by linarith) r4 r6
    nlinarith
  cases o with
  | first => exact key x y z x' y' z' hx hy hz bx bY bz
  | last =>
    have := key y z x y' z' x' hy hz hx bY bz bx
    rw [show y' + z' + x' = x' + y' + z' by ring, show rnd (y + z) + x = x + rnd (y + z) by ring] at this
    exact this
  | outer =>
    have := key x z y x' z' y' hx hz hy bx bz bY
    rw [show x' + z' + y' = x' + y' + z' by ring] at this
    exact this

/-- a product with a number of at most 11 / 10 -/
theorem mul_near {R x x' d e k : ℝ} (hR : 1 ≤ R) (hk : 0 ≤ k) (he : 0 ≤ e) (h : |x - x'| ≤ e) (hx : |x'| ≤ k * R) (ek : e ≤ R / 10) (hd : |d| ≤ 11 / 10) :
    |rnd (x * d) - x' * d| ≤ 11 / 10 * e + (1 + 11 / 10 * (k + 1 / 10)) * (R * (u + η)) := by
  have e1 : |x * d - x' * d| ≤ 11 / 10 * e := by
    rw [← sub_mul, abs_mul, mul_comm]
    exact mul_le_mul hd h (abs_nonneg _) (by norm_num)
  have e2 : |x * d| ≤ 11 / 10 * (k + 1 / 10) * R := by
    rw [abs_mul, mul_comm]
    have := near_abs hu hη close h hx
    calc |d| * |x| ≤ 11 / 10 * ((k + 1 / 10) * R) := mul_le_mul hd (by linarith) (abs_nonneg _) (by norm_num)
      _ = _ := by ring
  exact round_near hu hη close hR (by positivity) e1 e2

theorem angle_near {dir : V3 ℝ} {p : Plane ℝ} (hs : 1000 * (u + η) ≤ 1) (hdir : Within (11 / 10) dir) (hnormal : Within (11 / 10) p.normal) (o : Order) : |angle rnd o dir p - V3.dot dir p.normal| ≤ 17 * (u + η) := by
  have one : ∀ a b : ℝ, |a| ≤ 11 / 10 → |b| ≤ 11 / 10 → |rnd (a * b) - a * b| ≤ 24 / 10 * (1 * (u + η)) ∧ |a * b| ≤ 13 / 10 * 1 := by
    intro a b ha hb
    have h : |a * b| ≤ 121 / 100 := by
      rw [abs_mul]
      calc |a| * |b| ≤ 11 / 10 * (11 / 10) := mul_le_mul ha hb (abs_nonneg _) (by norm_num)
        _ = _ := by norm_num
    refine ⟨?_, by linarith⟩
    have := round_near hu hη close (le_refl 1) (k := 121 / 100) (by norm_num) (x := a * b) (y := a * b) (e := 0) (by simp) (by linarith)
    nlinarith
  obtain ⟨d1, d2, d3⟩ := hdir
  obtain ⟨n1, n2, n3⟩ := hnormal
  have h := sum3_near hu hη close (le_refl 1) o (k := 13 / 10) (e := 24 / 10 * (1 * (u + η))) (by norm_num) (by linarith) (by linarith) (one _ _ d1 n1).1 (one _ _ d2 n2).1 (one _ _ d3 n3).1
    (one _ _ d1 n1).2 (one _ _ d2 n2).2 (one _ _ d3 n3).2 (by linarith)
  unfold angle dot3
  have e : V3.dot dir p.normal = dir.e * p.normal.e + dir.n * p.normal.n + dir.u * p.normal.u := rfl
  rw [e]
  refine h.trans ?_
  linarith

variable {R κ t : ℝ} {origin dir : V3 ℝ} {p : Plane ℝ} (m : Meeting (u + η) R κ origin dir p t)
include m

theorem small_facts : 0 ≤ R * (u + η) ∧ R * (u + η) ≤ R * (u + η) / κ ∧ R * (u + η) / κ ≤ R / 1000 := by
  have R0 : 0 < R := by linarith [m.size]
  have k0 := m.cosine.1
  refine ⟨mul_nonneg R0.le (by linarith), ?_, ?_⟩
  · rw [le_div_iff₀ k0]
    exact mul_le_of_le_one_right (mul_nonneg R0.le (by linarith)) m.cosine.2.1
  · rw [div_le_iff₀ k0]
    have := m.small
    nlinarith

theorem numerator_near (o : Order) : |numerator rnd o origin p - V3.dot (p.center - origin) p.normal| ≤ 35 * (R * (u + η)) := by
  obtain ⟨X0, X1, X2⟩ := small_facts hu hη close m
  have R1 := m.size
  have one : ∀ c o b : ℝ, |c| ≤ R → |o| ≤ R → |b| ≤ 11 / 10 → |rnd (rnd (c - o) * b) - (c - o) * b| ≤ 67 / 10 * (R * (u + η)) ∧ |(c - o) * b| ≤ 22 / 10 * R := by
    intro c o b hc ho hb
    have h : |c - o| ≤ 2 * R := (abs_sub c o).trans (by linarith)
    have h1 := round_near hu hη close R1 (k := 2) (by norm_num) (x := c - o) (y := c - o) (e := 0) (by simp) h
    refine ⟨?_, ?_⟩
    · have := mul_near hu hη close R1 (k := 2) (by norm_num) (e := 3 * (R * (u + η))) (by linarith) (h1.trans (by linarith)) h (by linarith) hb
      linarith
    · rw [abs_mul]
      calc |c - o| * |b| ≤ 2 * R * (11 / 10) := mul_le_mul h hb (abs_nonneg _) (by linarith)
        _ = _ := by ring
  obtain ⟨c1, c2, c3⟩ := m.center_within
  obtain ⟨o1, o2, o3⟩ := m.origin_within
  obtain ⟨n1, n2, n3⟩ := m.normal_within
  have h := sum3_near hu hη close R1 o (k := 22 / 10) (e := 67 / 10 * (R * (u + η))) (by norm_num) (by linarith) (by linarith) (one _ _ _ c1 o1 n1).1 (one _ _ _ c2 o2 n2).1 (one _ _ _ c3 o3 n3).1
    (one _ _ _ c1 o1 n1).2 (one _ _ _ c2 o2 n2).2 (one _ _ _ c3 o3 n3).2 (by linarith)
  unfold numerator dot3
  have e : V3.dot (p.center - origin) p.normal = (p.center.e - origin.e) * p.normal.e + (p.center.n - origin.n) * p.normal.n + (p.center.u - origin.u) * p.normal.u := rfl
  rw [e]
  refine h.trans ?_
  linarith

theorem angle_neg (o : Order) : angle rnd o dir p < 0 ∧ |angle rnd o dir p| ≥ 98 / 100 * κ := by
  have h := angle_near hu hη close (m.small.trans m.cosine.2.1) m.dir_within m.normal_within o
  have hs := m.small
  have hc := m.cosine
  obtain ⟨h1, h2⟩ := abs_le.1 h
  have a : angle rnd o dir p ≤ -(98 / 100 * κ) := by linarith
  refine ⟨by linarith, ?_⟩
  rw [abs_of_neg (by linarith)]
  linarith

theorem distance_near (o₁ o₂ : Order) : |distance rnd o₁ o₂ origin dir p - t| ≤ 56 * (R * (u + η) / κ) := by
  obtain ⟨X0, X1, X2⟩ := small_facts hu hη close m
  have ha := angle_near hu hη close (m.small.trans m.cosine.2.1) m.dir_within m.normal_within o₁
  have hn := numerator_near hu hη close m o₂
  obtain ⟨neg, big⟩ := angle_neg hu hη close m o₁
  have k0 := m.cosine.1
  have R1 := m.size
  have exact : V3.dot (p.center - origin) p.normal = t * V3.dot dir p.normal := by
    have := m.meets
    simp only [V3.dot, V3.sub_e, V3.sub_n, V3.sub_u, V3.add_e, V3.add_n, V3.add_u, V3.smul_e, V3.smul_n, V3.smul_u] at this ⊢
    linarith
  rw [exact] at hn
  unfold distance
  rw [if_pos neg]
  generalize angle rnd o₁ dir p = a at *
  generalize numerator rnd o₂ origin p = n at *
  generalize V3.dot dir p.normal = a' at *
  have q : |n / a - t| ≤ 535 / 10 * (R * (u + η) / κ) := by
    have e : n / a - t = (n - t * a) / a := by rw [sub_div, mul_div_assoc, div_self neg.ne, mul_one]
    rw [e, abs_div, div_le_iff₀ (by linarith)]
    have h1 : |n - t * a| ≤ 52 * (R * (u + η)) := by
      have e : n - t * a = (n - t * a') + t * (a' - a) := by ring
      rw [e]
      refine (abs_add_le _ _).trans ?_
      rw [abs_mul, abs_sub_comm a' a]
      have := mul_le_mul m.near ha (abs_nonneg _) (by linarith)
      linarith
    have h2 : 535 / 10 * (R * (u + η) / κ) * (98 / 100 * κ) ≤ 535 / 10 * (R * (u + η) / κ) * |a| := mul_le_mul_of_nonneg_left big (by positivity)
    have h3 : 535 / 10 * (R * (u + η) / κ) * (98 / 100 * κ) = 535 / 10 * 98 / 100 * (R * (u + η)) := by field_simp
    linarith
  have b : |n / a| ≤ 106 / 100 * R := (near_abs hu hη close q m.near).trans (by linarith)
  have := round_near hu hη close R1 (by norm_num) q b
  linarith

theorem round_close {x y e k q : ℝ} (h : |x - y| ≤ e) (hy : |y| ≤ k * R) (hk : 0 ≤ k) (he : e ≤ q * (R * (u + η) / κ)) (hq : q ≤ 100) :
    |rnd x - y| ≤ (q + k + 11 / 10) * (R * (u + η) / κ) := by
  obtain ⟨X0, X1, X2⟩ := small_facts hu hη close m
  have Y0 := X0.trans X1
  have b : |x| ≤ (k + 1 / 10) * R := by
    have := near_abs hu hη close h hy
    nlinarith
  have := round_near hu hη close m.size (by linarith) h b
  nlinarith

/-- one coordinate on the target in metres -/
theorem metre_near {s o d c size : ℝ} (hs : |s - t| ≤ 56 * (R * (u + η) / κ)) (ho : |o| ≤ R) (hd : |d| ≤ 11 / 10) (hc : |c| ≤ R) (h0 : 0 < size) (h1 : size ≤ R) :
    |rnd (rnd (rnd (o + rnd (d * s)) + rnd (size / 2)) - c) - (o + t * d + size / 2 - c)| ≤ 80 * (R * (u + η) / κ) ∧ |o + t * d + size / 2 - c| ≤ 36 / 10 * R := by
  obtain ⟨X0, X1, X2⟩ := small_facts hu hη close m
  have Y0 := X0.trans X1
  have R1 := m.size
  have td : |t * d| ≤ 11 / 10 * R := by
    rw [abs_mul]
    calc |t| * |d| ≤ R * (11 / 10) := mul_le_mul m.near hd (abs_nonneg _) (by linarith)
      _ = _ := by ring
  have p1 : |d * s - t * d| ≤ 62 * (R * (u + η) / κ) := by
    have e : d * s - t * d = (s - t) * d := by ring
    rw [e, abs_mul]
    calc |s - t| * |d| ≤ 56 * (R * (u + η) / κ) * (11 / 10) := mul_le_mul hs hd (abs_nonneg _) (by positivity)
      _ ≤ _ := by linarith
  have p2 := round_close hu hη close m p1 td (by norm_num) le_rfl (by norm_num)
  have p3 : |o + rnd (d * s) - (o + t * d)| ≤ (62 + 11 / 10 + 11 / 10) * (R * (u + η) / κ) := by
    rw [show o + rnd (d * s) - (o + t * d) = rnd (d * s) - t * d by ring]; exact p2
  have p4 : |o + t * d| ≤ 21 / 10 * R := (abs_add_le _ _).trans (by linarith)
  have p5 := round_close hu hη close m p3 p4 (by norm_num) le_rfl (by norm_num)
  have z0 : |size / 2| ≤ 1 / 2 * R := by rw [abs_of_pos (by linarith)]; linarith
  have z1 := round_close hu hη close m (x := size / 2) (y := size / 2) (e := 0) (q := 0) (by simp) z0 (by norm_num) (by simp) (by norm_num)
  have p6 : |rnd (o + rnd (d * s)) + rnd (size / 2) - (o + t * d + size / 2)| ≤ 70 * (R * (u + η) / κ) := by
    rw [show rnd (o + rnd (d * s)) + rnd (size / 2) - (o + t * d + size / 2) = (rnd (o + rnd (d * s)) - (o + t * d)) + (rnd (size / 2) - size / 2) by ring]
    refine (abs_add_le _ _).trans ?_
    linarith
  have p7 : |o + t * d + size / 2| ≤ 26 / 10 * R := (abs_add_le _ _).trans (by linarith)
  have p8 := round_close hu hη close m p6 p7 (by norm_num) le_rfl (by norm_num)
  have p9 : |rnd (rnd (o + rnd (d * s)) + rnd (size / 2)) - c - (o + t * d + size / 2 - c)| ≤ (70 + 26 / 10 + 11 / 10) * (R * (u + η) / κ) := by
    rw [show rnd (rnd (o + rnd (d * s)) + rnd (size / 2)) - c - (o + t * d + size / 2 - c) = rnd (rnd (o + rnd (d * s)) + rnd (size / 2)) - (o + t * d + size / 2) by ring]
    exact p8
  have p10 : |o + t * d + size / 2 - c| ≤ 36 / 10 * R := (abs_sub _ _).trans (by linarith)
  have p11 := round_close hu hη close m p9 p10 (by norm_num) le_rfl (by norm_num)
  exact ⟨by linarith, p10⟩

/-- one coordinate in pixels -/
theorem bitmap_near {s o d c size n : ℝ} (hs : |s - t| ≤ 56 * (R * (u + η) / κ)) (ho : |o| ≤ R) (hd : |d| ≤ 11 / 10) (hc : |c| ≤ R) (h0 : 0 < size) (h1 : size ≤ R) (hn : 1 ≤ n) :
    |bitmap rnd s o d c size n - (o + t * d + size / 2 - c) / size * n| ≤ 92 * (R * (u + η) / κ) * (n / size) := by
  obtain ⟨X0, X1, X2⟩ := small_facts hu hη close m
  have Y0 := X0.trans X1
  have R1 := m.size
  obtain ⟨a, b⟩ := metre_near hu hη close m hs ho hd hc h0 h1
  unfold bitmap
  generalize rnd (rnd (rnd (o + rnd (d * s)) + rnd (size / 2)) - c) = x at *
  generalize o + t * d + size / 2 - c = y at *
  set Y := R * (u + η) / κ with hY
  have inv : 0 < 1 / size := by positivity
  have ge : 1 ≤ R * (1 / size) := by rw [mul_one_div, le_div_iff₀ h0]; linarith
  -- the quotient
  have q1 : |x / size - y / size| ≤ 80 * Y * (1 / size) := by
    rw [← sub_div, abs_div, abs_of_pos h0, div_eq_mul_one_div]
    exact mul_le_mul_of_nonneg_right a inv.le
  have q2 : |x / size| ≤ 37 / 10 * R * (1 / size) := by
    rw [abs_div, abs_of_pos h0, div_eq_mul_one_div]
    refine mul_le_mul_of_nonneg_right ?_ inv.le
    have := near_abs hu hη close a b
    linarith
  have bound : ∀ z f : ℝ, 1 ≤ R * f → |z| ≤ 38 / 10 * R * f → |rnd z - z| ≤ 38 / 10 * Y * f := by
    intro z f hf hz
    have c1 := close z
    have c2 := mul_le_mul_of_nonneg_left hz hu
    have c3 : η ≤ η * (38 / 10 * (R * f)) := le_mul_of_one_le_right hη (by linarith)
    have f0 : 0 ≤ f := by
      by_contra hneg
      push Not at hneg
      have : R * f ≤ 0 := mul_nonpos_of_nonneg_of_nonpos (by linarith) hneg.le
      linarith
    have c4 : 38 / 10 * (R * (u + η)) * f ≤ 38 / 10 * Y * f := mul_le_mul_of_nonneg_right (by linarith) f0
    nlinarith
  have q3 := bound (x / size) (1 / size) ge (q2.trans (mul_le_mul_of_nonneg_right (by linarith) inv.le))
  have q4 : |rnd (x / size) - y / size| ≤ 84 * Y * (1 / size) := by
    refine (abs_sub_le _ (x / size) _).trans ?_
    have : 0 ≤ Y * (1 / size) := mul_nonneg Y0 inv.le
    linarith
  have n0 : 0 < n := by linarith
  have q5 : |rnd (x / size) * n - y / size * n| ≤ 84 * Y * (n / size) := by
    rw [← sub_mul, abs_mul, abs_of_pos n0]
    have := mul_le_mul_of_nonneg_right q4 n0.le
    refine this.trans (le_of_eq ?_)
    ring
  have y2 : |y / size * n| ≤ 36 / 10 * R * (n / size) := by
    rw [abs_mul, abs_div, abs_of_pos h0, abs_of_pos n0]
    have := mul_le_mul_of_nonneg_right b (by positivity : 0 ≤ n / size)
    refine le_trans (le_of_eq ?_) this
    ring
  have f0 : 0 < n / size := by positivity
  have q6 : |rnd (x / size) * n| ≤ 38 / 10 * R * (n / size) := by
    have h := near_abs hu hη close q5 y2
    have : 84 * Y * (n / size) ≤ 84 * (R / 1000) * (n / size) := mul_le_mul_of_nonneg_right (by linarith) f0.le
    nlinarith
  have ge' : 1 ≤ R * (n / size) := by
    have : R * (n / size) = R * (1 / size) * n := by ring
    rw [this]
    exact one_le_mul_of_one_le_of_one_le ge hn
  have q7 := bound _ _ ge' q6
  refine (abs_sub_le _ (rnd (x / size) * n) _).trans ?_
  have : 0 ≤ Y * (n / size) := mul_nonneg Y0 f0.le
  linarith

theorem shift_ge {size : ℝ} (h0 : 0 < size) (h1 : size ≤ R) {n : Nat} (hn : 2 ≤ n) :
    92 * (R * (u + η) / κ) * (((n : ℝ) - 1) / size) + 2 * (u + η) * ((n : ℝ) - 1) ≤ shift (u + η) R κ size n := by
  have k0 := m.cosine.1
  have n1 : (1 : ℝ) ≤ (n : ℝ) - 1 := by
    have : (2 : ℝ) ≤ n := by exact_mod_cast hn
    linarith
  have a : 1 ≤ R / κ / size := by
    rw [le_div_iff₀ h0, le_div_iff₀ k0]
    nlinarith [m.cosine.2.1]
  unfold shift
  have e0 : 0 ≤ (u + η) * ((n : ℝ) - 1) := mul_nonneg (by linarith) (by linarith)
  have b := mul_le_mul_of_nonneg_left a e0
  have r1 : 92 * (R * (u + η) / κ) * (((n : ℝ) - 1) / size) = 92 * ((u + η) * ((n : ℝ) - 1) * (R / κ / size)) := by ring
  have r2 : 100 * (u + η) * (R / κ) * (((n : ℝ) - 1) / size) = 100 * ((u + η) * ((n : ℝ) - 1) * (R / κ / size)) := by ring
  rw [r1, r2]
  linarith

/-- columns and rows are near the true ones -/
theorem column_near (o₁ o₂ : Order) {W : Nat} (hW : 2 ≤ W) :
    |bitmap rnd (distance rnd o₁ o₂ origin dir p) origin.e dir.e p.center.e p.width ((W : ℝ) - 1) - column W origin dir p t| + 2 * (u + η) * ((W : ℝ) - 1) ≤ shift (u + η) R κ p.width W := by
  have n1 : (1 : ℝ) ≤ (W : ℝ) - 1 := by
    have : (2 : ℝ) ≤ W := by exact_mod_cast hW
    linarith
  have h := bitmap_near hu hη close m (distance_near hu hη close m o₁ o₂) m.origin_within.1 m.dir_within.1 m.center_within.1 m.width.1 m.width.2 n1
  have g := shift_ge hu hη close m m.width.1 m.width.2 hW
  have e : column W origin dir p t = (origin.e + t * dir.e + p.width / 2 - p.center.e) / p.width * ((W : ℝ) - 1) := by
    simp only [column, V3.add_e, V3.smul_e]
  rw [e]
  linarith

theorem row_near (o₁ o₂ : Order) {H : Nat} (hH : 2 ≤ H) :
    |bitmap rnd (distance rnd o₁ o₂ origin dir p) origin.u dir.u p.center.u p.height ((H : ℝ) - 1) - row H origin dir p t| + 2 * (u + η) * ((H : ℝ) - 1) ≤ shift (u + η) R κ p.height H := by
  have n1 : (1 : ℝ) ≤ (H : ℝ) - 1 := by
    have : (2 : ℝ) ≤ H := by exact_mod_cast hH
    linarith
  have h := bitmap_near hu hη close m (distance_near hu hη close m o₁ o₂) m.origin_within.2.2 m.dir_within.2.2 m.center_within.2.2 m.height.1 m.height.2 n1
  have g := shift_ge hu hη close m m.height.1 m.height.2 hH
  have e : row H origin dir p t = (origin.u + t * dir.u + p.height / 2 - p.center.u) / p.height * ((H : ℝ) - 1) := by
    simp only [row, V3.add_u, V3.smul_u]
  rw [e]
  linarith

end

/-- the exact model at a meeting point -/
theorem exact_meeting {ε R κ t : ℝ} {origin dir : V3 ℝ} {p : Plane ℝ} (m : Meeting ε R κ origin dir p t) : Intersect.planeDistance origin dir p = t := by
  have neg : V3.dot dir p.normal < 0 := by linarith [m.cosine.1, m.cosine.2.2]
  unfold Intersect.planeDistance planeAngle
  simp only [neg, decide_true, if_true]
  rw [div_eq_iff neg.ne]
  have := m.meets
  simp only [V3.dot, V3.sub_e, V3.sub_n, V3.sub_u, V3.add_e, V3.add_n, V3.add_u, V3.smul_e, V3.smul_n, V3.smul_u] at this ⊢
  linarith

theorem tent_lipschitz (x y : ℝ) : |Splat.tent x - Splat.tent y| ≤ |x - y| := by
  unfold Splat.tent
  have h := abs_max_sub_max_le_max 0 (1 - |x|) 0 (1 - |y|)
  refine h.trans ?_
  rw [sub_self, abs_zero]
  refine max_le (abs_nonneg _) ?_
  rw [show 1 - |x| - (1 - |y|) = |y| - |x| by ring, abs_sub_comm x y]
  exact abs_abs_sub_abs_le_abs_sub y x

theorem tent_le (z : ℝ) : Splat.tent z ≤ 1 := by
  unfold Splat.tent
  exact max_le (by norm_num) (by linarith [abs_nonneg z])

/-- parts of near rays are near -/
theorem part_near (W H r c : Nat) (h h' : Splat.Hit ℝ) (i : Splat.Inside W H h) (i' : Splat.Inside W H h') (hw : 0 ≤ h'.w) (b : h'.w ≤ 4) :
    |part W H r c h - part W H r c h'| ≤ |h.w - h'.w| + 4 * (|h.e - h'.e| + |h.u - h'.u|) := by
  unfold part
  rw [if_pos i, if_pos i']
  have t1 := tent_lipschitz (h.e - c) (h'.e - c)
  have t2 := tent_lipschitz (h.u - r) (h'.u - r)
  rw [show h.e - c - (h'.e - c) = h.e - h'.e by ring] at t1
  rw [show h.u - r - (h'.u - r) = h.u - h'.u by ring] at t2
  have a0 : 0 ≤ Splat.tent (h.e - (c : ℝ)) := le_max_left _ _
  have a1 := tent_le (h.e - (c : ℝ))
  have b0 : 0 ≤ Splat.tent (h.u - (r : ℝ)) := le_max_left _ _
  have b1 := tent_le (h.u - (r : ℝ))
  have c0 : 0 ≤ Splat.tent (h'.u - (r : ℝ)) := le_max_left _ _
  have c1 := tent_le (h'.u - (r : ℝ))
  generalize Splat.tent (h.e - (c : ℝ)) = A at *
  generalize Splat.tent (h.u - (r : ℝ)) = B at *
  generalize Splat.tent (h'.e - (c : ℝ)) = A' at *
  generalize Splat.tent (h'.u - (r : ℝ)) = B' at *
  have e : h.w * (A * B) - h'.w * (A' * B') = (h.w - h'.w) * (A * B) + h'.w * (A * (B - B') + (A - A') * B') := by ring
  rw [e]
  refine (abs_add_le _ _).trans ?_
  have AB : |A * B| ≤ 1 := by
    rw [abs_of_nonneg (mul_nonneg a0 b0)]
    exact mul_le_one₀ a1 b0 b1
  have p1 : |(h.w - h'.w) * (A * B)| ≤ |h.w - h'.w| := by
    rw [abs_mul]
    exact mul_le_of_le_one_right (abs_nonneg _) AB
  have p2 : |A * (B - B') + (A - A') * B'| ≤ |h.e - h'.e| + |h.u - h'.u| := by
    refine (abs_add_le _ _).trans ?_
    rw [abs_mul, abs_mul, abs_of_nonneg a0, abs_of_nonneg c0]
    have q1 : A * |B - B'| ≤ |B - B'| := mul_le_of_le_one_left (abs_nonneg _) a1
    have q2 : |A - A'| * B' ≤ |A - A'| := mul_le_of_le_one_right (abs_nonneg _) c1
    linarith
  have p3 : |h'.w * (A * (B - B') + (A - A') * B')| ≤ 4 * (|h.e - h'.e| + |h.u - h'.u|) := by
    rw [abs_mul, abs_of_nonneg hw]
    exact mul_le_mul b p2 (abs_nonneg _) (by norm_num)
  linarith

end Artist.RoundedLanding
