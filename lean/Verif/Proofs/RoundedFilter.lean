import Verif.Spec.RoundedFilter
import Verif.Proofs.Rounded
import Verif.Proofs.LBVHFilter
/-! Helper lemmas for C104. -/
namespace Artist.RoundedFilter
open Artist LBVH Morton Rounded

/-! ### relative errors -/

def Rel (δ x y : ℝ) : Prop := |x - y| ≤ δ * |y|

theorem Rel.trans {δ ε x y z : ℝ} (hδ : 0 ≤ δ) (h1 : Rel δ x y) (h2 : Rel ε y z) : Rel (δ + ε + δ * ε) x z := by
  unfold Rel at *
  have hy : |y| ≤ |z| + |y - z| := by
    have := abs_sub_abs_le_abs_sub y z; linarith
  have := abs_sub_le x y z
  have h3 : δ * |y| ≤ δ * (|z| + ε * |z|) := mul_le_mul_of_nonneg_left (by linarith) hδ
  nlinarith

theorem Rel.mul {δ ε x y x' y' : ℝ} (h1 : Rel δ x y) (h2 : Rel ε x' y') (hδ : 0 ≤ δ) :
    Rel (δ + ε + δ * ε) (x * x') (y * y') := by
  unfold Rel at *
  have e : x * x' - y * y' = (x - y) * (x' - y') + (x - y) * y' + y * (x' - y') := by ring
  rw [e, abs_mul]
  have t1 := abs_add_le ((x - y) * (x' - y') + (x - y) * y') (y * (x' - y'))
  have t2 := abs_add_le ((x - y) * (x' - y')) ((x - y) * y')
  rw [abs_mul] at t1 t2
  rw [abs_mul (x - y) y'] at t2
  have a1 : |x - y| * |x' - y'| ≤ (δ * |y|) * (ε * |y'|) := mul_le_mul h1 h2 (abs_nonneg _) (by positivity)
  have a2 : |x - y| * |y'| ≤ δ * |y| * |y'| := mul_le_mul_of_nonneg_right h1 (abs_nonneg _)
  have a3 : |y| * |x' - y'| ≤ |y| * (ε * |y'|) := mul_le_mul_of_nonneg_left h2 (abs_nonneg _)
  nlinarith

theorem Rel.inv {δ x y : ℝ} (h : Rel δ x y) (hδ : δ < 1) (hy : y ≠ 0) : x ≠ 0 ∧ Rel (δ / (1 - δ)) (1 / x) (1 / y) := by
  unfold Rel at *
  have hy' : 0 < |y| := abs_pos.2 hy
  have hx : (1 - δ) * |y| ≤ |x| := by
    have := abs_sub_abs_le_abs_sub y x
    rw [abs_sub_comm] at this
    linarith
  have hx' : 0 < |x| := lt_of_lt_of_le (mul_pos (by linarith) hy') hx
  have hx0 : x ≠ 0 := abs_pos.1 hx'
  refine ⟨hx0, ?_⟩
  have e : 1 / x - 1 / y = (y - x) / (x * y) := by field_simp
  rw [e, abs_div, abs_mul, abs_sub_comm, abs_div, abs_one, div_le_iff₀ (mul_pos hx' hy')]
  have h1 : (0 : ℝ) < 1 - δ := by linarith
  calc |x - y| ≤ δ * |y| := h
    _ = δ / (1 - δ) * (1 / |y|) * (((1 - δ) * |y|) * |y|) := by field_simp
    _ ≤ δ / (1 - δ) * (1 / |y|) * (|x| * |y|) := by
        have hd : 0 ≤ δ := by
          by_contra hc
          have := abs_nonneg (x - y)
          nlinarith
        exact mul_le_mul_of_nonneg_left (mul_le_mul_of_nonneg_right hx hy'.le) (by positivity)

theorem Rel.mono {δ ε x y : ℝ} (h : Rel δ x y) (hle : δ ≤ ε) : Rel ε x y :=
  le_trans h (mul_le_mul_of_nonneg_right hle (abs_nonneg _))

section
variable {rnd : ℝ → ℝ} {u η : ℝ} {M : Nat} (A : Arithmetic rnd u η M)
include A

/-- the moment at which a ray passes a plane, with rounding -/
theorem moment_bounds (hu : u ≤ 1 / 2 ^ 12) (hη : η * 10 ^ 12 ≤ u) {b o d : ℝ} (hb : rnd b = b) (ho : rnd o = o) (hd : rnd d = d)
    (hd2 : |d| ≤ 2) (hD : 1 / 10 ^ 12 ≤ |d + 1 / 10 ^ 12|) :
    |rnd (rnd (b - o) * rnd (1 / rnd (d + rnd (1 / 10 ^ 12)))) - (b - o) / (d + 1 / 10 ^ 12)| ≤ 8 * u * |(b - o) / (d + 1 / 10 ^ 12)| + η := by
  have u0 := A.u_nonneg
  have η0 := A.η_nonneg
  set D := d + 1 / 10 ^ 12 with hDdef
  set c := rnd (1 / 10 ^ 12) with hc
  have hD0 : D ≠ 0 := by
    intro h; rw [h, abs_zero] at hD; norm_num at hD
  have hηu : η ≤ u * (1 / 10 ^ 12) := by
    rw [mul_one_div, le_div_iff₀ (by norm_num)]; exact hη
  -- the shifted direction
  have r1 : Rel (2 * u) (d + c) D := by
    unfold Rel
    have e : d + c - D = c - 1 / 10 ^ 12 := by rw [hDdef]; ring
    have := A.close (1 / 10 ^ 12)
    rw [abs_of_pos (show (0 : ℝ) < 1 / 10 ^ 12 by norm_num), ← hc] at this
    rw [e]
    have h2 : 2 * u * (1 / 10 ^ 12) ≤ 2 * u * |D| := mul_le_mul_of_nonneg_left hD (by linarith)
    have : |c - 1 / 10 ^ 12| ≤ 2 * u * (1 / 10 ^ 12) := by linarith
    linarith
  have r2 : Rel u (rnd (d + c)) (d + c) := A.add d c hd (by rw [hc]; exact A.idem _)
  have r3 := Rel.trans u0 r2 r1
  have hle3 : u + 2 * u + u * (2 * u) ≤ 301 / 100 * u := by nlinarith
  have r3' := r3.mono hle3
  set d' := rnd (d + c) with hd'
  obtain ⟨hd0, r4⟩ := Rel.inv r3' (by nlinarith) hD0
  -- its inverse
  have habs : |d'| ≤ 3 := by
    have h1 : |d'| ≤ |D| + |d' - D| := by have := abs_sub_abs_le_abs_sub d' D; linarith
    have h2 : |D| ≤ 2 + 1 / 10 ^ 12 := by
      have := abs_add_le d (1 / 10 ^ 12)
      rw [abs_of_pos (show (0 : ℝ) < 1 / 10 ^ 12 by norm_num), ← hDdef] at this
      linarith
    have h3 : 301 / 100 * u * |D| ≤ 301 / 100 * (1 / 2 ^ 12) * |D| := mul_le_mul_of_nonneg_right (by linarith) (abs_nonneg _)
    unfold Rel at r3'
    norm_num at *
    linarith
  have r5 : Rel (101 / 100 * u) (rnd (1 / d')) (1 / d') := by
    unfold Rel
    have := A.close (1 / d')
    have hp : 1 / 3 ≤ |1 / d'| := by
      rw [abs_div, abs_one]
      exact one_div_le_one_div_of_le (abs_pos.2 hd0) habs
    have h2 : u * (1 / 10 ^ 12) ≤ 1 / 100 * u * |1 / d'| := by
      have : 1 / 100 * u * (1 / 3) ≤ 1 / 100 * u * |1 / d'| := mul_le_mul_of_nonneg_left hp (by linarith)
      norm_num at *
      linarith
    linarith
  have r6 := Rel.trans (by linarith) r5 r4
  have hq : 301 / 100 * u / (1 - 301 / 100 * u) ≤ 302 / 100 * u := by
    have hpos : 0 < 1 - 301 / 100 * u := by nlinarith
    rw [div_le_iff₀ hpos]
    nlinarith
  have hle6 : 101 / 100 * u + 301 / 100 * u / (1 - 301 / 100 * u) + 101 / 100 * u * (301 / 100 * u / (1 - 301 / 100 * u)) ≤ 405 / 100 * u := by
    have : 101 / 100 * u * (301 / 100 * u / (1 - 301 / 100 * u)) ≤ 101 / 100 * u * (302 / 100 * u) := mul_le_mul_of_nonneg_left hq (by linarith)
    nlinarith
  have r6' := r6.mono hle6
  -- the difference and the product
  have r7 : Rel u (rnd (b - o)) (b - o) := A.sub hb ho
  have r8 := Rel.mul r7 r6' u0
  have hle8 : u + 405 / 100 * u + u * (405 / 100 * u) ≤ 506 / 100 * u := by nlinarith
  have r8' := r8.mono hle8
  rw [mul_one_div] at r8'
  have h9 := A.close (rnd (b - o) * rnd (1 / d'))
  set t := (b - o) / D
  set p := rnd (b - o) * rnd (1 / d')
  unfold Rel at r8'
  have hpt : |p| ≤ |t| + 506 / 100 * u * |t| := by have := abs_sub_abs_le_abs_sub p t; linarith
  have h10 : u * |p| ≤ u * (|t| + 506 / 100 * u * |t|) := mul_le_mul_of_nonneg_left hpt u0
  have h11 := abs_sub_le (rnd p) p t
  have h12 : u * (506 / 100 * u * |t|) ≤ 1 / 2 ^ 12 * (506 / 100 * u * |t|) := mul_le_mul_of_nonneg_right hu (by positivity)
  have h13 : 0 ≤ u * |t| := by positivity
  norm_num at h12
  linarith

omit A in
theorem later_mono {γ η : ℝ} (h1 : γ ≤ 1) (h0 : 0 ≤ γ) : Monotone (later γ η) := by
  intro s t h
  unfold later
  have h2 := abs_sub_abs_le_abs_sub s t
  rw [abs_sub_comm, abs_of_nonneg (show 0 ≤ t - s by linarith)] at h2
  have : γ * (|s| - |t|) ≤ γ * (t - s) := mul_le_mul_of_nonneg_left h2 h0
  nlinarith

omit A in
theorem earlier_mono {γ η : ℝ} (h1 : γ ≤ 1) (h0 : 0 ≤ γ) : Monotone (earlier γ η) := by
  intro s t h
  unfold earlier
  have h2 := abs_sub_abs_le_abs_sub t s
  rw [abs_of_nonneg (show 0 ≤ t - s by linarith)] at h2
  have : γ * (|t| - |s|) ≤ γ * (t - s) := mul_le_mul_of_nonneg_left h2 h0
  nlinarith

/-- the rounded first and second moment along an axis -/
noncomputable def moment (rnd : ℝ → ℝ) (b o d : ℝ) : ℝ := rnd (rnd (b - o) * rnd (1 / rnd (d + rnd (1 / 10 ^ 12))))

theorem moment_near (hu : u ≤ 1 / 2 ^ 12) (hη : η * 10 ^ 12 ≤ u) {ray : Ray ℝ} {b : Box ℝ} (hr : FloatRay rnd ray) (hb : FloatBox rnd b) (i : Fin 3) :
    (earlier (8 * u) η (enter ray.origin (shifted ray.dir) b i) ≤ min (moment rnd (comp b.mn i) (comp ray.origin i) (comp ray.dir i)) (moment rnd (comp b.mx i) (comp ray.origin i) (comp ray.dir i)) ∧
      min (moment rnd (comp b.mn i) (comp ray.origin i) (comp ray.dir i)) (moment rnd (comp b.mx i) (comp ray.origin i) (comp ray.dir i)) ≤ later (8 * u) η (enter ray.origin (shifted ray.dir) b i)) ∧
    (earlier (8 * u) η (leave ray.origin (shifted ray.dir) b i) ≤ max (moment rnd (comp b.mn i) (comp ray.origin i) (comp ray.dir i)) (moment rnd (comp b.mx i) (comp ray.origin i) (comp ray.dir i)) ∧
      max (moment rnd (comp b.mn i) (comp ray.origin i) (comp ray.dir i)) (moment rnd (comp b.mx i) (comp ray.origin i) (comp ray.dir i)) ≤ later (8 * u) η (leave ray.origin (shifted ray.dir) b i)) := by
  have u0 := A.u_nonneg
  have hsh : comp (shifted ray.dir) i = comp ray.dir i + 1 / 10 ^ 12 := by fin_cases i <;> rfl
  have one : ∀ x, rnd x = x → earlier (8 * u) η ((x - comp ray.origin i) / comp (shifted ray.dir) i) ≤ moment rnd x (comp ray.origin i) (comp ray.dir i) ∧
      moment rnd x (comp ray.origin i) (comp ray.dir i) ≤ later (8 * u) η ((x - comp ray.origin i) / comp (shifted ray.dir) i) := by
    intro x hx
    have ha := hr.apart i
    rw [hsh] at ha ⊢
    have := abs_le.1 (moment_bounds A hu hη hx (hr.origin i) (hr.dir i) (hr.size i) ha)
    unfold earlier later moment
    constructor <;> linarith [this.1, this.2]
  obtain ⟨a1, a2⟩ := one _ (hb.1 i)
  obtain ⟨b1, b2⟩ := one _ (hb.2 i)
  have h8 : 8 * u ≤ 1 := by norm_num at hu ⊢; linarith
  have h80 : 0 ≤ 8 * u := by linarith
  unfold enter leave
  rw [(earlier_mono h8 h80).map_min, (later_mono h8 h80).map_min, (earlier_mono h8 h80).map_max, (later_mono h8 h80).map_max]
  exact ⟨⟨min_le_min a1 b1, min_le_min a2 b2⟩, ⟨max_le_max a1 b1, max_le_max a2 b2⟩⟩

omit A in
/-- the rounded test, axis by axis -/
theorem hits_iff (ray : Ray ℝ) (b : Box ℝ) : hits rnd ray b = true ↔
    (∀ i j, min (moment rnd (comp b.mn i) (comp ray.origin i) (comp ray.dir i)) (moment rnd (comp b.mx i) (comp ray.origin i) (comp ray.dir i)) ≤
      max (moment rnd (comp b.mn j) (comp ray.origin j) (comp ray.dir j)) (moment rnd (comp b.mx j) (comp ray.origin j) (comp ray.dir j))) ∧
    (∀ j, rnd (1 / 10 ^ 6) < max (moment rnd (comp b.mn j) (comp ray.origin j) (comp ray.dir j)) (moment rnd (comp b.mx j) (comp ray.origin j) (comp ray.dir j))) ∧
    ∀ i, min (moment rnd (comp b.mn i) (comp ray.origin i) (comp ray.dir i)) (moment rnd (comp b.mx i) (comp ray.origin i) (comp ray.dir i)) ≤ ray.targetDistance := by
  unfold hits rayAabb inverse V3.map₂
  simp only [Bool.and_eq_true, decide_eq_true_eq, ge_iff_le, gt_iff_lt, Fin.forall_fin_succ, Fin.forall_fin_zero_pi, IsEmpty.forall_iff, and_true,
    le_min_iff, lt_min_iff, max_le_iff]
  unfold moment
  simp only [comp, Fin.succ_zero_eq_one, Fin.succ_one_eq_two]
  tauto

omit A in
/-- with a monotone rounding a larger box is never missed -/
theorem hits_mono (hm : Monotone rnd) (ray : Ray ℝ) (a b : Box ℝ) (hp : a.Proper) (h : a.Inside b) (hh : hits rnd ray a = true) : hits rnd ray b = true := by
  rw [hits_iff] at hh ⊢
  obtain ⟨h1, h2, h3⟩ := hh
  have ord : ∀ i, comp b.mn i ≤ comp a.mn i ∧ comp a.mn i ≤ comp a.mx i ∧ comp a.mx i ≤ comp b.mx i := by
    obtain ⟨p1, p2, p3⟩ := hp
    obtain ⟨q1, q2, q3, q4, q5, q6⟩ := h
    intro i
    fin_cases i
    · exact ⟨q1, p1, q4⟩
    · exact ⟨q2, p2, q5⟩
    · exact ⟨q3, p3, q6⟩
  have key : ∀ i, min (moment rnd (comp b.mn i) (comp ray.origin i) (comp ray.dir i)) (moment rnd (comp b.mx i) (comp ray.origin i) (comp ray.dir i)) ≤
      min (moment rnd (comp a.mn i) (comp ray.origin i) (comp ray.dir i)) (moment rnd (comp a.mx i) (comp ray.origin i) (comp ray.dir i)) ∧
      max (moment rnd (comp a.mn i) (comp ray.origin i) (comp ray.dir i)) (moment rnd (comp a.mx i) (comp ray.origin i) (comp ray.dir i)) ≤
      max (moment rnd (comp b.mn i) (comp ray.origin i) (comp ray.dir i)) (moment rnd (comp b.mx i) (comp ray.origin i) (comp ray.dir i)) := by
    intro i
    obtain ⟨o1, o2, o3⟩ := ord i
    rcases le_total 0 (rnd (1 / rnd (comp ray.dir i + rnd (1 / 10 ^ 12)))) with hi | hi
    · have m : Monotone fun x => moment rnd x (comp ray.origin i) (comp ray.dir i) := fun x y hxy =>
        hm (mul_le_mul_of_nonneg_right (hm (by linarith)) hi)
      exact ⟨le_trans (min_le_left _ _) (le_min (m o1) (m (le_trans o1 o2))), le_trans (max_le (m (le_trans o2 o3)) (m o3)) (le_max_right _ _)⟩
    · have m : Antitone fun x => moment rnd x (comp ray.origin i) (comp ray.dir i) := fun x y hxy =>
        hm (mul_le_mul_of_nonpos_right (hm (by linarith)) hi)
      exact ⟨le_trans (min_le_right _ _) (le_min (m (le_trans o2 o3)) (m o3)), le_trans (max_le (m o1) (m (le_trans o1 o2))) (le_max_left _ _)⟩
  exact ⟨fun i j => le_trans (key i).1 (le_trans (h1 i j) (key j).2), fun j => lt_of_lt_of_le (h2 j) (key j).2, fun i => le_trans (key i).1 (h3 i)⟩

/-! ### Morton codes -/

theorem quantise_range (hu : u ≤ 1 / 2 ^ 12) {range mn x : ℝ} (h1 : mn ≤ x) (h2 : rnd (x - mn) ≤ range) (h0 : 0 < range) (h3 : range * η ≤ 1 / 8) (h4 : η ≤ 1 / 8) :
    0 ≤ quantise rnd range mn x ∧ quantise rnd range mn x ≤ 1023 := by
  have u0 := A.u_nonneg
  have η0 := A.η_nonneg
  have s0 : 0 ≤ rnd (x - mn) := A.nonneg (by linarith)
  have q0 : 0 ≤ rnd (1023 / range) := A.nonneg (by positivity)
  have p0 : 0 ≤ rnd (rnd (x - mn) * rnd (1023 / range)) := A.nonneg (mul_nonneg s0 q0)
  unfold quantise truncToInt
  rw [if_pos p0]
  refine ⟨Int.floor_nonneg.2 p0, ?_⟩
  have hlt : rnd (rnd (x - mn) * rnd (1023 / range)) < 1024 := by
    have hq := (abs_le.1 (A.close (1023 / range))).2
    rw [abs_of_nonneg (by positivity)] at hq
    have hp := (abs_le.1 (A.close (rnd (x - mn) * rnd (1023 / range)))).2
    rw [abs_of_nonneg (mul_nonneg s0 q0)] at hp
    have hsq : rnd (x - mn) * rnd (1023 / range) ≤ 1023 * (1 + u) + range * η := by
      calc rnd (x - mn) * rnd (1023 / range) ≤ range * (1023 / range + (u * (1023 / range) + η)) := mul_le_mul h2 (by linarith) q0 h0.le
        _ = 1023 * (1 + u) + range * η := by field_simp; ring
    have : u * (rnd (x - mn) * rnd (1023 / range)) ≤ u * (1023 * (1 + u) + range * η) := mul_le_mul_of_nonneg_left hsq u0
    have hb : u * (1023 * (1 + u) + range * η) ≤ 1 / 2 ^ 12 * (1023 * (1 + 1 / 2 ^ 12) + 1 / 8) := by
      apply mul_le_mul hu _ (by positivity) (by norm_num)
      linarith
    norm_num at *
    linarith
  have : ⌊rnd (rnd (x - mn) * rnd (1023 / range))⌋ < 1024 := by
    rw [Int.floor_lt]; exact_mod_cast hlt
  omega

theorem quantise_mono {range mn x y : ℝ} (h0 : 0 < range) (h1 : mn ≤ x) (h2 : x ≤ y) : quantise rnd range mn x ≤ quantise rnd range mn y := by
  have q0 : 0 ≤ rnd (1023 / range) := A.nonneg (by positivity)
  have hle : rnd (rnd (x - mn) * rnd (1023 / range)) ≤ rnd (rnd (y - mn) * rnd (1023 / range)) :=
    A.mono (mul_le_mul_of_nonneg_right (A.mono (by linarith)) q0)
  have p0 : 0 ≤ rnd (rnd (x - mn) * rnd (1023 / range)) := A.nonneg (mul_nonneg (A.nonneg (by linarith)) q0)
  unfold quantise truncToInt
  rw [if_pos p0, if_pos (le_trans p0 hle)]
  exact Int.floor_le_floor hle

end
end Artist.RoundedFilter
