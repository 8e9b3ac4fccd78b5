import Verif.Model.Intersect
import Mathlib.Tactic.Linarith
import Mathlib.Tactic.Positivity
import Mathlib.Tactic.FieldSimp
import Mathlib.Tactic.LinearCombination
import Mathlib.LinearAlgebra.Matrix.Notation
import Mathlib.LinearAlgebra.Matrix.NonsingularInverse
/-!
# C16 (reflection), C17 (planar targets), C18 (cylindrical targets)
-/
namespace Artist.Intersect
open Artist

/-! ## C16 -/
section
variable {K : Type} [Field K]

theorem reflect_dot (d d' n : Fin 4 → K) (hn : n ⬝ᵥ n = 1) : reflect d n ⬝ᵥ reflect d' n = d ⬝ᵥ d' := by
  unfold reflect
  simp only [sub_dotProduct, dotProduct_sub, smul_dotProduct, dotProduct_smul, smul_eq_mul, hn]
  rw [dotProduct_comm n d']
  ring

/-- C16: angles between rays, and with `d = d'` the length of a ray, are preserved. -/
theorem C16_isometry (d d' n : Fin 4 → K) (hn : n ⬝ᵥ n = 1) :
    reflect d n ⬝ᵥ reflect d' n = d ⬝ᵥ d' ∧ reflect d n ⬝ᵥ reflect d n = d ⬝ᵥ d := ⟨reflect_dot d d' n hn, reflect_dot d d n hn⟩

/-- C16: reflecting twice gives the original ray. -/
theorem C16_involution (d n : Fin 4 → K) (hn : n ⬝ᵥ n = 1) : reflect (reflect d n) n = d := by
  have h : reflect d n ⬝ᵥ n = -(d ⬝ᵥ n) := by
    unfold reflect; simp only [sub_dotProduct, smul_dotProduct, smul_eq_mul, hn]; ring
  rw [show reflect (reflect d n) n = reflect d n - (2 * (reflect d n ⬝ᵥ n)) • n from rfl, h]
  unfold reflect
  ext i
  simp only [Pi.sub_apply, Pi.smul_apply, smul_eq_mul]
  ring

/-- C16: a ray `a·n + t` with `t` orthogonal to the normal `n` becomes `-a·n + t`. -/
theorem C16_components (a : K) (t n : Fin 4 → K) (hn : n ⬝ᵥ n = 1) (ht : t ⬝ᵥ n = 0) : reflect (a • n + t) n = -(a • n) + t := by
  unfold reflect
  simp only [add_dotProduct, smul_dotProduct, smul_eq_mul, hn, ht]
  ext i
  simp only [Pi.sub_apply, Pi.add_apply, Pi.neg_apply, Pi.smul_apply, smul_eq_mul]
  ring

/-- C16: a direction (fourth component zero) stays a direction. -/
theorem C16_direction (d n : Fin 4 → K) (hd : d 3 = 0) (hn : n 3 = 0) : reflect d n 3 = 0 := by
  unfold reflect; simp [hd, hn]

/-- C16: the reflected ray is determined by the law of reflection: it is the only vector whose sum with the incoming ray is orthogonal to the normal
and whose difference to it is parallel to the normal. -/
theorem C16_unique (d n r : Fin 4 → K) (hn : n ⬝ᵥ n = 1) (h1 : (d + r) ⬝ᵥ n = 0) (h2 : ∃ c : K, r - d = c • n) : r = reflect d n := by
  obtain ⟨c, hc⟩ := h2
  have hr : r = d + c • n := by rw [← hc]; simp
  subst hr
  have : c = -(2 * (d ⬝ᵥ n)) := by
    simp only [add_dotProduct, smul_dotProduct, smul_eq_mul, hn] at h1
    linear_combination h1
  subst this
  unfold reflect
  ext i
  simp only [Pi.sub_apply, Pi.add_apply, Pi.smul_apply, smul_eq_mul]
  ring

end

example : (![0, 3 / 5, 4 / 5, 0] : Fin 4 → ℚ) ⬝ᵥ ![0, 3 / 5, 4 / 5, 0] = 1 ∧
    reflect (![0, 0, -1, 0] : Fin 4 → ℚ) ![0, 3 / 5, 4 / 5, 0] = ![0, 24 / 25, 7 / 25, 0] := by decide +kernel

/-! ## C17 -/
section
variable {K : Type} [Field K] [LinearOrder K] [IsStrictOrderedRing K]

theorem coordinate_range (x w N : K) (hw : 0 < w) (hN : 0 < N) : (0 ≤ (x + w / 2) / w * N ↔ -(w / 2) ≤ x) ∧ ((x + w / 2) / w * N ≤ N ↔ x ≤ w / 2) := by
  constructor
  · rw [mul_nonneg_iff_of_pos_right hN, div_nonneg_iff]
    constructor
    · rintro (h | h)
      · linarith [h.1]
      · linarith [h.2]
    · intro h; left; exact ⟨by linarith, hw.le⟩
  · rw [show ((x + w / 2) / w * N ≤ N) ↔ ((x + w / 2) / w * N ≤ 1 * N) by rw [one_mul], mul_le_mul_iff_left₀ hN, div_le_one hw]
    constructor <;> intro h <;> linarith

/-- The point `o + t·d` lies on the target: in its plane and inside its rectangle (measured in east and up direction). -/
def OnTarget (p : Plane K) (q : V3 K) : Prop :=
  V3.dot (q - p.center) p.normal = 0 ∧ |q.e - p.center.e| ≤ p.width / 2 ∧ |q.u - p.center.u| ≤ p.height / 2

/-- everything `linePlane` does, for sensible dimensions -/
theorem linePlane_spec (W H : Nat) (hW : 2 ≤ W) (hH : 2 ≤ H) (o d : V3 K) (m : K) (p : Plane K) (hw : 0 < p.width) (hh : 0 < p.height) :
    (V3.dot d p.normal < 0 ∧ OnTarget p (planePoint o d p) ∧
      linePlane W H o d m p = ⟨((W : K) - 1) * (1 / 2 - ((planePoint o d p).e - p.center.e) / p.width),
        ((H : K) - 1) * (1 / 2 + ((planePoint o d p).u - p.center.u) / p.height), planeDistance o d p, m * -(V3.dot d p.normal)⟩) ∨
    (¬ (V3.dot d p.normal < 0 ∧ OnTarget p (planePoint o d p)) ∧ linePlane W H o d m p = ⟨(W : K) - 1, 0, 0, 0⟩) := by
  have hW1 : (0 : K) < (W : K) - 1 := by
    have : (2 : K) ≤ (W : K) := by exact_mod_cast hW
    linarith
  have hH1 : (0 : K) < (H : K) - 1 := by
    have : (2 : K) ≤ (H : K) := by exact_mod_cast hH
    linarith
  have re := coordinate_range ((planePoint o d p).e - p.center.e) p.width ((W : K) - 1) hw hW1
  have ru := coordinate_range ((planePoint o d p).u - p.center.u) p.height ((H : K) - 1) hh hH1
  rw [show (planePoint o d p).e - p.center.e + p.width / 2 = (planePoint o d p).e + p.width / 2 - p.center.e by ring] at re
  rw [show (planePoint o d p).u - p.center.u + p.height / 2 = (planePoint o d p).u + p.height / 2 - p.center.u by ring] at ru
  by_cases hf : V3.dot d p.normal < 0
  · have hplane : V3.dot (planePoint o d p - p.center) p.normal = 0 := by
      unfold planePoint planeDistance planeAngle
      simp only [hf, decide_true, if_true]
      have ht := div_mul_cancel₀ (V3.dot (p.center - o) p.normal) hf.ne
      generalize V3.dot (p.center - o) p.normal / V3.dot d p.normal = t at ht
      unfold V3.dot at ht ⊢
      simp only [V3.sub_e, V3.sub_n, V3.sub_u, V3.add_e, V3.add_n, V3.add_u, V3.smul_e, V3.smul_n, V3.smul_u] at ht ⊢
      linear_combination ht
    by_cases hin : |(planePoint o d p).e - p.center.e| ≤ p.width / 2 ∧ |(planePoint o d p).u - p.center.u| ≤ p.height / 2
    · left
      refine ⟨hf, ⟨hplane, hin⟩, ?_⟩
      rw [abs_le, abs_le] at hin
      unfold linePlane
      have hv : (decide (0 ≤ ((planePoint o d p).e + p.width / 2 - p.center.e) / p.width * ((W : K) - 1)) &&
          decide (((planePoint o d p).e + p.width / 2 - p.center.e) / p.width * ((W : K) - 1) ≤ (W : K) - 1) &&
          decide (0 ≤ ((planePoint o d p).u + p.height / 2 - p.center.u) / p.height * ((H : K) - 1)) &&
          decide (((planePoint o d p).u + p.height / 2 - p.center.u) / p.height * ((H : K) - 1) ≤ (H : K) - 1) &&
          decide (planeAngle d p < 0)) = true := by
        simp only [Bool.and_eq_true, decide_eq_true_eq]
        exact ⟨⟨⟨⟨re.1.2 hin.1.1, re.2.2 hin.1.2⟩, ru.1.2 hin.2.1⟩, ru.2.2 hin.2.2⟩, hf⟩
      simp only [hv, if_true]
      congr 1
      · field_simp; ring
      · field_simp; ring
    · right
      refine ⟨fun h => hin h.2.2, ?_⟩
      unfold linePlane
      have hv : (decide (0 ≤ ((planePoint o d p).e + p.width / 2 - p.center.e) / p.width * ((W : K) - 1)) &&
          decide (((planePoint o d p).e + p.width / 2 - p.center.e) / p.width * ((W : K) - 1) ≤ (W : K) - 1) &&
          decide (0 ≤ ((planePoint o d p).u + p.height / 2 - p.center.u) / p.height * ((H : K) - 1)) &&
          decide (((planePoint o d p).u + p.height / 2 - p.center.u) / p.height * ((H : K) - 1) ≤ (H : K) - 1) &&
          decide (planeAngle d p < 0)) = false := by
        rw [Bool.eq_false_iff]
        simp only [ne_eq, Bool.and_eq_true, decide_eq_true_eq]
        rintro ⟨⟨⟨⟨h1, h2⟩, h3⟩, h4⟩, -⟩
        apply hin
        rw [abs_le, abs_le]
        exact ⟨⟨re.1.1 h1, re.2.1 h2⟩, ⟨ru.1.1 h3, ru.2.1 h4⟩⟩
      simp only [hv, Bool.false_eq_true, if_false, sub_zero]
  · right
    refine ⟨fun h => hf h.1, ?_⟩
    unfold linePlane
    have : decide (planeAngle d p < 0) = false := decide_eq_false hf
    simp only [this, Bool.and_false, Bool.false_eq_true, if_false, sub_zero]

/-- C17: a ray with positive intensity that starts in front of the target meets the target plane at a positive distance, inside
the target rectangle, and from the front; its pixel coordinates are the mirrored, linearly scaled position of the hit point; its intensity is the
magnitude times the cosine of the angle of incidence.  The full claim does not assume that the ray starts in front of the target: it then
fails, see `C17_counts_ray_leaving_target`. -/
theorem C17_hit_partial (W H : Nat) (hW : 2 ≤ W) (hH : 2 ≤ H) (o d : V3 K) (m : K) (p : Plane K) (hw : 0 < p.width) (hh : 0 < p.height)
    (hfront : 0 < V3.dot (o - p.center) p.normal) (hpos : 0 < (linePlane W H o d m p).intensity) :
    let r := linePlane W H o d m p
    let q := o + r.distance • d
    0 < r.distance ∧ OnTarget p q ∧ V3.dot d p.normal < 0 ∧
      r.e = ((W : K) - 1) * (1 / 2 - (q.e - p.center.e) / p.width) ∧ r.u = ((H : K) - 1) * (1 / 2 + (q.u - p.center.u) / p.height) ∧
      r.intensity = m * -(V3.dot d p.normal) := by
  intro r q
  rcases linePlane_spec W H hW hH o d m p hw hh with ⟨hf, hon, heq⟩ | ⟨_, heq⟩
  · have hr : r = _ := heq
    have hq : q = planePoint o d p := by simp only [q, hr]; rfl
    rw [hq, hr]
    refine ⟨?_, hon, hf, rfl, rfl, rfl⟩
    simp only [planeDistance, planeAngle, hf, decide_true, if_true]
    apply div_pos_of_neg_of_neg _ hf
    have : V3.dot (p.center - o) p.normal = -V3.dot (o - p.center) p.normal := by unfold V3.dot; simp; ring
    rw [this]; linarith
  · rw [heq] at hpos; exact absurd hpos (lt_irrefl _)

/-- C17: which rays count: exactly those that run against the target's normal and whose line meets the target rectangle get magnitude times cosine; all
others get 0. -/
theorem C17_intensity (W H : Nat) (hW : 2 ≤ W) (hH : 2 ≤ H) (o d : V3 K) (m : K) (p : Plane K) (hw : 0 < p.width) (hh : 0 < p.height) :
    ((V3.dot d p.normal < 0 ∧ ∃ t : K, OnTarget p (o + t • d)) → (linePlane W H o d m p).intensity = m * -(V3.dot d p.normal)) ∧
    (¬ (V3.dot d p.normal < 0 ∧ ∃ t : K, OnTarget p (o + t • d)) → (linePlane W H o d m p).intensity = 0) := by
  have huniq : V3.dot d p.normal < 0 → ∀ t : K, OnTarget p (o + t • d) → OnTarget p (planePoint o d p) := by
    intro hf t ht
    have : planePoint o d p = o + t • d := by
      unfold planePoint
      congr 2
      simp only [planeDistance, planeAngle, hf, decide_true, if_true]
      rw [div_eq_iff hf.ne]
      have h0 := ht.1
      unfold V3.dot at h0 ⊢
      simp only [V3.sub_e, V3.sub_n, V3.sub_u, V3.add_e, V3.add_n, V3.add_u, V3.smul_e, V3.smul_n, V3.smul_u] at h0 ⊢
      linear_combination -h0
    rw [this]; exact ht
  rcases linePlane_spec W H hW hH o d m p hw hh with ⟨hf, hon, heq⟩ | ⟨hno, heq⟩
  · rw [heq]
    exact ⟨fun _ => rfl, fun h => absurd ⟨hf, planeDistance o d p, hon⟩ h⟩
  · rw [heq]
    refine ⟨fun ⟨hf, t, ht⟩ => absurd ⟨hf, huniq hf t ht⟩ hno, fun _ => rfl⟩

/-- C17: the coordinates always lie within the bitmap, for hits and misses. -/
theorem C17_coordinates_in_bitmap (W H : Nat) (hW : 2 ≤ W) (hH : 2 ≤ H) (o d : V3 K) (m : K) (p : Plane K) (hw : 0 < p.width) (hh : 0 < p.height) :
    let r := linePlane W H o d m p
    (0 ≤ r.e ∧ r.e ≤ (W : K) - 1) ∧ (0 ≤ r.u ∧ r.u ≤ (H : K) - 1) := by
  intro r
  have hW1 : (0 : K) < (W : K) - 1 := by
    have : (2 : K) ≤ (W : K) := by exact_mod_cast hW
    linarith
  have hH1 : (0 : K) < (H : K) - 1 := by
    have : (2 : K) ≤ (H : K) := by exact_mod_cast hH
    linarith
  have key : ∀ x w N : K, 0 < w → 0 < N → |x| ≤ w / 2 → (0 ≤ N * (1 / 2 - x / w) ∧ N * (1 / 2 - x / w) ≤ N) ∧
      (0 ≤ N * (1 / 2 + x / w) ∧ N * (1 / 2 + x / w) ≤ N) := by
    intro x w N hw hN hx
    rw [abs_le] at hx
    have h1 : x / w ≤ 1 / 2 := by rw [div_le_iff₀ hw]; linarith
    have h2 : -(1 / 2) ≤ x / w := by rw [le_div_iff₀ hw]; linarith
    refine ⟨⟨mul_nonneg hN.le (by linarith), ?_⟩, ⟨mul_nonneg hN.le (by linarith), ?_⟩⟩ <;> nlinarith
  rcases linePlane_spec W H hW hH o d m p hw hh with ⟨_, hon, heq⟩ | ⟨_, heq⟩
  · have hr : r = _ := heq
    rw [hr]
    exact ⟨(key _ _ _ hw hW1 hon.2.1).1, (key _ _ _ hh hH1 hon.2.2).2⟩
  · have hr : r = _ := heq
    rw [hr]
    exact ⟨⟨hW1.le, le_refl _⟩, ⟨le_refl _, hH1.le⟩⟩

/-- C17, limit: the width of the target is measured in east direction only.  For a target that faces east or west every counted ray is recorded in the
middle column, wherever it hits. -/
theorem C17_side_facing_target (W H : Nat) (hW : 2 ≤ W) (hH : 2 ≤ H) (o d : V3 K) (m : K) (p : Plane K) (hw : 0 < p.width) (hh : 0 < p.height)
    (hside : p.normal.n = 0 ∧ p.normal.u = 0) (hpos : 0 < (linePlane W H o d m p).intensity) :
    (linePlane W H o d m p).e = ((W : K) - 1) / 2 := by
  rcases linePlane_spec W H hW hH o d m p hw hh with ⟨hf, hon, heq⟩ | ⟨_, heq⟩
  · rw [heq]
    have h0 := hon.1
    unfold V3.dot at h0 hf
    rw [hside.1, hside.2] at h0 hf
    simp only [mul_zero, add_zero] at h0 hf
    have hne : p.normal.e ≠ 0 := by rintro h; rw [h, mul_zero] at hf; exact lt_irrefl _ hf
    rcases mul_eq_zero.1 h0 with h | h
    · simp only [V3.sub_e] at h
      simp only
      rw [h, zero_div, sub_zero]; ring
    · exact absurd h hne
  · rw [heq] at hpos; exact absurd hpos (lt_irrefl _)

end

/-- a target one unit wide and high at height 10, facing north -/
def northTarget : Plane ℚ := ⟨⟨0, 0, 10⟩, ⟨0, 1, 0⟩, 4, 4⟩

/-- C17 is false as stated: there is no check that the intersection lies in front of the ray.  A ray that starts 5 m *behind* the target and
runs away from it gets full intensity, with distance -5. -/
theorem C17_counts_ray_leaving_target :
    linePlane 3 3 ⟨0, -5, 10⟩ ⟨0, -1, 0⟩ 1 northTarget = ⟨1, 1, -5, 1⟩ := by decide +kernel

/-- a ray in front of the target meets the hypotheses of the theorems above -/
example : 0 < V3.dot ((⟨1, 50, 10⟩ : V3 ℚ) - northTarget.center) northTarget.normal ∧
    linePlane 3 3 ⟨1, 50, 10⟩ ⟨0, -1, 0⟩ 1 northTarget = ⟨1 / 2, 1, 50, 1⟩ ∧
    0 < (linePlane 3 3 ⟨1, 50, 10⟩ ⟨0, -1, 0⟩ 1 northTarget).intensity := by decide +kernel

/-! ## C18 -/

/-- Normal and axis are orthogonal unit vectors. -/
def Cylinder.Framed (cyl : Cylinder) : Prop :=
  V3.normSq cyl.normal = 1 ∧ V3.normSq cyl.axis = 1 ∧ V3.dot cyl.normal cyl.axis = 0

theorem frame_complete (cyl : Cylinder) (h : cyl.Framed) :
    let c := V3.cross cyl.normal cyl.axis
    let n := cyl.normal
    let a := cyl.axis
    (c.e * c.e + n.e * n.e + a.e * a.e = 1 ∧ c.n * c.n + n.n * n.n + a.n * a.n = 1 ∧ c.u * c.u + n.u * n.u + a.u * a.u = 1) ∧
    (c.e * c.n + n.e * n.n + a.e * a.n = 0 ∧ c.e * c.u + n.e * n.u + a.e * a.u = 0 ∧ c.n * c.u + n.n * n.u + a.n * a.u = 0) := by
  intro c n a
  obtain ⟨h1, h2, h3⟩ := h
  have k1 : n.e * n.e + n.n * n.n + n.u * n.u = 1 := h1
  have k2 : a.e * a.e + a.n * a.n + a.u * a.u = 1 := h2
  have k3 : n.e * a.e + n.n * a.n + n.u * a.u = 0 := h3
  have hc : c = V3.cross n a := rfl
  have ce : c.e = n.n * a.u - n.u * a.n := rfl
  have cn : c.n = n.u * a.e - n.e * a.u := rfl
  have cu : c.u = n.e * a.n - n.n * a.e := rfl
  have hmul : (!![c.e, c.n, c.u; n.e, n.n, n.u; a.e, a.n, a.u] : Matrix (Fin 3) (Fin 3) ℝ) *
      !![c.e, n.e, a.e; c.n, n.n, a.n; c.u, n.u, a.u] = 1 := by
    rw [Matrix.one_fin_three]
    ext i j
    fin_cases i <;> fin_cases j <;> simp [Matrix.mul_apply, Fin.sum_univ_three]
    · rw [ce, cn, cu]
      linear_combination (a.e * a.e + a.n * a.n + a.u * a.u) * k1 + k2 - (n.e * a.e + n.n * a.n + n.u * a.u) * k3
    · rw [ce, cn, cu]; ring
    · rw [ce, cn, cu]; ring
    · rw [ce, cn, cu]; ring
    · exact k1
    · exact k3
    · rw [ce, cn, cu]; ring
    · linear_combination k3
    · exact k2
  have hmul' := mul_eq_one_comm.1 hmul
  rw [Matrix.one_fin_three] at hmul'
  have get : ∀ i j, _ := fun i j => congrFun (congrFun hmul' i) j
  have g00 := get 0 0
  have g11 := get 1 1
  have g22 := get 2 2
  have g01 := get 0 1
  have g02 := get 0 2
  have g12 := get 1 2
  simp [Matrix.mul_apply, Fin.sum_univ_three] at g00 g11 g22 g01 g02 g12
  exact ⟨⟨g00, g11, g22⟩, ⟨g01, g02, g12⟩⟩

theorem toLocal_normSq (cyl : Cylinder) (h : cyl.Framed) (v : V3 ℝ) :
    (cyl.toLocal v).e ^ 2 + (cyl.toLocal v).n ^ 2 = V3.normSq v - V3.dot v cyl.axis ^ 2 := by
  obtain ⟨⟨h1, h2, h3⟩, ⟨h4, h5, h6⟩⟩ := frame_complete cyl h
  unfold Cylinder.toLocal V3.normSq V3.dot
  simp only
  linear_combination v.e ^ 2 * h1 + v.n ^ 2 * h2 + v.u ^ 2 * h3 + 2 * v.e * v.n * h4 + 2 * v.e * v.u * h5 + 2 * v.n * v.u * h6

theorem toLocal_add_smul (cyl : Cylinder) (v w : V3 ℝ) (t : ℝ) : cyl.toLocal (v + t • w) = cyl.toLocal v + t • cyl.toLocal w := by
  unfold Cylinder.toLocal V3.dot; ext <;> simp <;> ring

/-- what the chosen distance satisfies -/
theorem distance_spec (cyl : Cylinder) (o d : V3 ℝ) (t : ℝ) (h : cyl.distance o d = some t) :
    let q := cyl.quadratic o d
    0 < t ∧ 1 / 10 ^ 8 < q.1 ∧ q.1 * t ^ 2 + q.2.1 * t + q.2.2 = 1 / 10 ^ 12 / (4 * q.1) ∧
      ∀ s, 0 < s → s < t → q.1 * s ^ 2 + q.2.1 * s + q.2.2 ≠ 1 / 10 ^ 12 / (4 * q.1) := by
  intro q
  have hq0 : 0 ≤ q.1 := by simp only [q, Cylinder.quadratic]; positivity
  unfold Cylinder.distance at h
  simp only at h
  change (if 0 ≤ q.2.1 ^ 2 - 4 * q.1 * q.2.2 ∧ 1 / 10 ^ 8 < |q.1| then _ else _) = _ at h
  by_cases hc : 0 ≤ q.2.1 ^ 2 - 4 * q.1 * q.2.2 ∧ 1 / 10 ^ 8 < |q.1|
  · rw [if_pos hc] at h
    rw [abs_of_nonneg hq0] at hc
    have ha : 0 < q.1 := lt_trans (by norm_num) hc.2
    change (if 0 < (-q.2.1 - Real.sqrt (q.2.1 ^ 2 - 4 * q.1 * q.2.2 + 1 / 10 ^ 12)) / (2 * q.1) then
      (if 0 < (-q.2.1 + Real.sqrt (q.2.1 ^ 2 - 4 * q.1 * q.2.2 + 1 / 10 ^ 12)) / (2 * q.1) then
        some (min ((-q.2.1 - Real.sqrt (q.2.1 ^ 2 - 4 * q.1 * q.2.2 + 1 / 10 ^ 12)) / (2 * q.1))
          ((-q.2.1 + Real.sqrt (q.2.1 ^ 2 - 4 * q.1 * q.2.2 + 1 / 10 ^ 12)) / (2 * q.1)))
        else some ((-q.2.1 - Real.sqrt (q.2.1 ^ 2 - 4 * q.1 * q.2.2 + 1 / 10 ^ 12)) / (2 * q.1)))
      else if 0 < (-q.2.1 + Real.sqrt (q.2.1 ^ 2 - 4 * q.1 * q.2.2 + 1 / 10 ^ 12)) / (2 * q.1) then
        some ((-q.2.1 + Real.sqrt (q.2.1 ^ 2 - 4 * q.1 * q.2.2 + 1 / 10 ^ 12)) / (2 * q.1)) else none) = some t at h
    have hs : Real.sqrt (q.2.1 ^ 2 - 4 * q.1 * q.2.2 + 1 / 10 ^ 12) ^ 2 = q.2.1 ^ 2 - 4 * q.1 * q.2.2 + 1 / 10 ^ 12 :=
      Real.sq_sqrt (add_nonneg hc.1 (by norm_num))
    have hs0 := Real.sqrt_nonneg (q.2.1 ^ 2 - 4 * q.1 * q.2.2 + 1 / 10 ^ 12)
    generalize hN : (-q.2.1 - Real.sqrt (q.2.1 ^ 2 - 4 * q.1 * q.2.2 + 1 / 10 ^ 12)) / (2 * q.1) = near at h
    generalize hF : (-q.2.1 + Real.sqrt (q.2.1 ^ 2 - 4 * q.1 * q.2.2 + 1 / 10 ^ 12)) / (2 * q.1) = far at h
    generalize Real.sqrt (q.2.1 ^ 2 - 4 * q.1 * q.2.2 + 1 / 10 ^ 12) = s at *
    have hle : near ≤ far := by
      rw [← hN, ← hF]; apply div_le_div_of_nonneg_right _ (by linarith); linarith
    have hfac : ∀ x, q.1 * x ^ 2 + q.2.1 * x + q.2.2 - 1 / 10 ^ 12 / (4 * q.1) = q.1 * ((x - near) * (x - far)) := by
      intro x
      rw [← hN, ← hF]
      field_simp
      linear_combination (4 * 10 ^ 12 : ℝ) * hs
    have hroot : ∀ x, q.1 * x ^ 2 + q.2.1 * x + q.2.2 = 1 / 10 ^ 12 / (4 * q.1) ↔ x = near ∨ x = far := by
      intro x
      rw [← sub_eq_zero, hfac x, mul_eq_zero, mul_eq_zero, sub_eq_zero, sub_eq_zero]
      constructor
      · rintro (h | h)
        · exact absurd h ha.ne'
        · exact h
      · exact Or.inr
    by_cases hn0 : 0 < near
    · have hf0 : 0 < far := lt_of_lt_of_le hn0 hle
      rw [if_pos hn0, if_pos hf0, min_eq_left hle, Option.some.injEq] at h
      subst h
      refine ⟨hn0, hc.2, (hroot _).2 (Or.inl rfl), ?_⟩
      intro x hx0 hxt he
      rcases (hroot x).1 he with h | h <;> linarith
    · rw [if_neg hn0] at h
      by_cases hf0 : 0 < far
      · rw [if_pos hf0, Option.some.injEq] at h
        subst h
        refine ⟨hf0, hc.2, (hroot _).2 (Or.inr rfl), ?_⟩
        intro x hx0 hxt he
        rcases (hroot x).1 he with h | h <;> linarith
      · rw [if_neg hf0] at h; exact absurd h (by simp)
  · rw [if_neg hc] at h; exact absurd h (by simp)

/-- squared distance of a point from the axis of the cylinder -/
noncomputable def Cylinder.radial (cyl : Cylinder) (q : V3 ℝ) : ℝ := V3.normSq (q - cyl.center) - V3.dot (q - cyl.center) cyl.axis ^ 2

theorem quadratic_radial (cyl : Cylinder) (hfr : cyl.Framed) (o d : V3 ℝ) (t : ℝ) :
    let q := cyl.quadratic o d
    q.1 * t ^ 2 + q.2.1 * t + q.2.2 = cyl.radial (o + t • d) - cyl.radius ^ 2 := by
  have h := toLocal_normSq cyl hfr ((o - cyl.center) + t • d)
  rw [toLocal_add_smul] at h
  have e : (o - cyl.center) + t • d = (o + t • d) - cyl.center := by ext <;> simp <;> ring
  rw [e] at h
  unfold Cylinder.radial Cylinder.quadratic
  simp only [V3.add_e, V3.add_n, V3.smul_e, V3.smul_n] at h ⊢
  rw [← h]; ring

/-- C18: a ray with non-zero intensity hits the cylinder: its hit point lies at a positive distance, at the radius of the cylinder up to
the code's own regularisation term (below `2.5e-5` square metres), within its height; and no earlier point of the ray lies on that surface. -/
theorem C18_on_surface (W H : Nat) (o d : V3 ℝ) (m : ℝ) (cyl : Cylinder) (hfr : cyl.Framed)
    (h : (lineCylinder W H o d m cyl).intensity ≠ 0) :
    ∃ δ, 0 < δ ∧ δ < 1 / 10 ^ 4 / 4 ∧
      let t := (lineCylinder W H o d m cyl).distance
      0 < t ∧ cyl.radial (o + t • d) = cyl.radius ^ 2 + δ ∧ |V3.dot (o + t • d - cyl.center) cyl.axis| ≤ cyl.height / 2 ∧
      ∀ s, 0 < s → s < t → cyl.radial (o + s • d) ≠ cyl.radius ^ 2 + δ := by
  unfold lineCylinder at h ⊢
  cases hd : cyl.distance o d with
  | none => rw [hd] at h; exact absurd rfl h
  | some t =>
    rw [hd] at h
    simp only at h ⊢
    split_ifs at h ⊢ with hc
    · obtain ⟨h0, h1, h2, h3⟩ := distance_spec cyl o d t hd
      have ha : 0 < (cyl.quadratic o d).1 := lt_trans (by norm_num) h1
      refine ⟨1 / 10 ^ 12 / (4 * (cyl.quadratic o d).1), by positivity, ?_, h0, ?_, ?_, ?_⟩
      · rw [div_lt_iff₀ (by linarith)]; norm_num at h1 ⊢; linarith
      · have := quadratic_radial cyl hfr o d t
        simp only at this h2; linarith
      · have e : V3.dot (o + t • d - cyl.center) cyl.axis = (cyl.toLocal (o - cyl.center) + t • cyl.toLocal d).u := by
          unfold Cylinder.toLocal V3.dot; simp; ring
        rw [e, abs_le]
        constructor <;> linarith [hc.1, hc.2.1]
      · intro s hs0 hst he
        apply h3 s hs0 hst
        have := quadratic_radial cyl hfr o d s
        simp only at this ⊢; linarith
    · exact absurd rfl h

/-- C18: recorded coordinates stay within the bitmap and intensities are non-negative. -/
theorem C18_bounds (W H : Nat) (hW : 1 ≤ W) (hH : 1 ≤ H) (o d : V3 ℝ) (m : ℝ) (hm : 0 ≤ m) (cyl : Cylinder) (hh : 0 < cyl.height)
    (ho : 0 < cyl.opening) :
    let r := lineCylinder W H o d m cyl
    (0 ≤ r.e ∧ r.e ≤ (W : ℝ) - 1) ∧ (0 ≤ r.u ∧ r.u ≤ (H : ℝ) - 1) ∧ 0 ≤ r.intensity ∧ 0 ≤ r.distance := by
  intro r
  have hW1 : (0 : ℝ) ≤ (W : ℝ) - 1 := by
    have : (1 : ℝ) ≤ (W : ℝ) := by exact_mod_cast hW
    linarith
  have hH1 : (0 : ℝ) ≤ (H : ℝ) - 1 := by
    have : (1 : ℝ) ≤ (H : ℝ) := by exact_mod_cast hH
    linarith
  have key : ∀ x w N : ℝ, 0 < w → 0 ≤ N → 0 ≤ x → x ≤ w → 0 ≤ x / w * N ∧ x / w * N ≤ N := by
    intro x w N hw hN h0 h1
    have : x / w ≤ 1 := (div_le_one hw).2 h1
    have h2 : 0 ≤ x / w := div_nonneg h0 hw.le
    exact ⟨mul_nonneg h2 hN, by nlinarith⟩
  simp only [r]
  unfold lineCylinder
  cases hd : cyl.distance o d with
  | none => simp [hW1, hH1]
  | some t =>
    simp only
    split_ifs with hc
    · exact ⟨key _ _ _ ho hW1 hc.2.2.1 hc.2.2.2, key _ _ _ hh hH1 hc.1 hc.2.1, mul_nonneg hm (le_max_right _ _),
        (distance_spec cyl o d t hd).1.le⟩
    · simp [hW1, hH1]

/-- C18: a recorded ray counts with its magnitude times the cosine of the angle between the reversed ray and the outward normal of the
cylinder at the hit point, zero if it comes from inside. -/
theorem C18_intensity (W H : Nat) (o d : V3 ℝ) (m t : ℝ) (cyl : Cylinder) (hfr : cyl.Framed) (hd : cyl.distance o d = some t)
    (recorded : lineCylinder W H o d m cyl ≠ ⟨0, 0, 0, 0⟩) :
    let q := o + t • d - cyl.center
    let outward := q - V3.dot q cyl.axis • cyl.axis
    (lineCylinder W H o d m cyl).intensity = m * max (-(V3.dot d outward / Real.sqrt (V3.normSq outward))) 0 := by
  intro q outward
  have e : cyl.toLocal (o - cyl.center) + t • cyl.toLocal d = cyl.toLocal q := by
    rw [← toLocal_add_smul]
    congr 1
    ext <;> simp [q] <;> ring
  have hsq := toLocal_normSq cyl hfr q
  have ha : V3.normSq cyl.axis = 1 := hfr.2.1
  have hν : V3.normSq outward = V3.normSq q - V3.dot q cyl.axis ^ 2 := by
    have : V3.normSq outward = V3.normSq q - 2 * V3.dot q cyl.axis ^ 2 + V3.dot q cyl.axis ^ 2 * V3.normSq cyl.axis := by
      simp only [outward, V3.normSq, V3.dot, V3.sub_e, V3.sub_n, V3.sub_u, V3.smul_e, V3.smul_n, V3.smul_u]
      ring
    rw [this, ha]; ring
  have hdot : (cyl.toLocal d).e * (cyl.toLocal q).e + (cyl.toLocal d).n * (cyl.toLocal q).n = V3.dot d outward := by
    obtain ⟨⟨h1, h2, h3⟩, ⟨h4, h5, h6⟩⟩ := frame_complete cyl hfr
    simp only [outward, Cylinder.toLocal, V3.dot, V3.sub_e, V3.sub_n, V3.sub_u, V3.smul_e, V3.smul_n, V3.smul_u]
    linear_combination d.e * q.e * h1 + d.n * q.n * h2 + d.u * q.u * h3 + (d.e * q.n + d.n * q.e) * h4 +
      (d.e * q.u + d.u * q.e) * h5 + (d.n * q.u + d.u * q.n) * h6
  unfold lineCylinder at recorded ⊢
  rw [hd] at recorded ⊢
  simp only [e] at recorded ⊢
  split_ifs at recorded ⊢ with hc
  · simp only
    rw [hsq, ← hν, ← hdot]
    congr 2
    ring
  · exact absurd rfl recorded

/-- the local coordinates of a point given by its angle `φ` from the normal -/
theorem toLocal_of_angle (cyl : Cylinder) (hfr : cyl.Framed) (o d : V3 ℝ) (t ρ φ z : ℝ)
    (hp : o + t • d = cyl.center + (ρ * Real.cos φ) • cyl.normal - (ρ * Real.sin φ) • V3.cross cyl.normal cyl.axis + z • cyl.axis) :
    cyl.toLocal (o - cyl.center) + t • cyl.toLocal d = ⟨-(ρ * Real.sin φ), ρ * Real.cos φ, z⟩ := by
  obtain ⟨h1, h2, h3⟩ := hfr
  unfold V3.normSq V3.dot at h1 h2
  unfold V3.dot at h3
  rw [← toLocal_add_smul]
  have e : o - cyl.center + t • d = (ρ * Real.cos φ) • cyl.normal - (ρ * Real.sin φ) • V3.cross cyl.normal cyl.axis + z • cyl.axis := by
    have he := congrArg V3.e hp
    have hn := congrArg V3.n hp
    have hu := congrArg V3.u hp
    simp only [V3.add_e, V3.add_n, V3.add_u, V3.sub_e, V3.sub_n, V3.sub_u, V3.smul_e, V3.smul_n, V3.smul_u] at he hn hu
    ext <;> simp only [V3.add_e, V3.add_n, V3.add_u, V3.sub_e, V3.sub_n, V3.sub_u, V3.smul_e, V3.smul_n, V3.smul_u] <;> linarith
  rw [e]
  generalize ρ * Real.cos φ = A
  generalize ρ * Real.sin φ = B
  unfold Cylinder.toLocal V3.dot V3.cross
  ext <;> simp only [V3.add_e, V3.add_n, V3.add_u, V3.sub_e, V3.sub_n, V3.sub_u, V3.smul_e, V3.smul_n, V3.smul_u]
  · linear_combination (-B) * (cyl.axis.e * cyl.axis.e + cyl.axis.n * cyl.axis.n + cyl.axis.u * cyl.axis.u) * h1 - B * h2 +
      B * (cyl.normal.e * cyl.axis.e + cyl.normal.n * cyl.axis.n + cyl.normal.u * cyl.axis.u) * h3
  · linear_combination A * h1 + z * h3
  · linear_combination A * h3 + z * h2

theorem arg_of_angle (ρ φ : ℝ) (hρ : 0 < ρ) (h1 : -(3 * Real.pi / 2) < φ) (h2 : φ ≤ Real.pi / 2) :
    atan2 (ρ * Real.cos φ) (-(ρ * Real.sin φ)) = Real.pi / 2 + φ := by
  unfold atan2
  have : (⟨-(ρ * Real.sin φ), ρ * Real.cos φ⟩ : ℂ) = (ρ : ℂ) * (Complex.cos ((Real.pi / 2 + φ : ℝ) : ℂ) + Complex.sin ((Real.pi / 2 + φ : ℝ) : ℂ) * Complex.I) := by
    rw [← Complex.ofReal_cos, ← Complex.ofReal_sin, add_comm (Real.pi / 2) φ, Real.cos_add_pi_div_two, Real.sin_add_pi_div_two]
    apply Complex.ext <;> simp <;> left <;> rfl
  rw [this]
  apply Complex.arg_mul_cos_add_sin_mul_I hρ
  constructor <;> linarith [Real.pi_pos]

/-- C18: for a receiver whose normal points north and that covers at most a half circle, a hit at the angle `φ` from the normal (positive towards the
west when the axis points up) is recorded `φ / opening` of the width right of the middle, at a row proportional to its height; in particular a hit on
the line the normal points to is recorded in the middle column.  The full claim is for every horizontal normal and every opening: it
fails, see `C18_middle_iff_north` and `C18_lost_quadrant`. -/
theorem C18_column_partial (W H : Nat) (o d : V3 ℝ) (m : ℝ) (cyl : Cylinder) (hfr : cyl.Framed)
    (hnorth : cyl.normal.e = 0 ∧ 0 < cyl.normal.n) (ho : 0 < cyl.opening) (hopi : cyl.opening ≤ Real.pi)
    (t ρ φ z : ℝ) (hρ : 0 < ρ) (hφ : |φ| ≤ cyl.opening / 2) (hz : |z| ≤ cyl.height / 2)
    (hd : cyl.distance o d = some t)
    (hp : o + t • d = cyl.center + (ρ * Real.cos φ) • cyl.normal - (ρ * Real.sin φ) • V3.cross cyl.normal cyl.axis + z • cyl.axis) :
    (lineCylinder W H o d m cyl).e = (1 / 2 + φ / cyl.opening) * ((W : ℝ) - 1) ∧
    (lineCylinder W H o d m cyl).u = (z + cyl.height / 2) / cyl.height * ((H : ℝ) - 1) ∧
    (lineCylinder W H o d m cyl).distance = t := by
  rw [abs_le] at hφ hz
  have hx := toLocal_of_angle cyl hfr o d t ρ φ z hp
  have hn : atan2 cyl.normal.n cyl.normal.e = Real.pi / 2 := by
    have := arg_of_angle cyl.normal.n 0 hnorth.2 (by linarith [Real.pi_pos]) (by linarith [Real.pi_pos])
    simpa [hnorth.1] using this
  unfold lineCylinder
  rw [hd]
  simp only
  rw [hx]
  unfold Cylinder.angle
  simp only
  rw [hn, arg_of_angle ρ φ hρ (by linarith [Real.pi_pos]) (by linarith [Real.pi_pos])]
  rw [if_pos ⟨by linarith, by linarith, by linarith, by linarith⟩]
  refine ⟨?_, rfl, rfl⟩
  simp only
  congr 1
  field_simp
  ring

/-- C18 is false for receivers that do not face north: whatever the orientation of the (framed) receiver and whatever its opening angle, a hit on
the line its normal points to is recorded in the middle column only if the normal points exactly north. -/
theorem C18_middle_iff_north (W H : Nat) (hW : 2 ≤ W) (o d : V3 ℝ) (m : ℝ) (cyl : Cylinder) (hfr : cyl.Framed) (ho : 0 < cyl.opening)
    (t ρ z : ℝ) (hρ : 0 < ρ) (hz : |z| ≤ cyl.height / 2) (hd : cyl.distance o d = some t)
    (hp : o + t • d = cyl.center + ρ • cyl.normal + z • cyl.axis) :
    (lineCylinder W H o d m cyl).e = ((W : ℝ) - 1) / 2 ↔ cyl.normal.e = 0 ∧ 0 < cyl.normal.n := by
  have hW1 : (0 : ℝ) < (W : ℝ) - 1 := by
    have : (2 : ℝ) ≤ (W : ℝ) := by exact_mod_cast hW
    linarith
  rw [abs_le] at hz
  have hp' : o + t • d = cyl.center + (ρ * Real.cos 0) • cyl.normal - (ρ * Real.sin 0) • V3.cross cyl.normal cyl.axis + z • cyl.axis := by
    rw [hp]; ext <;> simp
  have hx := toLocal_of_angle cyl hfr o d t ρ 0 z hp'
  have harg : atan2 cyl.normal.n cyl.normal.e = Real.pi / 2 ↔ cyl.normal.e = 0 ∧ 0 < cyl.normal.n := by
    unfold atan2; rw [Complex.arg_eq_pi_div_two_iff]
  rw [← harg]
  unfold lineCylinder
  rw [hd]
  simp only
  rw [hx]
  unfold Cylinder.angle
  simp only
  rw [arg_of_angle ρ 0 hρ (by linarith [Real.pi_pos]) (by linarith [Real.pi_pos])]
  split_ifs with hc
  · simp only
    rw [div_mul_eq_mul_div, div_eq_div_iff ho.ne' (by norm_num)]
    constructor
    · intro h
      have : (Real.pi / 2 + 0 - (atan2 cyl.normal.n cyl.normal.e - cyl.opening / 2)) * 2 = cyl.opening := by
        have h' : ((Real.pi / 2 + 0 - (atan2 cyl.normal.n cyl.normal.e - cyl.opening / 2)) * 2) * ((W : ℝ) - 1) = cyl.opening * ((W : ℝ) - 1) := by
          linarith
        exact mul_right_cancel₀ hW1.ne' h'
      linarith
    · intro h; rw [h]; ring
  · simp only
    constructor
    · intro h; linarith
    · intro h
      exfalso
      apply hc
      rw [h]
      exact ⟨by linarith, by linarith, by linarith, by linarith⟩

/-- C18: a south-facing receiver with an opening angle below a full turn does not record hits on its own centre line at all. -/
theorem C18_south_facing_lost (W H : Nat) (o d : V3 ℝ) (m : ℝ) (cyl : Cylinder) (hfr : cyl.Framed)
    (hsouth : cyl.normal.e = 0 ∧ cyl.normal.n < 0) (hopi : cyl.opening < 2 * Real.pi)
    (t ρ z : ℝ) (hρ : 0 < ρ) (hd : cyl.distance o d = some t)
    (hp : o + t • d = cyl.center + ρ • cyl.normal + z • cyl.axis) :
    lineCylinder W H o d m cyl = ⟨0, 0, 0, 0⟩ := by
  have hp' : o + t • d = cyl.center + (ρ * Real.cos 0) • cyl.normal - (ρ * Real.sin 0) • V3.cross cyl.normal cyl.axis + z • cyl.axis := by
    rw [hp]; ext <;> simp
  have hx := toLocal_of_angle cyl hfr o d t ρ 0 z hp'
  have hn : atan2 cyl.normal.n cyl.normal.e = -(Real.pi / 2) := by
    unfold atan2; rw [Complex.arg_eq_neg_pi_div_two_iff]; exact hsouth
  unfold lineCylinder
  rw [hd]
  simp only
  rw [hx]
  unfold Cylinder.angle
  simp only
  rw [arg_of_angle ρ 0 hρ (by linarith [Real.pi_pos]) (by linarith [Real.pi_pos]), hn]
  rw [if_neg]
  rintro ⟨-, -, -, h⟩
  linarith

/-- C18: the angle wraps at ±π: for a north-facing receiver, even one that covers the full circle, hits on the quarter of the surface behind the
normal on its positive side (angle `φ` from the normal strictly between a quarter and a half turn) are all lost. -/
theorem C18_lost_quadrant (W H : Nat) (o d : V3 ℝ) (m : ℝ) (cyl : Cylinder) (hfr : cyl.Framed)
    (hnorth : cyl.normal.e = 0 ∧ 0 < cyl.normal.n) (hopi : cyl.opening ≤ 2 * Real.pi)
    (t ρ φ z : ℝ) (hρ : 0 < ρ) (hφ : Real.pi / 2 < φ ∧ φ < Real.pi) (hd : cyl.distance o d = some t)
    (hp : o + t • d = cyl.center + (ρ * Real.cos φ) • cyl.normal - (ρ * Real.sin φ) • V3.cross cyl.normal cyl.axis + z • cyl.axis) :
    lineCylinder W H o d m cyl = ⟨0, 0, 0, 0⟩ := by
  have hx := toLocal_of_angle cyl hfr o d t ρ φ z hp
  have hn : atan2 cyl.normal.n cyl.normal.e = Real.pi / 2 := by
    have := arg_of_angle cyl.normal.n 0 hnorth.2 (by linarith [Real.pi_pos]) (by linarith [Real.pi_pos])
    simpa [hnorth.1] using this
  have harg : atan2 (ρ * Real.cos φ) (-(ρ * Real.sin φ)) = Real.pi / 2 + (φ - 2 * Real.pi) := by
    have := arg_of_angle ρ (φ - 2 * Real.pi) hρ (by linarith [Real.pi_pos]) (by linarith [Real.pi_pos])
    rwa [Real.cos_sub_two_pi, Real.sin_sub_two_pi] at this
  unfold lineCylinder
  rw [hd]
  simp only
  rw [hx]
  unfold Cylinder.angle
  simp only
  rw [hn, harg, if_neg]
  rintro ⟨-, -, h, -⟩
  linarith [hφ.2]

/-- a cylinder of radius 1 and height 4 facing north (`σ = 1`) or south (`σ = -1`) -/
noncomputable def cylinderExample (σ opening : ℝ) : Cylinder := ⟨⟨0, 0, 0⟩, ⟨0, σ, 0⟩, ⟨0, 0, 1⟩, 1, 4, opening⟩

theorem cylinderExample_framed (σ opening : ℝ) (h : σ * σ = 1) : (cylinderExample σ opening).Framed := by
  unfold Cylinder.Framed cylinderExample V3.normSq V3.dot; simp [h]

/-- a ray from 10 m outside towards the axis hits -/
theorem cylinderExample_hit (σ opening : ℝ) (h : σ * σ = 1) (w : V3 ℝ) (hw : w.e ^ 2 + w.n ^ 2 = 1) (hu : w.u = 0) :
    ∃ t ρ : ℝ, 0 < ρ ∧ (cylinderExample σ opening).distance ((10 : ℝ) • w) ((-1 : ℝ) • w) = some t ∧ (10 : ℝ) • w + t • ((-1 : ℝ) • w) = ρ • w := by
  have e : V3.cross (⟨0, σ, 0⟩ : V3 ℝ) ⟨0, 0, 1⟩ = ⟨σ, 0, 0⟩ := by unfold V3.cross; simp
  have hq : (cylinderExample σ opening).quadratic ((10 : ℝ) • w) ((-1 : ℝ) • w) = (1, -20, 99) := by
    unfold Cylinder.quadratic Cylinder.toLocal cylinderExample
    simp only [e]
    unfold V3.dot
    simp only [V3.sub_e, V3.sub_n, V3.sub_u, V3.smul_e, V3.smul_n, V3.smul_u, hu]
    refine Prod.ext ?_ (Prod.ext ?_ ?_) <;> simp only
    · linear_combination (w.e ^ 2 + w.n ^ 2) * h + hw
    · linear_combination (-20 : ℝ) * (w.e ^ 2 + w.n ^ 2) * h - 20 * hw
    · linear_combination (100 : ℝ) * (w.e ^ 2 + w.n ^ 2) * h + 100 * hw
  have hs0 : 0 < Real.sqrt (((-20 : ℝ)) ^ 2 - 4 * 1 * 99 + 1 / 10 ^ 12) := Real.sqrt_pos.2 (by norm_num)
  have hs1 : Real.sqrt (((-20 : ℝ)) ^ 2 - 4 * 1 * 99 + 1 / 10 ^ 12) < 3 := by
    rw [Real.sqrt_lt' (by norm_num)]; norm_num
  generalize hs : Real.sqrt (((-20 : ℝ)) ^ 2 - 4 * 1 * 99 + 1 / 10 ^ 12) = s at hs0 hs1
  refine ⟨(20 - s) / 2, s / 2, by linarith, ?_, ?_⟩
  · unfold Cylinder.distance
    rw [hq]
    simp only
    rw [if_pos (by constructor <;> norm_num), hs, if_pos (by linarith), if_pos (by linarith), min_eq_left (by linarith)]
    congr 1; ring
  · ext <;> simp [hu] <;> ring

/-- hypotheses of `C18_column_partial` and `C18_middle_iff_north` -/
example : ∃ t ρ : ℝ, 0 < ρ ∧ (cylinderExample 1 (Real.pi / 2)).Framed ∧
    (cylinderExample 1 (Real.pi / 2)).distance ((10 : ℝ) • ⟨0, 1, 0⟩) ((-1 : ℝ) • ⟨0, 1, 0⟩) = some t ∧
    (10 : ℝ) • (⟨0, 1, 0⟩ : V3 ℝ) + t • ((-1 : ℝ) • ⟨0, 1, 0⟩) =
      (cylinderExample 1 (Real.pi / 2)).center + ρ • (cylinderExample 1 (Real.pi / 2)).normal + (0 : ℝ) • (cylinderExample 1 (Real.pi / 2)).axis := by
  obtain ⟨t, ρ, h1, h2, h3⟩ := cylinderExample_hit 1 (Real.pi / 2) (by norm_num) ⟨0, 1, 0⟩ (by norm_num) rfl
  refine ⟨t, ρ, h1, cylinderExample_framed 1 _ (by norm_num), h2, ?_⟩
  rw [h3]; unfold cylinderExample; ext <;> simp

/-- hypotheses of `C18_intensity` -/
example : ∃ t : ℝ, (cylinderExample 1 (Real.pi / 2)).Framed ∧
    (cylinderExample 1 (Real.pi / 2)).distance ((10 : ℝ) • ⟨0, 1, 0⟩) ((-1 : ℝ) • ⟨0, 1, 0⟩) = some t ∧
    lineCylinder 3 3 ((10 : ℝ) • ⟨0, 1, 0⟩) ((-1 : ℝ) • ⟨0, 1, 0⟩) 1 (cylinderExample 1 (Real.pi / 2)) ≠ ⟨0, 0, 0, 0⟩ := by
  obtain ⟨t, ρ, h1, h2, h3⟩ := cylinderExample_hit 1 (Real.pi / 2) (by norm_num) ⟨0, 1, 0⟩ (by norm_num) rfl
  have hfr := cylinderExample_framed 1 (Real.pi / 2) (by norm_num)
  refine ⟨t, hfr, h2, fun h => ?_⟩
  have := (C18_middle_iff_north 3 3 (by norm_num) _ _ 1 (cylinderExample 1 (Real.pi / 2)) hfr (by unfold cylinderExample; simp only; positivity)
    t ρ 0 h1 (by unfold cylinderExample; norm_num) h2 (by rw [h3]; unfold cylinderExample; ext <;> simp)).2
    ⟨rfl, by unfold cylinderExample; norm_num⟩
  rw [h] at this
  norm_num at this

/-- hypotheses of `C18_south_facing_lost` -/
example : ∃ t ρ : ℝ, 0 < ρ ∧ (cylinderExample (-1) Real.pi).Framed ∧
    (cylinderExample (-1) Real.pi).distance ((10 : ℝ) • ⟨0, -1, 0⟩) ((-1 : ℝ) • ⟨0, -1, 0⟩) = some t ∧
    (10 : ℝ) • (⟨0, -1, 0⟩ : V3 ℝ) + t • ((-1 : ℝ) • ⟨0, -1, 0⟩) =
      (cylinderExample (-1) Real.pi).center + ρ • (cylinderExample (-1) Real.pi).normal + (0 : ℝ) • (cylinderExample (-1) Real.pi).axis := by
  obtain ⟨t, ρ, h1, h2, h3⟩ := cylinderExample_hit (-1) Real.pi (by norm_num) ⟨0, -1, 0⟩ (by norm_num) rfl
  refine ⟨t, ρ, h1, cylinderExample_framed (-1) _ (by norm_num), h2, ?_⟩
  rw [h3]; unfold cylinderExample; ext <;> simp

/-- hypotheses of `C18_lost_quadrant`: a full cylinder hit from the south-west -/
example : ∃ t ρ : ℝ, 0 < ρ ∧ (cylinderExample 1 (2 * Real.pi)).distance ((10 : ℝ) • ⟨-Real.sin (3 * Real.pi / 4), Real.cos (3 * Real.pi / 4), 0⟩)
      ((-1 : ℝ) • ⟨-Real.sin (3 * Real.pi / 4), Real.cos (3 * Real.pi / 4), 0⟩) = some t ∧
    (10 : ℝ) • (⟨-Real.sin (3 * Real.pi / 4), Real.cos (3 * Real.pi / 4), 0⟩ : V3 ℝ) +
      t • ((-1 : ℝ) • ⟨-Real.sin (3 * Real.pi / 4), Real.cos (3 * Real.pi / 4), 0⟩) =
      (cylinderExample 1 (2 * Real.pi)).center + (ρ * Real.cos (3 * Real.pi / 4)) • (cylinderExample 1 (2 * Real.pi)).normal
      - (ρ * Real.sin (3 * Real.pi / 4)) • V3.cross (cylinderExample 1 (2 * Real.pi)).normal (cylinderExample 1 (2 * Real.pi)).axis
      + (0 : ℝ) • (cylinderExample 1 (2 * Real.pi)).axis := by
  obtain ⟨t, ρ, h1, h2, h3⟩ := cylinderExample_hit 1 (2 * Real.pi) (by norm_num) ⟨-Real.sin (3 * Real.pi / 4), Real.cos (3 * Real.pi / 4), 0⟩
    (by simp only [neg_sq]; exact Real.sin_sq_add_cos_sq _) rfl
  refine ⟨t, ρ, h1, h2, ?_⟩
  rw [h3]; unfold cylinderExample V3.cross; ext <;> simp

end Artist.Intersect
