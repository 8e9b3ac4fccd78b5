import Verif.Model.PaintTower
import Mathlib.Tactic.LinearCombination
import Mathlib.Tactic.Linarith
import Mathlib.Tactic.Positivity
import Mathlib.Tactic.FieldSimp
import Mathlib.Data.List.Forall2
/-! Helper lemmas for C77. -/
namespace Artist.PaintTower
open Artist Flatten

/-- The axis of an upright cylinder with this normal: the unit vector perpendicular to the normal that lies in the vertical plane of the normal and points up. -/
def IsAxis (n a : V3 ℝ) : Prop := V3.dot a a = 1 ∧ V3.dot a n = 0 ∧ V3.dot a (V3.cross n ⟨0, 0, 1⟩) = 0 ∧ 0 < a.u

theorem norm_smul (c : ℝ) (v : V3 ℝ) (hv : V3.dot v v = 1) : norm (c • v) = |c| := by
  unfold norm V3.normSq
  have : V3.dot (c • v) (c • v) = c ^ 2 * V3.dot v v := by unfold V3.dot; simp only [V3.smul_e, V3.smul_n, V3.smul_u]; ring
  rw [this, hv, mul_one, Real.sqrt_sq_eq_abs]

theorem axis_eq (n a : V3 ℝ) (hn : V3.dot n n = 1) (hs : (1 / 10 ^ 12 : ℝ) ≤ √(n.e ^ 2 + n.n ^ 2)) (ha : IsAxis n a) : cylinderAxis n = a := by
  obtain ⟨h1, h2, h3, h4⟩ := ha
  unfold V3.dot V3.cross at *
  dsimp only at h3
  set s := n.e ^ 2 + n.n ^ 2 with hs'
  have hspos : 0 < √s := lt_of_lt_of_le (by norm_num) hs
  have hs0 : 0 < s := Real.sqrt_pos.1 hspos
  have hsq : √s ^ 2 = s := Real.sq_sqrt hs0.le
  have hnu : n.u ^ 2 = 1 - s := by rw [hs']; linear_combination hn
  have hcol : a.e * n.n = a.n * n.e := by linear_combination h3
  have hau : a.u ^ 2 = s := by
    have e1 : s * (a.e ^ 2 + a.n ^ 2) = (a.u * n.u) ^ 2 := by
      have : (a.e * n.e + a.n * n.n) = -(a.u * n.u) := by linear_combination h2
      rw [show (a.u * n.u) ^ 2 = (a.e * n.e + a.n * n.n) ^ 2 by rw [this]; ring, hs']
      linear_combination (a.e * n.n - a.n * n.e) * hcol
    have e2 : a.e ^ 2 + a.n ^ 2 = 1 - a.u ^ 2 := by linear_combination h1
    rw [e2] at e1
    have : a.u ^ 2 * (n.u ^ 2 + s) = s := by linear_combination -e1
    rw [hnu] at this
    linarith
  have hau' : a.u = √s := by
    rw [← hau, Real.sqrt_sq h4.le]
  have hae : √s * a.e = -n.u * n.e := by
    have : s * a.e = n.e * (a.e * n.e + a.n * n.n) := by rw [hs']; linear_combination n.n * hcol
    have h5 : a.e * n.e + a.n * n.n = -(√s * n.u) := by rw [← hau']; linear_combination h2
    rw [h5] at this
    have : √s * (√s * a.e) = √s * (-n.u * n.e) := by linear_combination this + a.e * hsq
    exact mul_left_cancel₀ hspos.ne' this
  have han : √s * a.n = -n.u * n.n := by
    have : s * a.n = n.n * (a.e * n.e + a.n * n.n) := by rw [hs']; linear_combination -n.e * hcol
    have h5 : a.e * n.e + a.n * n.n = -(√s * n.u) := by rw [← hau']; linear_combination h2
    rw [h5] at this
    have : √s * (√s * a.n) = √s * (-n.u * n.n) := by linear_combination this + a.n * hsq
    exact mul_left_cancel₀ hspos.ne' this
  have hw : V3.cross (V3.cross n ⟨0, 0, 1⟩) n = √s • a := by
    unfold V3.cross
    ext
    · simp only [V3.smul_e]; rw [hae]; ring
    · simp only [V3.smul_n]; rw [han]; ring
    · simp only [V3.smul_u]; rw [hau', ← sq, hsq, hs']; ring
  unfold cylinderAxis normalize
  rw [hw, norm_smul _ a h1, abs_of_pos hspos, max_eq_left hs]
  ext
  · simp only [V3.smul_e]; field_simp
  · simp only [V3.smul_n]; field_simp
  · simp only [V3.smul_u]; field_simp

theorem cross_unit (n a : V3 ℝ) (hn : V3.dot n n = 1) (ha : V3.dot a a = 1) (h : V3.dot a n = 0) : V3.dot (V3.cross n a) (V3.cross n a) = 1 := by
  have : V3.dot (V3.cross n a) (V3.cross n a) = V3.dot n n * V3.dot a a - V3.dot a n ^ 2 := by unfold V3.dot V3.cross; ring
  rw [this, hn, ha, h]; ring

theorem distance_eq (r α : ℝ) (hr : 0 ≤ r) (t : V3 ℝ) (ht : V3.dot t t = 1) : distanceToCenter r ((-2 * r * Real.sin α) • t) = some (r * |Real.cos α|) := by
  unfold distanceToCenter
  rw [norm_smul _ t ht]
  have : r ^ 2 - (|(-2 * r * Real.sin α)| / 2) ^ 2 = (r * Real.cos α) ^ 2 := by
    rw [div_pow, sq_abs]
    linear_combination r ^ 2 * (1 - Real.sin_sq_add_cos_sq α) - r ^ 2 * 1 + r ^ 2
  rw [this, if_pos (sq_nonneg _), Real.sqrt_sq_eq_abs, abs_mul, abs_of_nonneg hr]

end Artist.PaintTower
