import Verif.Model.FocalSpotLoss
import Verif.Props.Bitmap
/-! Helper lemmas for C72. -/
namespace Artist.FocalSpotLoss
open Artist Real

theorem hypot_lip (x y x' y' : ℝ) : √(x ^ 2 + y ^ 2) ≤ √(x' ^ 2 + y' ^ 2) + (|x - x'| + |y - y'|) := by
  have hs0 := sqrt_nonneg (x' ^ 2 + y' ^ 2)
  have hs : √(x' ^ 2 + y' ^ 2) ^ 2 = x' ^ 2 + y' ^ 2 := sq_sqrt (by positivity)
  have h1 : |x'| ≤ √(x' ^ 2 + y' ^ 2) := abs_le_sqrt (by nlinarith [sq_nonneg y'])
  have h2 : |y'| ≤ √(x' ^ 2 + y' ^ 2) := abs_le_sqrt (by nlinarith [sq_nonneg x'])
  have ax : |x| ≤ |x'| + |x - x'| := by
    have := abs_add_le x' (x - x'); rwa [add_sub_cancel] at this
  have ay : |y| ≤ |y'| + |y - y'| := by
    have := abs_add_le y' (y - y'); rwa [add_sub_cancel] at this
  have ha := abs_nonneg (x - x')
  have hb := abs_nonneg (y - y')
  have hx' := abs_nonneg x'
  have hy' := abs_nonneg y'
  generalize √(x' ^ 2 + y' ^ 2) = s at *
  refine sqrt_le_iff.2 ⟨by positivity, ?_⟩
  have e1 : x ^ 2 ≤ (|x'| + |x - x'|) ^ 2 := by rw [← sq_abs x]; exact pow_le_pow_left₀ (abs_nonneg x) ax 2
  have e2 : y ^ 2 ≤ (|y'| + |y - y'|) ^ 2 := by rw [← sq_abs y]; exact pow_le_pow_left₀ (abs_nonneg y) ay 2
  have e3 : |x'| ^ 2 = x' ^ 2 := sq_abs x'
  have e4 : |y'| ^ 2 = y' ^ 2 := sq_abs y'
  nlinarith [mul_le_mul_of_nonneg_right h1 ha, mul_le_mul_of_nonneg_right h2 hb, mul_nonneg ha hb]

theorem abs_hypot (x y x' y' a b : ℝ) (ha : |x - x'| ≤ a) (hb : |y - y'| ≤ b) : |√(x ^ 2 + y ^ 2) - √(x' ^ 2 + y' ^ 2)| ≤ a + b := by
  have h1 := hypot_lip x y x' y'
  have h2 := hypot_lip x' y' x y
  rw [abs_sub_comm x' x, abs_sub_comm y' y] at h2
  rw [abs_le]; constructor <;> linarith

theorem norm_eq_zero {v : V3 ℝ} : norm v = 0 ↔ v.e = 0 ∧ v.n = 0 ∧ v.u = 0 := by
  unfold norm
  rw [sqrt_eq_zero (by positivity)]
  constructor
  · intro h
    refine ⟨?_, ?_, ?_⟩ <;> apply pow_eq_zero_iff (two_ne_zero) |>.1 <;> nlinarith [sq_nonneg v.e, sq_nonneg v.n, sq_nonneg v.u]
  · rintro ⟨h1, h2, h3⟩; rw [h1, h2, h3]; ring

theorem plane_diff (W H : Nat) (p : Intersect.Plane ℝ) (c d : ℝ × ℝ) :
    toTarget W H (.planar p) c - toTarget W H (.planar p) d =
      ⟨p.width * ((d.1 - c.1) / W), 0, p.height * ((d.2 - c.2) / H)⟩ := by
  simp only [toTarget, Bitmap.toPlane]
  ext <;> simp <;> ring

theorem abs_sub_sub (a b a' b' r s : ℝ) (h1 : |a - a'| ≤ r) (h2 : |b - b'| ≤ s) : |a - b - (a' - b')| ≤ r + s := by
  rw [abs_le] at *; constructor <;> linarith [h1.1, h1.2, h2.1, h2.2]

end Artist.FocalSpotLoss
