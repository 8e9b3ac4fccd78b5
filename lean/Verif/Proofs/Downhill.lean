import Verif.Spec.Downhill
import Verif.Props.Losses
import Verif.Props.FocalSpotLoss
import Mathlib.Analysis.Calculus.Deriv.Add
import Mathlib.Analysis.Calculus.Deriv.Mul
import Mathlib.Analysis.Calculus.Deriv.Inv
import Mathlib.Analysis.Calculus.Deriv.Pow
import Mathlib.Analysis.Calculus.Deriv.MeanValue
import Mathlib.Analysis.SpecialFunctions.Log.Deriv
import Mathlib.Analysis.SpecialFunctions.Sqrt
import Mathlib.Analysis.SpecialFunctions.Trigonometric.InverseDeriv
import Mathlib.Analysis.SpecialFunctions.Trigonometric.Deriv
/-! # Helper lemmas for C114 -/
namespace Artist.Downhill
open Artist Losses Set

theorem Falls.congr {f g : ℝ → ℝ} (h : Falls f) (e : ∀ t ∈ Icc (0 : ℝ) 1, g t = f t) : Falls g := by
  obtain ⟨h1, h2, d, hd, h3⟩ := h
  refine ⟨fun a ha b hb hab => ?_, ?_, d, hd, ?_⟩
  · rw [e a ha, e b hb]; exact h1 ha hb hab
  · rw [e 1 (by simp), h2]
  · refine h3.congr_of_eventuallyEq ?_ (e 0 (by simp))
    filter_upwards [self_mem_nhdsWithin, mem_nhdsWithin_of_mem_nhds (Iio_mem_nhds (zero_lt_one (α := ℝ)))] with t ht ht'
    exact e t ⟨ht, le_of_lt ht'⟩

theorem falls_square {c : ℝ} (hc : 0 < c) : Falls fun t => (1 - t) ^ 2 * c := by
  refine ⟨fun a ha b hb hab => ?_, by simp, -2 * c, by linarith, ?_⟩
  · have : (1 - b) ^ 2 < (1 - a) ^ 2 := pow_lt_pow_left₀ (by linarith) (by linarith [hb.2]) two_ne_zero
    exact mul_lt_mul_of_pos_right this hc
  · have : HasDerivWithinAt (fun t : ℝ => (1 - t) ^ 2 * c) (((2 : ℕ) * (1 - (0 : ℝ)) ^ (2 - 1) * -1) * c) (Ici 0) 0 :=
      (((hasDerivWithinAt_id 0 _).const_sub 1).pow 2).mul_const c
    convert this using 1
    norm_num

/-- the fraction of the way that is left for a weighted mean -/
theorem fraction {a b : ℝ} (ha : 0 < a) (hb : 0 < b) :
    let k := fun t : ℝ => (1 - t) * a / ((1 - t) * a + t * b)
    (StrictAntiOn k (Icc 0 1)) ∧ k 0 = 1 ∧ k 1 = 0 ∧ (∀ t ∈ Icc (0 : ℝ) 1, 0 ≤ k t ∧ k t ≤ 1) ∧ HasDerivWithinAt k (-(b / a)) (Ici 0) 0 := by
  intro k
  have pos : ∀ t ∈ Icc (0 : ℝ) 1, 0 < (1 - t) * a + t * b := fun t ht => by
    rcases eq_or_lt_of_le ht.1 with h | h
    · rw [← h]; simpa using ha
    · have := mul_nonneg (sub_nonneg.2 ht.2) ha.le
      have := mul_pos h hb
      linarith
  refine ⟨fun s hs t ht hst => ?_, by simp [k, ha.ne'], by simp [k], fun t ht => ⟨?_, ?_⟩, ?_⟩
  · show (1 - t) * a / _ < (1 - s) * a / _
    rw [div_lt_div_iff₀ (pos t ht) (pos s hs)]
    have : 0 < (t - s) * (a * b) := mul_pos (by linarith) (mul_pos ha hb)
    nlinarith
  · exact div_nonneg (mul_nonneg (sub_nonneg.2 ht.2) ha.le) (pos t ht).le
  · rw [div_le_one (pos t ht)]
    linarith [mul_nonneg ht.1 hb.le]
  · have n : HasDerivWithinAt (fun t : ℝ => (1 - t) * a) (-1 * a) (Ici 0) 0 := ((hasDerivWithinAt_id 0 _).const_sub 1).mul_const a
    have m : HasDerivWithinAt (fun t : ℝ => t * b) (1 * b) (Ici 0) 0 := (hasDerivWithinAt_id 0 _).mul_const b
    have := n.div (n.add m) (by simpa using ha.ne')
    refine HasDerivWithinAt.congr_deriv this ?_
    simp only [Pi.add_apply, sub_zero, one_mul, zero_mul, add_zero]
    field_simp
    ring


section images
open FocalSpotLoss Bitmap

theorem moment_blend (W H : Nat) (f : Nat → Nat → ℝ) (a b : Nat → Nat → ℝ) (t : ℝ) :
    moment W H (fun r c => (1 - t) * a r c + t * b r c) f = (1 - t) * moment W H a f + t * moment W H b f := by
  unfold moment
  rw [Finset.mul_sum, Finset.mul_sum, ← Finset.sum_add_distrib]
  refine Finset.sum_congr rfl fun r _ => ?_
  rw [Finset.mul_sum, Finset.mul_sum, ← Finset.sum_add_distrib]
  exact Finset.sum_congr rfl fun c _ => by ring

/-- the centre of brightness goes straight from one to the other -/
theorem spot_blend (eps : ℝ) (he : 0 < eps) (W H : Nat) (a b : Nat → Nat → ℝ) (ha : ∀ r c, r < H → c < W → 0 ≤ a r c) (hb : ∀ r c, r < H → c < W → 0 ≤ b r c) :
    ∃ A B : ℝ, 0 < A ∧ 0 < B ∧ ∀ t ∈ Icc (0 : ℝ) 1, let k := (1 - t) * A / ((1 - t) * A + t * B)
      centerOfMass eps W H (fun r c => (1 - t) * a r c + t * b r c) =
        (k * (centerOfMass eps W H a).1 + (1 - k) * (centerOfMass eps W H b).1, k * (centerOfMass eps W H a).2 + (1 - k) * (centerOfMass eps W H b).2) := by
  have ta := moment_nonneg W H a (fun _ _ => 1) ha (fun _ _ _ _ => zero_le_one)
  have tb := moment_nonneg W H b (fun _ _ => 1) hb (fun _ _ _ _ => zero_le_one)
  refine ⟨moment W H a (fun _ _ => 1) + eps, moment W H b (fun _ _ => 1) + eps, by linarith, by linarith, ?_⟩
  intro t ht k
  have pos : 0 < (1 - t) * (moment W H a (fun _ _ => 1) + eps) + t * (moment W H b (fun _ _ => 1) + eps) := by
    rcases eq_or_lt_of_le ht.1 with h | h
    · rw [← h]; linarith
    · have := mul_nonneg (sub_nonneg.2 ht.2) (show 0 ≤ moment W H a (fun _ _ => 1) + eps by linarith)
      have := mul_pos h (show 0 < moment W H b (fun _ _ => 1) + eps by linarith)
      linarith
  rw [centerOfMass_eq, centerOfMass_eq, centerOfMass_eq]
  simp only [moment_blend, k]
  have a0 : moment W H a (fun _ _ => 1) + eps ≠ 0 := by linarith
  have b0 : moment W H b (fun _ _ => 1) + eps ≠ 0 := by linarith
  generalize moment W H a (fun _ _ => 1) = u at *
  generalize moment W H b (fun _ _ => 1) = v at *
  have e : (1 - t) * u + t * v + eps = (1 - t) * (u + eps) + t * (v + eps) := by ring
  rw [e]
  have p0 := pos.ne'
  ext
  · simp only
    field_simp
    ring
  · simp only
    field_simp
    ring

/-- the difference of two points of a framed cylinder -/
theorem cylinder_distance (W H : Nat) (cyl : Intersect.Cylinder) (hf : cyl.Framed) (c d : ℝ × ℝ) :
    FocalSpotLoss.norm (toTarget W H (.cylindrical cyl) c - toTarget W H (.cylindrical cyl) d) =
      √((2 * cyl.radius * Real.sin ((c.1 - d.1) / W * cyl.opening / 2)) ^ 2 + ((c.2 - d.2) / H * cyl.height) ^ 2) := by
  obtain ⟨f1, f2, f3⟩ := hf
  unfold FocalSpotLoss.norm
  congr 1
  simp only [toTarget, Bitmap.toCylinder, V3.sub_e, V3.sub_n, V3.sub_u, V3.add_e, V3.add_n, V3.add_u, V3.smul_e, V3.smul_n, V3.smul_u]
  set α := ((c.1 + 1 / 2) / (W : ℝ) - 1 / 2) * cyl.opening with hα
  set β := ((d.1 + 1 / 2) / (W : ℝ) - 1 / 2) * cyl.opening with hβ
  set y := (1 / 2 - (c.2 + 1 / 2) / (H : ℝ)) * cyl.height with hy
  set z := (1 / 2 - (d.2 + 1 / 2) / (H : ℝ)) * cyl.height with hz
  have e1 : (c.1 - d.1) / W * cyl.opening / 2 = (α - β) / 2 := by rw [hα, hβ]; ring
  have e2 : ((c.2 - d.2) / H * cyl.height) ^ 2 = (y - z) ^ 2 := by rw [hy, hz]; ring
  have e3 : (2 * cyl.radius * Real.sin ((α - β) / 2)) ^ 2 = cyl.radius ^ 2 * ((Real.cos α - Real.cos β) ^ 2 + (Real.sin α - Real.sin β) ^ 2) := by
    have h1 : Real.sin ((α - β) / 2) ^ 2 = 1 / 2 - Real.cos (2 * ((α - β) / 2)) / 2 := Real.sin_sq_eq_half_sub _
    rw [show 2 * ((α - β) / 2) = α - β by ring, Real.cos_sub] at h1
    have s1 := Real.sin_sq_add_cos_sq α
    have s2 := Real.sin_sq_add_cos_sq β
    linear_combination (4 * cyl.radius ^ 2) * h1 - cyl.radius ^ 2 * s1 - cyl.radius ^ 2 * s2
  rw [e1, e2, e3]
  simp only [V3.normSq, V3.dot] at f1 f2 f3
  simp only [V3.cross]
  generalize cyl.normal.e = n0 at *
  generalize cyl.normal.n = n1 at *
  generalize cyl.normal.u = n2 at *
  generalize cyl.axis.e = a0 at *
  generalize cyl.axis.n = a1 at *
  generalize cyl.axis.u = a2 at *
  have hcc : (a1 * n2 - a2 * n1) ^ 2 + (a2 * n0 - a0 * n2) ^ 2 + (a0 * n1 - a1 * n0) ^ 2 = 1 := by
    have : (a1 * n2 - a2 * n1) ^ 2 + (a2 * n0 - a0 * n2) ^ 2 + (a0 * n1 - a1 * n0) ^ 2 =
      (n0 * n0 + n1 * n1 + n2 * n2) * (a0 * a0 + a1 * a1 + a2 * a2) - (n0 * a0 + n1 * a1 + n2 * a2) ^ 2 := by ring
    rw [this, f1, f2, f3]; ring
  linear_combination (cyl.radius ^ 2 * (Real.cos α - Real.cos β) ^ 2) * f1 + (cyl.radius ^ 2 * (Real.sin α - Real.sin β) ^ 2) * hcc + (y - z) ^ 2 * f2 +
    (2 * cyl.radius * (Real.cos α - Real.cos β) * (y - z)) * f3

end images


/-- the cosine on the way, from the products of the two ends -/
theorem cosine_way {a b x : ℝ} (hb : 0 < b) (hx : x ^ 2 < a * b) :
    let c := fun t : ℝ => ((1 - t) * x + t * b) / (√((1 - t) ^ 2 * a + 2 * t * (1 - t) * x + t ^ 2 * b) * √b)
    StrictMonoOn c (Icc 0 1) ∧ c 1 = 1 ∧ HasDerivAt c ((a * b - x ^ 2) / (a * √a * √b)) 0 := by
  intro c
  have ha : 0 < a := by
    by_contra h
    have := mul_nonpos_of_nonpos_of_nonneg (not_lt.1 h) hb.le
    linarith [sq_nonneg x]
  have pos : ∀ t, 0 < (1 - t) ^ 2 * a + 2 * t * (1 - t) * x + t ^ 2 * b := by
    intro t
    have h : b * ((1 - t) ^ 2 * a + 2 * t * (1 - t) * x + t ^ 2 * b) = (t * b + (1 - t) * x) ^ 2 + (1 - t) ^ 2 * (a * b - x ^ 2) := by ring
    have h1 : 0 < b * ((1 - t) ^ 2 * a + 2 * t * (1 - t) * x + t ^ 2 * b) := by
      rw [h]
      by_cases ht : t = 1
      · rw [ht]; norm_num; positivity
      · have : 0 < (1 - t) ^ 2 := by have : 1 - t ≠ 0 := sub_ne_zero.2 (Ne.symm ht); positivity
        have := mul_pos this (sub_pos.2 hx)
        have := sq_nonneg (t * b + (1 - t) * x)
        linarith
    exact pos_of_mul_pos_right h1 hb.le
  have der : ∀ t, HasDerivAt c ((1 - t) * (a * b - x ^ 2) / (((1 - t) ^ 2 * a + 2 * t * (1 - t) * x + t ^ 2 * b) * √((1 - t) ^ 2 * a + 2 * t * (1 - t) * x + t ^ 2 * b) * √b)) t := by
    intro t
    have i := hasDerivAt_id t
    have n : HasDerivAt (fun t : ℝ => (1 - t) * x + t * b) (-1 * x + 1 * b) t := ((i.const_sub 1).mul_const x).add (i.mul_const b)
    have q : HasDerivAt (fun t : ℝ => (1 - t) ^ 2 * a + 2 * t * (1 - t) * x + t ^ 2 * b)
        (-2 * (1 - t) * a + 2 * (1 - 2 * t) * x + 2 * t * b) t := by
      have := ((((i.const_sub 1).pow 2).mul_const a).add (((i.const_mul 2).mul (i.const_sub 1)).mul_const x)).add ((i.pow 2).mul_const b)
      refine HasDerivAt.congr_deriv this ?_
      simp only [id]
      push_cast
      ring
    have p := pos t
    have r := (q.sqrt p.ne').mul_const √b
    have sb : 0 < √b := Real.sqrt_pos.2 hb
    have sq := Real.sqrt_pos.2 p
    have e := n.div r (by positivity)
    refine HasDerivAt.congr_deriv e ?_
    have hq := Real.mul_self_sqrt p.le
    generalize hS : √((1 - t) ^ 2 * a + 2 * t * (1 - t) * x + t ^ 2 * b) = S at *
    have p' := p.ne'
    have sb' := sb.ne'
    have sq' := sq.ne'
    rw [← hq]
    field_simp
    have hq2 : S ^ 2 = (1 - t) ^ 2 * a + 2 * t * (1 - t) * x + t ^ 2 * b := by rw [pow_two, hq]
    linear_combination (-x + b) * hq2
  refine ⟨?_, ?_, ?_⟩
  · refine strictMonoOn_of_deriv_pos (convex_Icc 0 1) (fun t _ => (der t).continuousAt.continuousWithinAt) ?_
    intro t ht
    rw [interior_Icc] at ht
    rw [(der t).deriv]
    have := pos t
    have := Real.sqrt_pos.2 this
    have := Real.sqrt_pos.2 hb
    exact div_pos (mul_pos (sub_pos.2 ht.2) (sub_pos.2 hx)) (by positivity)
  · have := Real.mul_self_sqrt hb.le
    have := Real.sqrt_pos.2 hb
    simp only [c]
    norm_num
    rw [Real.mul_self_sqrt hb.le, div_self hb.ne']
  · refine HasDerivAt.congr_deriv (der 0) ?_
    norm_num

section vectors
variable {ι : Type} [Fintype ι]

theorem way_norm (p g : ι → ℝ) (t : ℝ) : norm2 (way p g t) = √((1 - t) ^ 2 * ∑ i, p i ^ 2 + 2 * t * (1 - t) * ∑ i, p i * g i + t ^ 2 * ∑ i, g i ^ 2) := by
  unfold norm2 way
  congr 1
  rw [Finset.mul_sum, Finset.mul_sum, Finset.mul_sum, ← Finset.sum_add_distrib, ← Finset.sum_add_distrib]
  exact Finset.sum_congr rfl fun i _ => by ring

theorem way_dot (p g : ι → ℝ) (t : ℝ) : ∑ i, way p g t i * g i = (1 - t) * ∑ i, p i * g i + t * ∑ i, g i ^ 2 := by
  unfold way
  rw [Finset.mul_sum, Finset.mul_sum, ← Finset.sum_add_distrib]
  exact Finset.sum_congr rfl fun i _ => by ring

/-- no parallel vectors, if the way avoids zero and the cosine is not one -/
theorem not_parallel (eps : ℝ) (he : 0 < eps) (p g : ι → ℝ) (hw : ∀ t ∈ Icc (0 : ℝ) 1, eps ≤ norm2 (way p g t))
    (hl : (∑ i, p i * g i) / (norm2 p * norm2 g) < 1) : (∑ i, p i * g i) ^ 2 < (∑ i, p i ^ 2) * ∑ i, g i ^ 2 := by
  have w0 : way p g 0 = p := by funext i; simp [way]
  have w1 : way p g 1 = g := by funext i; simp [way]
  have hp : 0 < norm2 p := he.trans_le (by have := hw 0 (by simp); rwa [w0] at this)
  have hg : 0 < norm2 g := he.trans_le (by have := hw 1 (by simp); rwa [w1] at this)
  have sp : norm2 p ^ 2 = ∑ i, p i ^ 2 := Real.sq_sqrt (Finset.sum_nonneg fun i _ => sq_nonneg _)
  have sg : norm2 g ^ 2 = ∑ i, g i ^ 2 := Real.sq_sqrt (Finset.sum_nonneg fun i _ => sq_nonneg _)
  rw [div_lt_one (mul_pos hp hg)] at hl
  have hn : -(norm2 p * norm2 g) < ∑ i, p i * g i := by
    by_contra h
    rw [not_lt] at h
    have hs : 0 < norm2 p + norm2 g := by linarith
    have ht := hw (norm2 p / (norm2 p + norm2 g)) ⟨by positivity, by rw [div_le_one hs]; linarith⟩
    rw [way_norm, ← sp, ← sg] at ht
    generalize norm2 p = u at *
    generalize norm2 g = v at *
    generalize ∑ i, p i * g i = x at *
    have : (1 - u / (u + v)) ^ 2 * u ^ 2 + 2 * (u / (u + v)) * (1 - u / (u + v)) * x + (u / (u + v)) ^ 2 * v ^ 2 ≤ 0 := by
      have e : (1 - u / (u + v)) ^ 2 * u ^ 2 + 2 * (u / (u + v)) * (1 - u / (u + v)) * x + (u / (u + v)) ^ 2 * v ^ 2 = 2 * (u * v) * (u * v + x) / (u + v) ^ 2 := by
        field_simp
        ring
      rw [e]
      exact div_nonpos_of_nonpos_of_nonneg (mul_nonpos_of_nonneg_of_nonpos (by positivity) (by linarith)) (by positivity)
    rw [Real.sqrt_eq_zero_of_nonpos this] at ht
    linarith
  rw [← sp, ← sg, ← mul_pow]
  exact sq_lt_sq' hn hl

/-- the cosine between the prediction on the way and the truth -/
theorem ratio_way (p g : ι → ℝ) (t : ℝ) : (∑ i, way p g t i * g i) / (norm2 (way p g t) * norm2 g) =
    ((1 - t) * (∑ i, p i * g i) + t * ∑ i, g i ^ 2) / (√((1 - t) ^ 2 * (∑ i, p i ^ 2) + 2 * t * (1 - t) * (∑ i, p i * g i) + t ^ 2 * ∑ i, g i ^ 2) * √(∑ i, g i ^ 2)) := by
  rw [way_dot, way_norm]; rfl

end vectors


/-- the distance of two points of a cylinder whose distance in height and angle is reduced evenly -/
theorem chord {R α ζ : ℝ} (hR : 0 < R) (hα : |α| < Real.pi / 2) (h : √((2 * R * Real.sin α) ^ 2 + ζ ^ 2) ≠ 0) :
    let L := fun k : ℝ => √((2 * R * Real.sin (k * α)) ^ 2 + (k * ζ) ^ 2)
    StrictMonoOn L (Icc 0 1) ∧ L 0 = 0 ∧ ∃ d > 0, HasDerivAt L d 1 := by
  intro L
  have h0 : 0 < (2 * R * Real.sin α) ^ 2 + ζ ^ 2 := lt_of_le_of_ne (by positivity) (fun e => h (by rw [← e, Real.sqrt_zero]))
  have sinle : ∀ k ∈ Icc (0 : ℝ) 1, |Real.sin (k * α)| = Real.sin (k * |α|) := by
    intro k hk
    have b : 0 ≤ k * |α| := mul_nonneg hk.1 (abs_nonneg _)
    have b2 : k * |α| ≤ |α| := by have := mul_le_mul_of_nonneg_right hk.2 (abs_nonneg α); linarith
    have p := Real.sin_nonneg_of_nonneg_of_le_pi b (by linarith [Real.pi_pos])
    rcases abs_choice α with e | e
    · rw [e] at p ⊢; exact abs_of_nonneg p
    · rw [e, mul_neg, Real.sin_neg] at p
      rw [e, mul_neg, Real.sin_neg]
      exact abs_of_nonpos (by linarith)
  have cosα : 0 < Real.cos α := Real.cos_pos_of_mem_Ioo (abs_lt.1 hα)
  refine ⟨fun s hs t ht hst => ?_, by simp [L], ?_⟩
  · refine Real.sqrt_lt_sqrt (by positivity) ?_
    have z : (s * ζ) ^ 2 ≤ (t * ζ) ^ 2 := by
      rw [mul_pow, mul_pow]; exact mul_le_mul_of_nonneg_right (pow_le_pow_left₀ hs.1 hst.le 2) (sq_nonneg _)
    have e : ∀ k ∈ Icc (0 : ℝ) 1, (2 * R * Real.sin (k * α)) ^ 2 = (2 * R * Real.sin (k * |α|)) ^ 2 := fun k hk => by
      rw [← sinle k hk, mul_pow, mul_pow _ |_|, sq_abs]
    rw [e s hs, e t ht]
    by_cases ha : α = 0
    · subst ha
      have hz : ζ ≠ 0 := by rintro rfl; simp at h0
      have : (s * ζ) ^ 2 < (t * ζ) ^ 2 := by
        rw [mul_pow, mul_pow]; exact mul_lt_mul_of_pos_right (pow_lt_pow_left₀ hst hs.1 two_ne_zero) (by positivity)
      simpa using this
    · have ap : 0 < |α| := abs_pos.2 ha
      have s0 : 0 ≤ s * |α| := mul_nonneg hs.1 ap.le
      have t1 : t * |α| ≤ |α| := by have := mul_le_mul_of_nonneg_right ht.2 ap.le; linarith
      have st : s * |α| < t * |α| := mul_lt_mul_of_pos_right hst ap
      have := Real.sin_lt_sin_of_lt_of_le_pi_div_two (by linarith [Real.pi_pos]) (by linarith) st
      have p := Real.sin_nonneg_of_nonneg_of_le_pi s0 (by linarith [Real.pi_pos])
      have : (2 * R * Real.sin (s * |α|)) ^ 2 < (2 * R * Real.sin (t * |α|)) ^ 2 :=
        pow_lt_pow_left₀ (mul_lt_mul_of_pos_left this (by positivity)) (by positivity) two_ne_zero
      linarith
  · have i := hasDerivAt_id (1 : ℝ)
    have d1 : HasDerivAt (fun k : ℝ => (2 * R * Real.sin (k * α)) ^ 2) (2 * (2 * R * Real.sin α) * (2 * R * (Real.cos α * α))) 1 := by
      have := ((((i.mul_const α).sin).const_mul (2 * R)).pow 2)
      refine HasDerivAt.congr_deriv this ?_
      simp only [id]
      push_cast
      rw [one_mul]
      ring
    have d2 : HasDerivAt (fun k : ℝ => (k * ζ) ^ 2) (2 * ζ * ζ) 1 := by
      have := ((i.mul_const ζ).pow 2)
      refine HasDerivAt.congr_deriv this ?_
      simp only [id]
      push_cast
      ring
    have d := (d1.add d2).sqrt (by simpa using h0.ne')
    refine ⟨_, ?_, d⟩
    refine div_pos ?_ (mul_pos two_pos (Real.sqrt_pos.2 (by simpa using h0)))
    have sa : 0 ≤ Real.sin α * α := by
      rcases le_total 0 α with ha | ha
      · exact mul_nonneg (Real.sin_nonneg_of_nonneg_of_le_pi ha (by linarith [abs_lt.1 hα, Real.pi_pos])) ha
      · exact mul_nonneg_of_nonpos_of_nonpos (Real.sin_nonpos_of_nonpos_of_neg_pi_le ha (by linarith [abs_lt.1 hα, Real.pi_pos])) ha
    by_cases ha : α = 0
    · subst ha
      have hz : ζ ≠ 0 := by rintro rfl; simp at h0
      have : 0 < ζ * ζ := mul_self_pos.2 hz
      rw [Real.sin_zero]
      linarith
    · have : Real.sin α * α ≠ 0 := by
        refine mul_ne_zero (fun e => ha ?_) ha
        have := abs_lt.1 hα
        exact (Real.sin_eq_zero_iff_of_lt_of_lt (by linarith [Real.pi_pos]) (by linarith [Real.pi_pos])).1 e
      have sp : 0 < Real.sin α * α := lt_of_le_of_ne sa this.symm
      have : 2 * (2 * R * Real.sin α) * (2 * R * (Real.cos α * α)) = 8 * R ^ 2 * Real.cos α * (Real.sin α * α) := by ring
      rw [this]
      have := mul_self_nonneg ζ
      have : 0 < 8 * R ^ 2 * Real.cos α * (Real.sin α * α) := by positivity
      linarith

theorem falls_comp {L : ℝ → ℝ} (m : StrictMonoOn L (Icc 0 1)) (h0 : L 0 = 0) {d : ℝ} (hd : 0 < d) (h1 : HasDerivAt L d 1) {a b : ℝ} (ha : 0 < a) (hb : 0 < b) :
    Falls fun t => L ((1 - t) * a / ((1 - t) * a + t * b)) := by
  obtain ⟨k1, k2, k3, k4, k5⟩ := fraction ha hb
  refine ⟨fun s hs t ht hst => m (k4 t ht) (k4 s hs) (k1 hs ht hst), by simpa using h0, d * -(b / a), mul_neg_of_pos_of_neg hd (neg_neg_of_pos (div_pos hb ha)), ?_⟩
  have h1' : HasDerivAt L d ((fun t : ℝ => (1 - t) * a / ((1 - t) * a + t * b)) 0) := by rw [k2]; exact h1
  exact h1'.comp_hasDerivWithinAt 0 k5

end Artist.Downhill
