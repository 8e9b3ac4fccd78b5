import Verif.Proofs.Downhill
import Mathlib.Tactic.FinCases
/-!
# C114: moving a prediction towards a perfect one always lowers the loss

`way` goes straight from the prediction to a perfect one; `Falls` says that the loss falls all the way down to zero, and that the slope at the beginning is not zero.
-/
namespace Artist.Downhill
open Artist Losses Set

section
variable {ι : Type} [Fintype ι]

theorem way_vector (p g : ι → ℝ) (t : ℝ) : vector (way p g t) g = (1 - t) ^ 2 * vector p g := by
  unfold vector way
  rw [Finset.mul_sum]
  exact Finset.sum_congr rfl fun i _ => by ring

/-- C114, vector loss: all predictions and measurements. -/
theorem C114_vector (p g : ι → ℝ) (h : vector p g ≠ 0) : Falls fun t => vector (way p g t) g :=
  (falls_square (lt_of_le_of_ne (C37_vector p g).1 h.symm)).congr fun t _ => way_vector p g t

/-- C114, pixel loss: all images with a measurement that is not dark. -/
theorem C114_pixel (p g : ι → ℝ) (hg : 0 < ∑ i, g i) (h : pixel p g ≠ 0) : Falls fun t => pixel (way p g t) g := by
  refine (falls_square (lt_of_le_of_ne (C37_pixel p g hg).1 h.symm)).congr fun t _ => ?_
  show vector (way p g t) g / _ = _ * (vector p g / _)
  rw [way_vector, mul_div_assoc]

/-- C114, Kullback-Leibler divergence: all images that are not dark.  As the loss does not depend on the overall brightness, the way ends at the measurement with the brightness of
the prediction. -/
theorem C114_kl (eps : ℝ) (he : 0 < eps) (p g : ι → ℝ) (hp : ∀ i, 0 ≤ p i) (hg : ∀ i, 0 ≤ g i) (hsp : eps ≤ ∑ i, p i) (hsg : eps ≤ ∑ i, g i) (h : kl eps p g ≠ 0) :
    Falls fun t => kl eps (way p (fun i => (∑ j, p j) / (∑ j, g j) * g i) t) g := by
  have hP : 0 < ∑ i, p i := he.trans_le hsp
  have hG : 0 < ∑ i, g i := he.trans_le hsg
  obtain ⟨ng, -⟩ := normalizeL1_sum eps he g hg hsg
  set P := ∑ i, p i with hPd
  set G := ∑ i, g i with hGd
  have sn : ∑ i, p i / P = 1 := by rw [← Finset.sum_div, ← hPd, div_self hP.ne']
  have sm : ∑ i, g i / G = 1 := by rw [← Finset.sum_div, ← hGd, div_self hG.ne']
  obtain ⟨j, hj⟩ : ∃ j, p j / P ≠ g j / G := by
    by_contra hc
    push Not at hc
    exact h ((C37_kl_zero_iff eps he p g hp hg hsp hsg).2 hc)
  have n0 : ∀ i, 0 ≤ p i / P := fun i => div_nonneg (hp i) hP.le
  have m0 : ∀ i, 0 ≤ g i / G := fun i => div_nonneg (hg i) hG.le
  have val : ∀ t ∈ Icc (0 : ℝ) 1, kl eps (way p (fun i => P / G * g i) t) g =
      ∑ i, (g i / G + eps) * (Real.log (g i / G + eps) - Real.log ((1 - t) * (p i / P) + t * (g i / G) + eps)) := by
    intro t ht
    have w0 : ∀ i, 0 ≤ way p (fun i => P / G * g i) t i := fun i =>
      add_nonneg (mul_nonneg (sub_nonneg.2 ht.2) (hp i)) (mul_nonneg ht.1 (mul_nonneg (div_nonneg hP.le hG.le) (hg i)))
    have ws : ∑ i, way p (fun i => P / G * g i) t i = P := by
      unfold way
      rw [Finset.sum_add_distrib, ← Finset.mul_sum, ← Finset.mul_sum, ← Finset.mul_sum, ← hPd, ← hGd, div_mul_cancel₀ _ hG.ne']
      ring
    obtain ⟨nw, -⟩ := normalizeL1_sum eps he _ w0 (by rw [ws]; exact hsp)
    unfold kl
    refine Finset.sum_congr rfl fun i _ => ?_
    rw [nw, ng, ws, klPoint, Real.exp_log (by linarith [m0 i])]
    congr 4
    unfold way
    have := hP.ne'
    have := hG.ne'
    field_simp
  obtain ⟨n, hn⟩ : ∃ n : ι → ℝ, ∀ i, n i = p i / P := ⟨_, fun _ => rfl⟩
  obtain ⟨m, hm⟩ : ∃ m : ι → ℝ, ∀ i, m i = g i / G := ⟨_, fun _ => rfl⟩
  simp only [← hn, ← hm] at sn sm hj n0 m0 val
  refine Falls.congr ?_ val
  have pos : ∀ t ∈ Icc (0 : ℝ) 1, ∀ i, 0 < (1 - t) * n i + t * m i + eps := fun t ht i => by
    have := mul_nonneg (sub_nonneg.2 ht.2) (n0 i)
    have := mul_nonneg ht.1 (m0 i)
    linarith
  have der : ∀ t ∈ Icc (0 : ℝ) 1, HasDerivAt (fun t => ∑ i, (m i + eps) * (Real.log (m i + eps) - Real.log ((1 - t) * n i + t * m i + eps)))
      (-((1 - t) * ∑ i, (m i - n i) ^ 2 / ((1 - t) * n i + t * m i + eps))) t := by
    intro t ht
    have d : HasDerivAt (fun t => ∑ i, (m i + eps) * (Real.log (m i + eps) - Real.log ((1 - t) * n i + t * m i + eps)))
        (∑ i, (m i + eps) * -((-1 * n i + 1 * m i) / ((1 - t) * n i + t * m i + eps))) t := by
      refine HasDerivAt.fun_sum fun i _ => HasDerivAt.const_mul _ (HasDerivAt.const_sub _ ?_)
      refine HasDerivAt.log ?_ (pos t ht i).ne'
      exact ((((hasDerivAt_id t).const_sub 1).mul_const (n i)).add ((hasDerivAt_id t).mul_const (m i))).add_const eps
    refine d.congr_deriv ?_
    have e : ∀ i, (m i + eps) * -((-1 * n i + 1 * m i) / ((1 - t) * n i + t * m i + eps)) =
        -(m i - n i) + -((1 - t) * ((m i - n i) ^ 2 / ((1 - t) * n i + t * m i + eps))) := fun i => by
      have hx := (pos t ht i).ne'
      obtain ⟨y, hy⟩ : ∃ y, y = (1 - t) * n i + t * m i + eps := ⟨_, rfl⟩
      rw [← hy] at hx ⊢
      have e : m i + eps = y + (1 - t) * (m i - n i) := by rw [hy]; ring
      rw [e]
      field_simp
      ring
    rw [Finset.sum_congr rfl fun i _ => e i, Finset.sum_add_distrib, Finset.sum_neg_distrib, Finset.sum_neg_distrib, Finset.sum_sub_distrib, sn, sm, ← Finset.mul_sum]
    ring
  have sp : ∀ t ∈ Icc (0 : ℝ) 1, 0 < ∑ i, (m i - n i) ^ 2 / ((1 - t) * n i + t * m i + eps) := fun t ht => by
    refine Finset.sum_pos' (fun i _ => div_nonneg (sq_nonneg _) (pos t ht i).le) ⟨j, Finset.mem_univ j, div_pos ?_ (pos t ht j)⟩
    have : m j - n j ≠ 0 := sub_ne_zero.2 (Ne.symm hj)
    positivity
  refine ⟨strictAntiOn_of_deriv_neg (convex_Icc 0 1) (fun t ht => (der t ht).continuousAt.continuousWithinAt) ?_, ?_, _, ?_, (der 0 (by simp)).hasDerivWithinAt⟩
  · intro t ht
    rw [interior_Icc] at ht
    have ht' : t ∈ Icc (0 : ℝ) 1 := ⟨ht.1.le, ht.2.le⟩
    rw [(der t ht').deriv]
    exact neg_neg_of_pos (mul_pos (sub_pos.2 ht.2) (sp t ht'))
  · refine Finset.sum_eq_zero fun i _ => ?_
    rw [show (1 - 1 : ℝ) * n i + 1 * m i + eps = m i + eps by ring, sub_self, mul_zero]
  · exact neg_neg_of_pos (mul_pos (by norm_num) (sp 0 (by simp)))

/-- C114, cosine similarity: all vectors, as long as the way keeps away from zero. -/
theorem C114_cosine (eps : ℝ) (he : 0 < eps) (p g : ι → ℝ) (hw : ∀ t ∈ Icc (0 : ℝ) 1, eps ≤ norm2 (way p g t)) (h : cosine eps p g ≠ 0) :
    Falls fun t => cosine eps (way p g t) g := by
  have w0 : way p g 0 = p := by funext i; simp [way]
  have w1 : way p g 1 = g := by funext i; simp [way]
  have hp : eps ≤ norm2 p := by have := hw 0 (by simp); rwa [w0] at this
  have hg : eps ≤ norm2 g := by have := hw 1 (by simp); rwa [w1] at this
  have hg0 : 0 < ∑ i, g i ^ 2 := Real.sqrt_pos.1 (he.trans_le hg)
  have val : ∀ t ∈ Icc (0 : ℝ) 1, cosine eps (way p g t) g = 1 - (∑ i, way p g t i * g i) / (norm2 (way p g t) * norm2 g) := fun t ht => by
    unfold cosine; rw [max_eq_left (hw t ht), max_eq_left hg]
  have hlt : (∑ i, p i * g i) / (norm2 p * norm2 g) < 1 := by
    have := val 0 (by simp)
    rw [w0] at this
    have h0 := lt_of_le_of_ne (C37_cosine eps he p g).1 h.symm
    linarith
  have hx := not_parallel eps he p g hw hlt
  obtain ⟨c1, c2, c3⟩ := cosine_way hg0 hx
  refine Falls.congr (f := fun t => 1 - _) ⟨fun s hs t ht hst => sub_lt_sub_left (c1 hs ht hst) 1, sub_eq_zero.2 c2.symm, _, ?_, (c3.const_sub 1).hasDerivWithinAt⟩
    (fun t ht => by rw [val t ht, ratio_way])
  have ha0 : 0 < ∑ i, p i ^ 2 := Real.sqrt_pos.1 (he.trans_le hp)
  have := Real.sqrt_pos.2 ha0
  have := Real.sqrt_pos.2 hg0
  have := sub_pos.2 hx
  exact neg_neg_of_pos (by positivity)

/-- C114, angle: all vectors, as long as the way keeps away from zero. -/
theorem C114_angle (eps : ℝ) (he : 0 < eps) (p g : ι → ℝ) (hw : ∀ t ∈ Icc (0 : ℝ) 1, eps ≤ norm2 (way p g t)) (h : angle eps p g ≠ 0) :
    Falls fun t => angle eps (way p g t) g := by
  have w0 : way p g 0 = p := by funext i; simp [way]
  have w1 : way p g 1 = g := by funext i; simp [way]
  have hp : eps ≤ norm2 p := by have := hw 0 (by simp); rwa [w0] at this
  have hg : eps ≤ norm2 g := by have := hw 1 (by simp); rwa [w1] at this
  have hg0 : 0 < ∑ i, g i ^ 2 := Real.sqrt_pos.1 (he.trans_le hg)
  have ha0 : 0 < ∑ i, p i ^ 2 := Real.sqrt_pos.1 (he.trans_le hp)
  have val : ∀ t ∈ Icc (0 : ℝ) 1, angle eps (way p g t) g = Real.arccos ((∑ i, way p g t i * g i) / (norm2 (way p g t) * norm2 g)) := fun t ht => by
    have e : ∑ i, normalizeL2 eps (way p g t) i * normalizeL2 eps g i = (∑ i, way p g t i * g i) / (norm2 (way p g t) * norm2 g) := by
      unfold normalizeL2
      rw [max_eq_left (hw t ht), max_eq_left hg, Finset.sum_div]
      exact Finset.sum_congr rfl fun i _ => div_mul_div_comm _ _ _ _
    unfold angle
    rw [e]
    generalize (∑ i, way p g t i * g i) / (norm2 (way p g t) * norm2 g) = y
    rcases le_total y (-1) with h1 | h1
    · rw [max_eq_right h1, min_eq_left (by norm_num), Real.arccos_neg_one, Real.arccos_of_le_neg_one h1]
    · rw [max_eq_left h1]
      rcases le_total y 1 with h2 | h2
      · rw [min_eq_left h2]
      · rw [min_eq_right h2, Real.arccos_one, Real.arccos_of_one_le h2]
  have hlt : (∑ i, p i * g i) / (norm2 p * norm2 g) < 1 := by
    by_contra hc
    have := val 0 (by simp)
    rw [w0, Real.arccos_of_one_le (not_lt.1 hc)] at this
    exact h this
  have hx := not_parallel eps he p g hw hlt
  obtain ⟨c1, c2, c3⟩ := cosine_way hg0 hx
  beta_reduce at c2
  have sa := Real.sqrt_pos.2 ha0
  have sb := Real.sqrt_pos.2 hg0
  obtain ⟨c, hc⟩ : ∃ c : ℝ → ℝ, c = fun t : ℝ => ((1 - t) * (∑ i, p i * g i) + t * ∑ i, g i ^ 2) /
      (√((1 - t) ^ 2 * (∑ i, p i ^ 2) + 2 * t * (1 - t) * (∑ i, p i * g i) + t ^ 2 * ∑ i, g i ^ 2) * √(∑ i, g i ^ 2)) := ⟨_, rfl⟩
  have cv : ∀ t, (∑ i, way p g t i * g i) / (norm2 (way p g t) * norm2 g) = c t := fun t => by rw [hc]; exact ratio_way p g t
  have c1' : StrictMonoOn c (Icc 0 1) := by rw [hc]; exact c1
  have c2' : c 1 = 1 := by rw [hc]; exact c2
  rw [← hc] at c3
  have c0 : -1 < c 0 := by
    rw [← cv 0, w0, lt_div_iff₀ (mul_pos (he.trans_le hp) (he.trans_le hg))]
    have : norm2 p * norm2 g = √((∑ i, p i ^ 2) * ∑ i, g i ^ 2) := (Real.sqrt_mul ha0.le _).symm
    rw [this]
    have : -∑ i, p i * g i < √((∑ i, p i ^ 2) * ∑ i, g i ^ 2) := Real.lt_sqrt_of_sq_lt (by rw [neg_sq]; exact hx)
    linarith
  refine Falls.congr (f := fun t => Real.arccos (c t)) ⟨fun s hs t ht hst => ?_, ?_, _, ?_, ((Real.hasDerivAt_arccos c0.ne' ?_).comp 0 c3).hasDerivWithinAt⟩
    (fun t ht => by rw [val t ht, cv])
  · have l : ∀ u ∈ Icc (0 : ℝ) 1, c u ∈ Icc (-1 : ℝ) 1 := fun u hu =>
      ⟨c0.le.trans (c1'.monotoneOn (by simp) hu hu.1), c2' ▸ c1'.monotoneOn hu (by simp) hu.2⟩
    exact Real.strictAntiOn_arccos (l s hs) (l t ht) (c1' hs ht hst)
  · rw [c2', Real.arccos_one]
  · have hc0 : c 0 < 1 := c2' ▸ c1' (by simp) (by simp) zero_lt_one
    have : 0 < √(1 - c 0 ^ 2) := Real.sqrt_pos.2 (by nlinarith)
    have := sub_pos.2 hx
    exact mul_neg_of_neg_of_pos (neg_neg_of_pos (by positivity)) (by positivity)
  · exact (c2' ▸ c1' (by simp) (by simp) zero_lt_one : c 0 < 1).ne
end

section
open FocalSpotLoss Bitmap

/-- C114, focal spot on planar targets: all images. -/
theorem C114_focal_spot (eps : ℝ) (he : 0 < eps) (p : Intersect.Plane ℝ) (a b : Image) (hw : a.width = b.width) (hh : a.height = b.height)
    (ha : ∀ r c, r < a.height → c < a.width → 0 ≤ a.pixel r c) (hb : ∀ r c, r < b.height → c < b.width → 0 ≤ b.pixel r c)
    (h : focalSpotLoss eps (.planar p) a b ≠ 0) : Falls fun t => focalSpotLoss eps (.planar p) (blend a b t) b := by
  obtain ⟨W, H, f⟩ := a
  obtain ⟨W', H', g⟩ := b
  obtain rfl : W = W' := hw
  obtain rfl : H = H' := hh
  obtain ⟨A, B, hA, hB, hc⟩ := spot_blend eps he W H f g ha hb
  obtain ⟨k1, k2, k3, k4, k5⟩ := fraction hA hB
  have h0 := lt_of_le_of_ne (C72_nonneg eps (.planar p) ⟨W, H, f⟩ ⟨W, H, g⟩) h.symm
  refine Falls.congr (f := fun t => (1 - t) * A / ((1 - t) * A + t * B) * focalSpotLoss eps (.planar p) ⟨W, H, f⟩ ⟨W, H, g⟩)
    ⟨fun s hs t ht hst => mul_lt_mul_of_pos_right (k1 hs ht hst) h0, by simp, _, ?_, k5.mul_const _⟩ ?_
  · exact mul_neg_of_neg_of_pos (neg_neg_of_pos (div_pos hB hA)) h0
  · intro t ht
    obtain ⟨q0, -⟩ := k4 t ht
    beta_reduce at q0
    rw [C72_planar, C72_planar]
    simp only [Image.spot, blend]
    rw [hc t ht]
    simp only
    generalize (1 - t) * A / ((1 - t) * A + t * B) = k at *
    conv_rhs => rw [← abs_of_nonneg q0, ← Real.sqrt_sq_eq_abs, ← Real.sqrt_mul (sq_nonneg k)]
    congr 1
    ring

/-- C114, focal spot on cylindrical targets: all images, if the target does not go around more than half of the circle. -/
theorem C114_focal_spot_cylinder (eps : ℝ) (he : 0 < eps) (cyl : Intersect.Cylinder) (hf : cyl.Framed) (hr : 0 < cyl.radius) (ho : 0 < cyl.opening) (ho2 : cyl.opening ≤ Real.pi)
    (a b : Image) (hw : a.width = b.width) (hh : a.height = b.height) (hW : 0 < a.width) (hH : 0 < a.height)
    (ha : ∀ r c, r < a.height → c < a.width → 0 ≤ a.pixel r c) (hb : ∀ r c, r < b.height → c < b.width → 0 ≤ b.pixel r c)
    (h : focalSpotLoss eps (.cylindrical cyl) a b ≠ 0) : Falls fun t => focalSpotLoss eps (.cylindrical cyl) (blend a b t) b := by
  obtain ⟨W, H, f⟩ := a
  obtain ⟨W', H', g⟩ := b
  obtain rfl : W = W' := hw
  obtain rfl : H = H' := hh
  simp only at hW hH
  obtain ⟨A, B, hA, hB, hc⟩ := spot_blend eps he W H f g ha hb
  have i1 := (Bitmap.C39_inside eps he W H hW hH f ha).1
  have i2 := (Bitmap.C39_inside eps he W H hW hH g hb).1
  have hW' : (0 : ℝ) < W := by exact_mod_cast hW
  unfold focalSpotLoss at h
  simp only at h
  rw [cylinder_distance W H cyl hf] at h
  set c := centerOfMass eps W H f with hcf
  set d := centerOfMass eps W H g with hdg
  have hα : |(c.1 - d.1) / W * cyl.opening / 2| < Real.pi / 2 := by
    have hcd : |(c.1 - d.1) / W| < 1 := by
      rw [abs_div, abs_of_pos hW', div_lt_one hW', abs_lt]
      constructor <;> linarith [i1.1, i1.2, i2.1, i2.2]
    rw [abs_div, abs_mul, abs_of_pos ho, abs_of_pos (two_pos (α := ℝ))]
    have : |(c.1 - d.1) / W| * cyl.opening < 1 * cyl.opening := mul_lt_mul_of_pos_right hcd ho
    linarith
  obtain ⟨l1, l2, e, he', l3⟩ := chord hr hα h
  refine (falls_comp l1 l2 he' l3 hA hB).congr fun t ht => ?_
  unfold focalSpotLoss
  simp only [blend]
  rw [hc t ht, ← hdg, cylinder_distance W H cyl hf]
  simp only
  generalize (1 - t) * A / ((1 - t) * A + t * B) = k
  congr 3
  · congr 2; ring
  · ring

/-- A receiver around the whole tower. -/
noncomputable def around : Intersect.Cylinder := ⟨⟨0, 0, 50⟩, ⟨0, -1, 0⟩, ⟨0, 0, 1⟩, 2, 4, 2 * Real.pi⟩

/-- One bright pixel out of four in a row. -/
def bright (k : Nat) : Image := ⟨4, 1, fun _ c => if c = k then 1 else 0⟩

/-- C114 fails for targets that go around more than half of the circle: on the way from the first to the last pixel the loss rises at first, because it is measured straight through the
tower and not along the surface. -/
theorem C114_around_rises (eps : ℝ) (h0 : 0 < eps) (h1 : eps < 1 / 2) :
    0 < (1 - 2 * eps) / 3 ∧ StrictMonoOn (fun t => focalSpotLoss eps (.cylindrical around) (blend (bright 0) (bright 3) t) (bright 3)) (Icc 0 ((1 - 2 * eps) / 3)) := by
  refine ⟨by linarith, ?_⟩
  have hf : around.Framed := by unfold around Intersect.Cylinder.Framed V3.normSq V3.dot; norm_num
  have hp := Real.pi_pos
  have c : ∀ t : ℝ, centerOfMass eps 4 1 (blend (bright 0) (bright 3) t).pixel = (3 * (t / (1 + eps)), 0) := fun t => by
    simp [centerOfMass, blend, bright, Finset.sum_range_succ]
  have d : centerOfMass eps 4 1 (bright 3).pixel = (3 * (1 / (1 + eps)), 0) := by
    simp [centerOfMass, bright, Finset.sum_range_succ]
  have val : ∀ t : ℝ, t ∈ Icc 0 ((1 - 2 * eps) / 3) → Real.pi / 2 ≤ 3 * Real.pi / (4 * (1 + eps)) * (1 - t) ∧ 3 * Real.pi / (4 * (1 + eps)) * (1 - t) ≤ Real.pi ∧
      focalSpotLoss eps (.cylindrical around) (blend (bright 0) (bright 3) t) (bright 3) = 4 * Real.sin (3 * Real.pi / (4 * (1 + eps)) * (1 - t)) := by
    intro t ht
    have l1 : Real.pi / 2 ≤ 3 * Real.pi / (4 * (1 + eps)) * (1 - t) := by
      rw [div_mul_eq_mul_div, div_le_div_iff₀ (by norm_num) (by linarith)]
      nlinarith [ht.2]
    have l2 : 3 * Real.pi / (4 * (1 + eps)) * (1 - t) ≤ Real.pi := by
      rw [div_mul_eq_mul_div, div_le_iff₀ (by linarith)]
      nlinarith [ht.1, mul_pos hp h0, mul_nonneg hp.le ht.1]
    refine ⟨l1, l2, ?_⟩
    unfold focalSpotLoss
    simp only
    rw [show (blend (bright 0) (bright 3) t).width = 4 from rfl, show (blend (bright 0) (bright 3) t).height = 1 from rfl, show (bright 3).width = 4 from rfl,
      show (bright 3).height = 1 from rfl, c t, d, cylinder_distance 4 1 around hf]
    have e : (3 * (t / (1 + eps)) - 3 * (1 / (1 + eps))) / ((4 : ℕ) : ℝ) * around.opening / 2 = -(3 * Real.pi / (4 * (1 + eps)) * (1 - t)) := by
      rw [show around.opening = 2 * Real.pi from rfl]
      have : 1 + eps ≠ 0 := by linarith
      push_cast
      field_simp
      ring
    simp only
    rw [e, Real.sin_neg, show around.radius = 2 from rfl, sub_self, zero_div, zero_mul, zero_pow two_ne_zero, add_zero, Real.sqrt_sq_eq_abs, mul_neg, abs_neg,
      abs_of_nonneg (mul_nonneg (by norm_num) (Real.sin_nonneg_of_nonneg_of_le_pi (by linarith) l2))]
    norm_num
  intro s hs t ht hst
  obtain ⟨s1, s2, s3⟩ := val s hs
  obtain ⟨t1, t2, t3⟩ := val t ht
  beta_reduce
  rw [s3, t3]
  have lt : 3 * Real.pi / (4 * (1 + eps)) * (1 - t) < 3 * Real.pi / (4 * (1 + eps)) * (1 - s) :=
    mul_lt_mul_of_pos_left (by linarith) (div_pos (by linarith) (by linarith))
  have := Real.cos_lt_cos_of_nonneg_of_le_pi (sub_nonneg.2 t1) (by linarith) (sub_lt_sub_right lt (Real.pi / 2))
  rw [Real.cos_sub_pi_div_two, Real.cos_sub_pi_div_two] at this
  linarith

/-- Two different images of four pixels meet the hypotheses on images. -/
example : Falls fun t => pixel (way ![1, 2, 3, 4] ![5, 5, 0, 10] t) ![5, 5, 0, 10] := by
  refine C114_pixel _ _ (by simp [Fin.sum_univ_succ]; norm_num) ?_
  simp [pixel, Fin.sum_univ_succ]
  norm_num

/-- The same images for the Kullback-Leibler divergence. -/
example : Falls fun t => kl (1 / 10 ^ 12) (way ![1, 2, 3, 4] (fun i => (∑ j, ![1, 2, 3, 4] j) / (∑ j, ![5, 5, 0, 10] j) * ![5, 5, 0, 10] i) t) ![5, 5, 0, 10] := by
  have hp : ∀ i, (0:ℝ) ≤ ![1, 2, 3, 4] i := by intro i; fin_cases i <;> simp
  have hg : ∀ i, (0:ℝ) ≤ ![5, 5, 0, 10] i := by intro i; fin_cases i <;> simp
  have s1 : ((1:ℝ) / 10 ^ 12) ≤ ∑ i, ![1, 2, 3, 4] i := by simp [Fin.sum_univ_succ]; norm_num
  have s2 : ((1:ℝ) / 10 ^ 12) ≤ ∑ i, ![5, 5, 0, 10] i := by simp [Fin.sum_univ_succ]; norm_num
  refine C114_kl _ (by norm_num) _ _ hp hg s1 s2 ?_
  rw [Ne, C37_kl_zero_iff _ (by norm_num) _ _ hp hg s1 s2]
  intro h
  have := h 2
  simp [Fin.sum_univ_succ] at this
  norm_num at this

/-- Two directions at a right angle meet the hypotheses on vectors. -/
example : (∀ t ∈ Icc (0 : ℝ) 1, (1 : ℝ) / 10 ^ 8 ≤ norm2 (way ![1, 0, 0] ![0, 1, 0] t)) ∧ cosine (1 / 10 ^ 8) ![1, 0, 0] ![0, 1, 0] ≠ 0 := by
  constructor
  · intro t ht
    unfold norm2 way
    refine Real.le_sqrt_of_sq_le ?_
    simp [Fin.sum_univ_three]
    nlinarith [sq_nonneg (2 * t - 1)]
  · simp [cosine, Fin.sum_univ_three]

/-- Two images of one bright pixel each on a quarter of a cylinder. -/
example : Falls fun t => focalSpotLoss (1 / 10 ^ 8) (.cylindrical ⟨⟨0, 0, 50⟩, ⟨0, -1, 0⟩, ⟨0, 0, 1⟩, 2, 4, Real.pi / 2⟩) (blend (bright 0) (bright 3) t) (bright 3) := by
  have hp := Real.pi_pos
  have hf : (⟨⟨0, 0, 50⟩, ⟨0, -1, 0⟩, ⟨0, 0, 1⟩, 2, 4, Real.pi / 2⟩ : Intersect.Cylinder).Framed := by unfold Intersect.Cylinder.Framed V3.normSq V3.dot; norm_num
  refine C114_focal_spot_cylinder _ (by norm_num) _ hf (by norm_num) (by dsimp only; linarith) (by dsimp only; linarith) _ _ rfl rfl (by decide) (by decide)
    (fun r c _ _ => by unfold bright; dsimp only; split_ifs <;> norm_num) (fun r c _ _ => by unfold bright; dsimp only; split_ifs <;> norm_num) ?_
  rw [Ne, show bright 0 = ⟨4, 1, fun _ c => if c = 0 then 1 else 0⟩ from rfl, show bright 3 = ⟨4, 1, fun _ c => if c = 3 then 1 else 0⟩ from rfl,
    C72_cylinder_zero_iff _ (by norm_num) _ hf (by norm_num) (by norm_num) (by dsimp only; linarith) (by dsimp only; linarith) 4 1 (by decide) (by decide) _ _
      (fun r c _ _ => by split_ifs <;> norm_num) (fun r c _ _ => by split_ifs <;> norm_num)]
  simp [Image.spot, centerOfMass, Finset.sum_range_succ]
  norm_num

end
end Artist.Downhill
