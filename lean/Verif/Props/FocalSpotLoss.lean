import Verif.Proofs.FocalSpotLoss
/-!
# C72: the focal spot loss is the distance of the focal spots on the target
-/
namespace Artist.FocalSpotLoss
open Artist Real

/-- Pixel position of the centre of brightness as used everywhere (see C39). -/
noncomputable def Image.spot (eps : ℝ) (i : Image) : ℝ × ℝ := Bitmap.centerOfMass eps i.width i.height i.pixel

/-- C72: never negative, whatever the bitmaps and the target. -/
theorem C72_nonneg (eps : ℝ) (t : Target) (a b : Image) : 0 ≤ focalSpotLoss eps t a b := sqrt_nonneg _

/-- C72: for bitmaps of one resolution it does not matter which is the prediction. -/
theorem C72_symmetric (eps : ℝ) (t : Target) (a b : Image) (hw : a.width = b.width) (hh : a.height = b.height) :
    focalSpotLoss eps t a b = focalSpotLoss eps t b a := by
  unfold focalSpotLoss norm
  rw [hw, hh]
  simp only [V3.sub_e, V3.sub_n, V3.sub_u]
  congr 1
  ring

/-- C72, planar targets: the distance in metres between the two centres of brightness, pixels having the size of the target divided by the
resolution of the prediction. -/
theorem C72_planar (eps : ℝ) (p : Intersect.Plane ℝ) (a b : Image) :
    focalSpotLoss eps (.planar p) a b =
      √((p.width / a.width * ((a.spot eps).1 - (b.spot eps).1)) ^ 2 + (p.height / a.height * ((a.spot eps).2 - (b.spot eps).2)) ^ 2) := by
  unfold focalSpotLoss
  simp only []
  rw [plane_diff, norm]
  congr 1
  simp only [Image.spot]
  ring

/-- C72, planar targets: zero exactly if both bitmaps have the same centre of brightness. -/
theorem C72_planar_zero_iff (eps : ℝ) (p : Intersect.Plane ℝ) (hw : 0 < p.width) (hh : 0 < p.height) (a b : Image) (haw : 0 < a.width)
    (hah : 0 < a.height) : focalSpotLoss eps (.planar p) a b = 0 ↔ a.spot eps = b.spot eps := by
  have h1 : 0 < p.width / a.width := div_pos hw (by exact_mod_cast haw)
  have h2 : 0 < p.height / a.height := div_pos hh (by exact_mod_cast hah)
  rw [C72_planar, sqrt_eq_zero (by positivity)]
  constructor
  · intro h
    have e1 : (p.width / a.width * ((a.spot eps).1 - (b.spot eps).1)) ^ 2 = 0 := by
      nlinarith [sq_nonneg (p.width / a.width * ((a.spot eps).1 - (b.spot eps).1)), sq_nonneg (p.height / a.height * ((a.spot eps).2 - (b.spot eps).2))]
    have e2 : (p.height / a.height * ((a.spot eps).2 - (b.spot eps).2)) ^ 2 = 0 := by
      nlinarith [sq_nonneg (p.width / a.width * ((a.spot eps).1 - (b.spot eps).1)), sq_nonneg (p.height / a.height * ((a.spot eps).2 - (b.spot eps).2))]
    have f1 := (mul_eq_zero.1 (pow_eq_zero_iff two_ne_zero |>.1 e1)).resolve_left h1.ne'
    have f2 := (mul_eq_zero.1 (pow_eq_zero_iff two_ne_zero |>.1 e2)).resolve_left h2.ne'
    exact Prod.ext (by linarith) (by linarith)
  · intro h; rw [h]; simp

/-- C72, cylindrical targets: zero exactly if both bitmaps (of one resolution, with non-negative pixels) have the same centre of brightness. -/
theorem C72_cylinder_zero_iff (eps : ℝ) (he : 0 < eps) (cyl : Intersect.Cylinder) (hfr : cyl.Framed) (hr : 0 < cyl.radius) (hh : 0 < cyl.height)
    (ho : 0 < cyl.opening) (ho2 : cyl.opening ≤ 2 * π) (W H : Nat) (hW : 0 < W) (hH : 0 < H) (f g : Nat → Nat → ℝ)
    (hf : ∀ r c, r < H → c < W → 0 ≤ f r c) (hg : ∀ r c, r < H → c < W → 0 ≤ g r c) :
    focalSpotLoss eps (.cylindrical cyl) ⟨W, H, f⟩ ⟨W, H, g⟩ = 0 ↔ Image.spot eps ⟨W, H, f⟩ = Image.spot eps ⟨W, H, g⟩ := by
  constructor
  · intro h
    have i1 := Bitmap.C39_inside eps he W H hW hH f hf
    have i2 := Bitmap.C39_inside eps he W H hW hH g hg
    unfold focalSpotLoss at h
    simp only [Image.spot] at h ⊢
    generalize Bitmap.centerOfMass eps W H f = c at *
    generalize Bitmap.centerOfMass eps W H g = d at *
    obtain ⟨z1, z2, z3⟩ := norm_eq_zero.1 h
    simp only [toTarget, Bitmap.toCylinder, V3.sub_e, V3.sub_n, V3.sub_u, V3.add_e, V3.add_n, V3.add_u, V3.smul_e, V3.smul_n, V3.smul_u] at z1 z2 z3
    obtain ⟨f1, f2, f3⟩ := hfr
    set α := ((c.1 + 1 / 2) / (W : ℝ) - 1 / 2) * cyl.opening with hα
    set β := ((d.1 + 1 / 2) / (W : ℝ) - 1 / 2) * cyl.opening with hβ
    set y := (1 / 2 - (c.2 + 1 / 2) / (H : ℝ)) * cyl.height with hy
    set z := (1 / 2 - (d.2 + 1 / 2) / (H : ℝ)) * cyl.height with hz
    simp only [V3.normSq, V3.dot] at f1 f2 f3
    simp only [V3.cross] at z1 z2 z3
    generalize cyl.normal.e = n0 at *
    generalize cyl.normal.n = n1 at *
    generalize cyl.normal.u = n2 at *
    generalize cyl.axis.e = a0 at *
    generalize cyl.axis.n = a1 at *
    generalize cyl.axis.u = a2 at *
    have ez : y = z := by
      linear_combination a0 * z1 + a1 * z2 + a2 * z3 - (y - z) * f2 - (cyl.radius * (cos α - cos β)) * f3
    have ec : cyl.radius * cos α = cyl.radius * cos β := by
      linear_combination n0 * z1 + n1 * z2 + n2 * z3 - (cyl.radius * (cos α - cos β)) * f1 - (y - z) * f3
    have es : cyl.radius * sin α = cyl.radius * sin β := by
      have hcc : (a1 * n2 - a2 * n1) ^ 2 + (a2 * n0 - a0 * n2) ^ 2 + (a0 * n1 - a1 * n0) ^ 2 = 1 := by
        have : (a1 * n2 - a2 * n1) ^ 2 + (a2 * n0 - a0 * n2) ^ 2 + (a0 * n1 - a1 * n0) ^ 2 =
          (n0 * n0 + n1 * n1 + n2 * n2) * (a0 * a0 + a1 * a1 + a2 * a2) - (n0 * a0 + n1 * a1 + n2 * a2) ^ 2 := by ring
        rw [this, f1, f2, f3]; ring
      linear_combination (a1 * n2 - a2 * n1) * z1 + (a2 * n0 - a0 * n2) * z2 + (a0 * n1 - a1 * n0) * z3 -
        (cyl.radius * (sin α - sin β)) * hcc
    have ec' := mul_left_cancel₀ hr.ne' ec
    have es' := mul_left_cancel₀ hr.ne' es
    have hW' : (0 : ℝ) < W := by exact_mod_cast hW
    have hH' : (0 : ℝ) < H := by exact_mod_cast hH
    have hab : α - β = (c.1 - d.1) / W * cyl.opening := by rw [hα, hβ]; ring
    have hcd : |(c.1 - d.1) / W| < 1 := by
      rw [abs_div, abs_of_pos hW', div_lt_one hW', abs_lt]
      constructor <;> linarith [i1.1.1, i1.1.2, i2.1.1, i2.1.2]
    have hlt : |α - β| < 2 * π := by
      rw [hab, abs_mul, abs_of_pos ho]
      calc |(c.1 - d.1) / W| * cyl.opening < 1 * cyl.opening := mul_lt_mul_of_pos_right hcd ho
        _ ≤ 2 * π := by rw [one_mul]; exact ho2
    have hcos : cos (α - β) = 1 := by rw [cos_sub, ec', es']; linarith [sin_sq_add_cos_sq β]
    have h0 : α - β = 0 := by
      rw [abs_lt] at hlt
      exact (cos_eq_one_iff_of_lt_of_lt hlt.1 hlt.2).1 hcos
    rw [hab] at h0
    have e1 : c.1 = d.1 := by
      have := (mul_eq_zero.1 h0).resolve_right ho.ne'
      rw [div_eq_zero_iff] at this
      linarith [this.resolve_right hW'.ne']
    have e2 : c.2 = d.2 := by
      rw [hy, hz] at ez
      have := mul_right_cancel₀ hh.ne' ez
      have : (c.2 + 1 / 2) / (H : ℝ) = (d.2 + 1 / 2) / (H : ℝ) := by linarith
      rw [div_left_inj' hH'.ne'] at this
      linarith
    exact Prod.ext e1 e2
  · intro h
    unfold focalSpotLoss
    simp only [Image.spot] at h ⊢
    rw [h]
    simp [norm]

/-- The hypotheses on the cylinder hold for a quarter of an upright cylinder facing south. -/
example : ∃ cyl : Intersect.Cylinder, cyl.Framed ∧ 0 < cyl.radius ∧ 0 < cyl.height ∧ 0 < cyl.opening ∧ cyl.opening ≤ 2 * π :=
  ⟨⟨⟨0, 0, 50⟩, ⟨0, -1, 0⟩, ⟨0, 0, 1⟩, 2, 4, π / 2⟩, by unfold Intersect.Cylinder.Framed V3.normSq V3.dot; norm_num, by norm_num, by norm_num,
    by positivity, by dsimp only; linarith [pi_pos]⟩

/-- C72, traced bitmaps: for bitmaps traced from two collections of rays onto a planar target, all of which land inside the grid of pixel centres, the loss is the
distance (in the east and up direction) between the intensity-weighted mean points where the rays hit, up to one pixel and the effect of the epsilon in each
direction. -/
theorem C72_rays (eps : ℝ) (he : 0 < eps) (W H : Nat) (hW : 2 ≤ W) (hH : 2 ≤ H) (p : Intersect.Plane ℝ) (hw : 0 < p.width) (hh : 0 < p.height)
    (xs ys : List (Bitmap.Ray ℝ)) (hx : ∀ x ∈ xs, 0 < x.magnitude) (hy : ∀ x ∈ ys, 0 < x.magnitude) (hxn : xs ≠ []) (hyn : ys ≠ [])
    (lx : ∀ x ∈ xs, (x.hit W H p).w ≠ 0 ∧ Splat.Inside W H (x.hit W H p)) (ly : ∀ x ∈ ys, (x.hit W H p).w ≠ 0 ∧ Splat.Inside W H (x.hit W H p))
    (f g : List (List ℝ)) (hf : Splat.splat W H (xs.map (Bitmap.Ray.hit W H p)) = .ok f) (hg : Splat.splat W H (ys.map (Bitmap.Ray.hit W H p)) = .ok g) :
    let total := fun (l : List (Bitmap.Ray ℝ)) => (l.map (fun x => (x.hit W H p).w)).sum
    let e := fun (l : List (Bitmap.Ray ℝ)) => (l.map (fun x => (x.hit W H p).w * (x.point W H p).e)).sum / total l
    let u := fun (l : List (Bitmap.Ray ℝ)) => (l.map (fun x => (x.hit W H p).w * (x.point W H p).u)).sum / total l
    |focalSpotLoss eps (.planar p) ⟨W, H, Splat.pixel f⟩ ⟨W, H, Splat.pixel g⟩ - √((e xs - e ys) ^ 2 + (u xs - u ys) ^ 2)| ≤
      p.width * (1 / W + eps / (total xs + eps) + eps / (total ys + eps)) + p.height * (1 / H + eps / (total xs + eps) + eps / (total ys + eps)) := by
  intro total e u
  have h1 := Bitmap.C39_focal_spot eps he W H hW hH p hw hh xs hx hxn lx f hf
  have h2 := Bitmap.C39_focal_spot eps he W H hW hH p hw hh ys hy hyn ly g hg
  simp only [] at h1 h2
  have hl : focalSpotLoss eps (.planar p) ⟨W, H, Splat.pixel f⟩ ⟨W, H, Splat.pixel g⟩ =
      √(((Bitmap.toPlane W H p (Bitmap.centerOfMass eps W H (Splat.pixel f)).1 (Bitmap.centerOfMass eps W H (Splat.pixel f)).2).e -
        (Bitmap.toPlane W H p (Bitmap.centerOfMass eps W H (Splat.pixel g)).1 (Bitmap.centerOfMass eps W H (Splat.pixel g)).2).e) ^ 2 +
      ((Bitmap.toPlane W H p (Bitmap.centerOfMass eps W H (Splat.pixel f)).1 (Bitmap.centerOfMass eps W H (Splat.pixel f)).2).u -
        (Bitmap.toPlane W H p (Bitmap.centerOfMass eps W H (Splat.pixel g)).1 (Bitmap.centerOfMass eps W H (Splat.pixel g)).2).u) ^ 2) := by
    unfold focalSpotLoss norm
    simp only [toTarget, V3.sub_e, V3.sub_n, V3.sub_u]
    congr 1
    have : (Bitmap.toPlane W H p (Bitmap.centerOfMass eps W H (Splat.pixel f)).1 (Bitmap.centerOfMass eps W H (Splat.pixel f)).2).n =
      (Bitmap.toPlane W H p (Bitmap.centerOfMass eps W H (Splat.pixel g)).1 (Bitmap.centerOfMass eps W H (Splat.pixel g)).2).n := by
      simp [Bitmap.toPlane]
    rw [this]; ring
  rw [hl]
  have hW' : (0 : ℝ) < W := by exact_mod_cast (by omega : 0 < W)
  have hH' : (0 : ℝ) < H := by exact_mod_cast (by omega : 0 < H)
  refine abs_hypot _ _ _ _ _ _ ?_ ?_
  · refine le_trans (abs_sub_sub _ _ _ _ _ _ h1.1 h2.1) (le_of_eq ?_)
    simp only [total]; field_simp; ring
  · refine le_trans (abs_sub_sub _ _ _ _ _ _ h1.2 h2.2) (le_of_eq ?_)
    simp only [total]; field_simp; ring

/-- C72, full statement: the loss is the distance between the points of the target where the two centres of brightness lie, each at its own
resolution. -/
def IsDistance (eps : ℝ) (t : Target) (a b : Image) : Prop :=
  focalSpotLoss eps t a b = norm (toTarget a.width a.height t (a.spot eps) - toTarget b.width b.height t (b.spot eps))

/-- C72, full statement for bitmaps of one resolution.  Missing: different resolutions, where it is false (`C72_resolution`). -/
theorem C72_distance_partial (eps : ℝ) (t : Target) (a b : Image) (hw : a.width = b.width) (hh : a.height = b.height) : IsDistance eps t a b := by
  unfold IsDistance focalSpotLoss Image.spot
  simp only [hw, hh]

/-- C72, different resolutions: bitmaps of different widths whose centres of brightness lie at the same place of the target have a loss of at least
the distance of this place from the east edge times the relative difference of the widths, instead of zero. -/
theorem C72_resolution (eps : ℝ) (p : Intersect.Plane ℝ) (hw : 0 < p.width) (a b : Image) (haw : 0 < a.width) (hbw : 0 < b.width)
    (hne : a.width ≠ b.width) (h0 : 0 ≤ (a.spot eps).1)
    (hsame : ((a.spot eps).1 + 1 / 2) / a.width = ((b.spot eps).1 + 1 / 2) / b.width) :
    p.width * (((a.spot eps).1 + 1 / 2) / a.width) * |(b.width : ℝ) / a.width - 1| ≤ focalSpotLoss eps (.planar p) a b ∧
    0 < focalSpotLoss eps (.planar p) a b := by
  have hA : (0 : ℝ) < a.width := by exact_mod_cast haw
  have hB : (0 : ℝ) < b.width := by exact_mod_cast hbw
  have key : p.width * (((a.spot eps).1 + 1 / 2) / a.width) * |(b.width : ℝ) / a.width - 1| ≤ focalSpotLoss eps (.planar p) a b := by
    rw [C72_planar]
    refine le_trans (le_of_eq ?_) (abs_le_sqrt (x := p.width / a.width * ((a.spot eps).1 - (b.spot eps).1)) (by
      nlinarith [sq_nonneg (p.height / a.height * ((a.spot eps).2 - (b.spot eps).2))]))
    have e : p.width / a.width * ((a.spot eps).1 - (b.spot eps).1) =
        -(p.width * (((a.spot eps).1 + 1 / 2) / a.width) * ((b.width : ℝ) / a.width - 1)) := by
      have : (b.spot eps).1 = ((a.spot eps).1 + 1 / 2) / a.width * b.width - 1 / 2 := by rw [hsame]; field_simp; ring
      rw [this]; field_simp; ring
    have hpos : 0 ≤ p.width * (((a.spot eps).1 + 1 / 2) / a.width) := by positivity
    rw [e, abs_neg, abs_mul, abs_of_nonneg hpos]
  refine ⟨key, lt_of_lt_of_le ?_ key⟩
  have h1 : (b.width : ℝ) / a.width - 1 ≠ 0 := by
    intro h
    have : (b.width : ℝ) = a.width := by field_simp at h; linarith
    exact hne (by exact_mod_cast this.symm)
  have := abs_pos.2 h1
  positivity

/-- A bitmap of two pixels and one of a single pixel with the same centre of brightness, in the middle of the target. -/
example (eps : ℝ) (he : 0 < eps) : ∃ a b : Image, 0 < a.width ∧ 0 < b.width ∧ a.width ≠ b.width ∧ 0 ≤ (a.spot eps).1 ∧
    ((a.spot eps).1 + 1 / 2) / a.width = ((b.spot eps).1 + 1 / 2) / b.width := by
  have h1 : (Image.spot eps ⟨2, 1, fun _ c => if c = 0 then 1 else 1 + eps⟩).1 = 1 / 2 := by
    simp only [Image.spot, Bitmap.centerOfMass, Finset.sum_range_succ, Finset.sum_range_zero]
    simp
    field_simp
    ring
  have h2 : (Image.spot eps ⟨1, 1, fun _ _ => 1⟩).1 = 0 := by
    simp [Image.spot, Bitmap.centerOfMass]
  refine ⟨⟨2, 1, fun _ c => if c = 0 then 1 else 1 + eps⟩, ⟨1, 1, fun _ _ => 1⟩, by norm_num, by norm_num, by norm_num, ?_, ?_⟩
  · rw [h1]; norm_num
  · rw [h1, h2]; norm_num

end Artist.FocalSpotLoss
