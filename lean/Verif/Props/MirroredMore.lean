import Verif.Props.Mirrored
import Verif.Proofs.Kinematics
/-!
# C96: mirrored cylinders and mirrored blocking
-/
namespace Artist.Mirrored
open Artist Intersect Splat Flux Transforms Matrix SoftMask

theorem cross_vec (a b : V3 ℝ) : V3.cross (vec a) (vec b) = -vec (V3.cross a b) := by
  ext <;> simp [V3.cross, vec] <;> ring

theorem toLocal_vec (c : Cylinder) (v : V3 ℝ) : (cylinder c).toLocal (vec v) = vec (c.toLocal v) := by
  unfold Cylinder.toLocal cylinder
  simp only [cross_vec]
  ext <;> simp [V3.dot, V3.cross, vec] <;> ring

theorem distance_vec (c : Cylinder) (o d : V3 ℝ) : (cylinder c).distance (vec o) (vec d) = c.distance o d := by
  have hq : (cylinder c).quadratic (vec o) (vec d) = c.quadratic o d := by
    unfold Cylinder.quadratic
    have h1 : (cylinder c).toLocal (vec o - (cylinder c).center) = vec (c.toLocal (o - c.center)) := by
      rw [show (cylinder c).center = vec c.center from rfl, sub_vec, toLocal_vec]
    rw [h1, toLocal_vec]
    simp only [vec, show (cylinder c).radius = c.radius from rfl]
    simp
  unfold Cylinder.distance
  rw [hq]

theorem atan2_mirror (y x : ℝ) (hy : 0 ≤ y) (hne : x ≠ 0 ∨ y ≠ 0) : atan2 y (-x) = Real.pi - atan2 y x := by
  unfold atan2
  rcases hy.lt_or_eq with h | h
  · have h1 : (⟨-x, y⟩ : ℂ) = -(⟨x, -y⟩ : ℂ) := by apply Complex.ext <;> simp
    have h2 : (⟨x, -y⟩ : ℂ) = (starRingEnd ℂ) (⟨x, y⟩ : ℂ) := by apply Complex.ext <;> simp
    rw [h1, Complex.arg_neg_eq_arg_add_pi_of_im_neg (by simpa using h), h2, Complex.arg_conj, if_neg]
    · ring
    · intro h3
      rw [Complex.arg_eq_pi_iff] at h3
      exact h.ne' h3.2
  · subst h
    rcases hne with hx | hx
    · rcases lt_or_gt_of_ne hx with hx | hx
      · have h1 : (⟨x, 0⟩ : ℂ) = (x : ℂ) := by apply Complex.ext <;> simp
        have h2 : (⟨-x, 0⟩ : ℂ) = ((-x : ℝ) : ℂ) := by apply Complex.ext <;> simp
        rw [h1, h2, Complex.arg_ofReal_of_neg hx, Complex.arg_ofReal_of_nonneg (by linarith)]; ring
      · have h1 : (⟨x, 0⟩ : ℂ) = (x : ℂ) := by apply Complex.ext <;> simp
        have h2 : (⟨-x, 0⟩ : ℂ) = ((-x : ℝ) : ℂ) := by apply Complex.ext <;> simp
        rw [h1, h2, Complex.arg_ofReal_of_nonneg hx.le, Complex.arg_ofReal_of_neg (by linarith)]; ring
    · exact absurd rfl hx

theorem atan2_neg (y x : ℝ) (hy : y < 0) : atan2 y x < 0 := by
  unfold atan2
  exact Complex.arg_neg_iff.2 hy

/-- The opening of the cylinder, as the code sees it, lies within the half in front of the receiver. -/
def InFront (c : Cylinder) : Prop := 0 < c.normal.n ∧ 0 ≤ atan2 c.normal.n c.normal.e - c.opening / 2 ∧ atan2 c.normal.n c.normal.e + c.opening / 2 ≤ Real.pi

/-- The ray does not meet the cylinder exactly where its opening begins or ends, nor the axis. -/
def OffRim (c : Cylinder) (r : V3 ℝ × V3 ℝ) : Prop :=
  ∀ t, c.distance r.1 r.2 = some t →
    let x := c.toLocal (r.1 - c.center) + t • c.toLocal r.2
    c.angle x ≠ 0 ∧ c.angle x ≠ c.opening ∧ (x.e ≠ 0 ∨ x.n ≠ 0)

theorem mirrored_land (W H : Nat) (hW : 2 ≤ W) (m : ℝ) (c : Cylinder) (ho : 0 < c.opening) (hf : InFront c) (r : V3 ℝ × V3 ℝ) (hrim : OffRim c r) :
    (land W H m (.cylinder (cylinder c)) (ray r)).intensity = (land W H m (.cylinder c) r).intensity ∧
    (land W H m (.cylinder (cylinder c)) (ray r)).u = (land W H m (.cylinder c) r).u ∧
    ((land W H m (.cylinder c) r).intensity = 0 ∨ ((land W H m (.cylinder (cylinder c)) (ray r)).e = (W : ℝ) - 1 - (land W H m (.cylinder c) r).e ∧
      0 < (land W H m (.cylinder c) r).e ∧ (land W H m (.cylinder c) r).e < (W : ℝ) - 1)) := by
  obtain ⟨o, d⟩ := r
  have hW1 : (0 : ℝ) < (W : ℝ) - 1 := by
    have : (2 : ℝ) ≤ (W : ℝ) := by exact_mod_cast hW
    linarith
  unfold land ray lineCylinder
  simp only
  rw [distance_vec]
  cases hd : c.distance o d with
  | none => simp
  | some t =>
    obtain ⟨h0, h1, h2⟩ := hrim t hd
    simp only at h0 h1 h2 ⊢
    have hx : (cylinder c).toLocal (vec o - (cylinder c).center) + t • (cylinder c).toLocal (vec d) = vec (c.toLocal (o - c.center) + t • c.toLocal d) := by
      rw [show (cylinder c).center = vec c.center from rfl, sub_vec, toLocal_vec, toLocal_vec, move_vec]
    rw [hx, toLocal_vec]
    set x := c.toLocal (o - c.center) + t • c.toLocal d with hxd
    have hvu : (vec x).u = x.u := rfl
    have hvn : (vec x).n = x.n := rfl
    have hve : (vec x).e = -x.e := rfl
    have hdn : (vec (c.toLocal d)).n = (c.toLocal d).n := rfl
    have hde : (vec (c.toLocal d)).e = -(c.toLocal d).e := rfl
    have hch : (cylinder c).height = c.height := rfl
    have hco : (cylinder c).opening = c.opening := rfl
    obtain ⟨hn, hlo, hhi⟩ := hf
    have hphi : atan2 (cylinder c).normal.n (cylinder c).normal.e = Real.pi - atan2 c.normal.n c.normal.e :=
      atan2_mirror c.normal.n c.normal.e hn.le (Or.inr hn.ne')
    by_cases hxn : 0 ≤ x.n
    · have hang : (cylinder c).angle (vec x) = c.opening - c.angle x := by
        unfold Cylinder.angle
        rw [hphi, hvn, hve, atan2_mirror x.n x.e hxn h2, hco]
        ring
      rw [hang, hvu, hvn, hve, hdn, hde, hch, hco]
      have hcos : -(-(c.toLocal d).e * (-x.e / √((-x.e) ^ 2 + x.n ^ 2)) + (c.toLocal d).n * (x.n / √((-x.e) ^ 2 + x.n ^ 2))) =
          -((c.toLocal d).e * (x.e / √(x.e ^ 2 + x.n ^ 2)) + (c.toLocal d).n * (x.n / √(x.e ^ 2 + x.n ^ 2))) := by
        rw [neg_sq]; ring
      rw [hcos]
      by_cases hc : 0 ≤ x.u + c.height / 2 ∧ x.u + c.height / 2 ≤ c.height ∧ 0 ≤ c.angle x ∧ c.angle x ≤ c.opening
      · have hc' : 0 ≤ x.u + c.height / 2 ∧ x.u + c.height / 2 ≤ c.height ∧ 0 ≤ c.opening - c.angle x ∧ c.opening - c.angle x ≤ c.opening :=
          ⟨hc.1, hc.2.1, by linarith [hc.2.2.2], by linarith [hc.2.2.1]⟩
        rw [if_pos hc, if_pos hc']
        refine ⟨rfl, rfl, Or.inr ⟨?_, ?_, ?_⟩⟩
        · simp only
          field_simp
        · have : 0 < c.angle x := lt_of_le_of_ne hc.2.2.1 (Ne.symm h0)
          simp only
          positivity
        · have h3 : c.angle x / c.opening < 1 := (div_lt_one ho).2 (lt_of_le_of_ne hc.2.2.2 h1)
          simp only
          nlinarith
      · have hc' : ¬ (0 ≤ x.u + c.height / 2 ∧ x.u + c.height / 2 ≤ c.height ∧ 0 ≤ c.opening - c.angle x ∧ c.opening - c.angle x ≤ c.opening) := by
          rintro ⟨a, b, e, f⟩
          exact hc ⟨a, b, by linarith, by linarith⟩
        rw [if_neg hc, if_neg hc']
        exact ⟨rfl, rfl, Or.inl rfl⟩
    · rw [not_le] at hxn
      have ha : c.angle x < 0 := by
        unfold Cylinder.angle
        have := atan2_neg x.n x.e hxn
        linarith
      have ha' : (cylinder c).angle (vec x) < 0 := by
        unfold Cylinder.angle
        rw [hphi, hvn, hco]
        have := atan2_neg x.n (vec x).e hxn
        linarith
      rw [if_neg (fun h => absurd h.2.2.1 (not_le.2 ha')), if_neg (fun h => absurd h.2.2.1 (not_le.2 ha))]
      exact ⟨rfl, rfl, Or.inl rfl⟩

/-- Partial, C96 for cylinders whose opening lies in front: rays, receiver and blocking are mirrored, the image is mirrored and the factors are the same.  Missing for the full claim: rays
that meet the rim exactly, as for planes, and wider openings, for which it is false (`C96_wide_cylinder`). -/
theorem C96_cylinder_partial (W H : Nat) (hW : 2 ≤ W) (hH : 2 ≤ H) (m ext refl : ℝ) (hm : 0 ≤ m) (c : Cylinder) (hh : 0 < c.height) (ho : 0 < c.opening) (hf : InFront c)
    (blocked blocked' : V3 ℝ × V3 ℝ → ℝ) (rays : List (V3 ℝ × V3 ℝ)) (hb : ∀ r ∈ rays, blocked' (ray r) = blocked r) (hrim : ∀ r ∈ rays, OffRim c r) :
    ∃ bitmap bitmap' factors, traceSample W H m ext refl (.cylinder c) blocked rays = .ok (bitmap, factors) ∧
      traceSample W H m ext refl (.cylinder (cylinder c)) blocked' (rays.map ray) = .ok (bitmap', factors) ∧
      ∀ y col, y < H → col < W → pixel bitmap' y col = pixel bitmap y (W - 1 - col) := by
  have hpos : ∀ (c : Cylinder), 0 < c.height → 0 < c.opening → ∀ r, 0 ≤ (land W H m (.cylinder c) r).e ∧ 0 ≤ (land W H m (.cylinder c) r).u := by
    intro c hh ho r
    have := C18_bounds W H (by omega) (by omega) r.1 r.2 m hm c hh ho
    exact ⟨this.1.1, this.2.1.1⟩
  refine image_of_share W H hW hH m ext refl _ _ (hpos c hh ho) (hpos (cylinder c) hh ho) blocked blocked' rays hb fun r hr => ?_
  obtain ⟨h1, h2, h3⟩ := mirrored_land W H hW m c ho hf r (hrim r hr)
  have hw : (hitOf W H m ext refl (.cylinder (cylinder c)) blocked' (ray r)).w = (hitOf W H m ext refl (.cylinder c) blocked r).w := by
    unfold hitOf
    simp only [h1, hb r hr]
  refine ⟨hw, h1, ?_⟩
  intro y col hcol
  have hcast : ((W - 1 - col : Nat) : ℝ) = (W : ℝ) - 1 - col := by
    rw [Nat.cast_sub (by omega), Nat.cast_sub (by omega)]; simp
  simp only
  rcases h3 with h3 | ⟨h3, h4, h5⟩
  · have hz : (hitOf W H m ext refl (.cylinder c) blocked r).w = 0 := by unfold hitOf intensity; simp [h3]
    rw [hw, hz]; simp
  · have hu : (hitOf W H m ext refl (.cylinder (cylinder c)) blocked' (ray r)).u = (hitOf W H m ext refl (.cylinder c) blocked r).u := h2
    have he : (hitOf W H m ext refl (.cylinder (cylinder c)) blocked' (ray r)).e = (W : ℝ) - 1 - (hitOf W H m ext refl (.cylinder c) blocked r).e := h3
    have he0 : 0 < (hitOf W H m ext refl (.cylinder c) blocked r).e := h4
    have he1 : (hitOf W H m ext refl (.cylinder c) blocked r).e < (W : ℝ) - 1 := h5
    have hin : Inside W H (hitOf W H m ext refl (.cylinder (cylinder c)) blocked' (ray r)) ↔ Inside W H (hitOf W H m ext refl (.cylinder c) blocked r) := by
      unfold Inside
      rw [hu, he]
      constructor
      · rintro ⟨_, h⟩; exact ⟨⟨he0.le, he1⟩, h⟩
      · rintro ⟨_, h⟩; exact ⟨⟨by linarith, by linarith⟩, h⟩
    have ht : tent ((W : ℝ) - 1 - (hitOf W H m ext refl (.cylinder c) blocked r).e - col) = tent ((hitOf W H m ext refl (.cylinder c) blocked r).e - ((W : ℝ) - 1 - col)) := by
      rw [← tent_neg]; congr 1; ring
    simp only [hin, hw, hu, he, hcast, ht]

/-- horizontal direction at the angle `φ` from the north, positive towards the west -/
noncomputable def bearing (φ : ℝ) : V3 ℝ := ⟨-Real.sin φ, Real.cos φ, 0⟩

/-- C96 is false for wide openings: a full cylinder facing north is its own mirror image; the ray that comes from the south-west is not recorded, its mirror image from the south-east is, with all
its power. -/
theorem C96_wide_cylinder (W H : Nat) :
    let c := cylinderExample 1 (2 * Real.pi)
    let r := ((10 : ℝ) • bearing (3 * Real.pi / 4), (-1 : ℝ) • bearing (3 * Real.pi / 4))
    cylinder c = c ∧ (land W H 1 (.cylinder c) r).intensity = 0 ∧ (land W H 1 (.cylinder (cylinder c)) (ray r)).intensity = 1 := by
  intro c r
  have hc : cylinder c = c := by simp [c, cylinder, cylinderExample, vec]
  have hfr : c.Framed := cylinderExample_framed 1 _ (by norm_num)
  have hfrom : ∀ φ, ∃ t ρ : ℝ, 0 < ρ ∧ c.distance ((10 : ℝ) • bearing φ) ((-1 : ℝ) • bearing φ) = some t ∧
      (10 : ℝ) • bearing φ + t • ((-1 : ℝ) • bearing φ) = ρ • bearing φ ∧
      (10 : ℝ) • bearing φ + t • ((-1 : ℝ) • bearing φ) =
        c.center + (ρ * Real.cos φ) • c.normal - (ρ * Real.sin φ) • V3.cross c.normal c.axis + (0 : ℝ) • c.axis := by
    intro φ
    obtain ⟨t, ρ, h1, h2, h3⟩ := cylinderExample_hit 1 (2 * Real.pi) (by norm_num) (bearing φ)
      (by unfold bearing; simp only [neg_sq]; exact Real.sin_sq_add_cos_sq _) rfl
    refine ⟨t, ρ, h1, h2, h3, ?_⟩
    rw [h3]; unfold c cylinderExample V3.cross bearing; ext <;> simp
  refine ⟨hc, ?_, ?_⟩
  · obtain ⟨t, ρ, h1, h2, h3, h4⟩ := hfrom (3 * Real.pi / 4)
    have := C18_lost_quadrant W H _ _ 1 c hfr ⟨rfl, by unfold c cylinderExample; norm_num⟩ (le_of_eq rfl) t ρ (3 * Real.pi / 4) 0 h1
      ⟨by linarith [Real.pi_pos], by linarith [Real.pi_pos]⟩ h2 h4
    change (lineCylinder W H _ _ 1 c).intensity = 0
    rw [this]
  · obtain ⟨t, ρ, h1, h2, h3, h4⟩ := hfrom (-(3 * Real.pi / 4))
    have hr : ray r = ((10 : ℝ) • bearing (-(3 * Real.pi / 4)), (-1 : ℝ) • bearing (-(3 * Real.pi / 4))) := by
      unfold r ray vec bearing
      refine Prod.ext ?_ ?_ <;> (ext <;> simp)
    rw [hc, hr]
    change (lineCylinder W H _ _ 1 c).intensity = 1
    have hx := toLocal_of_angle c hfr _ _ t ρ (-(3 * Real.pi / 4)) 0 h4
    have hn : atan2 c.normal.n c.normal.e = Real.pi / 2 := by
      have := arg_of_angle 1 0 one_pos (by linarith [Real.pi_pos]) (by linarith [Real.pi_pos])
      simpa [c, cylinderExample] using this
    have hang : c.angle ⟨-(ρ * Real.sin (-(3 * Real.pi / 4))), ρ * Real.cos (-(3 * Real.pi / 4)), 0⟩ = 3 * Real.pi / 4 - Real.pi / 2 := by
      unfold Cylinder.angle
      rw [hn, arg_of_angle ρ _ h1 (by linarith [Real.pi_pos]) (by linarith [Real.pi_pos])]
      change _ - (_ - 2 * Real.pi / 2) = _
      ring
    have hrec : lineCylinder W H ((10 : ℝ) • bearing (-(3 * Real.pi / 4))) ((-1 : ℝ) • bearing (-(3 * Real.pi / 4))) 1 c ≠ ⟨0, 0, 0, 0⟩ ∧
        (lineCylinder W H ((10 : ℝ) • bearing (-(3 * Real.pi / 4))) ((-1 : ℝ) • bearing (-(3 * Real.pi / 4))) 1 c).distance = t := by
      have ht : 0 < t := (distance_spec c _ _ t h2).1
      unfold lineCylinder
      rw [h2]
      simp only
      rw [hx, hang, if_pos]
      · refine ⟨fun h => ?_, rfl⟩
        have := congrArg Landing.distance h
        simp only at this
        linarith
      · refine ⟨?_, ?_, by linarith [Real.pi_pos], ?_⟩
        · unfold c cylinderExample; norm_num
        · unfold c cylinderExample; norm_num
        · change _ ≤ 2 * Real.pi
          linarith [Real.pi_pos]
    rw [C18_intensity W H _ _ 1 t c hfr h2 hrec.1]
    simp only [h3]
    have hb : Real.sin (-(3 * Real.pi / 4)) ^ 2 + Real.cos (-(3 * Real.pi / 4)) ^ 2 = 1 := Real.sin_sq_add_cos_sq _
    have ho : ρ • bearing (-(3 * Real.pi / 4)) - c.center - V3.dot (ρ • bearing (-(3 * Real.pi / 4)) - c.center) c.axis • c.axis = ρ • bearing (-(3 * Real.pi / 4)) := by
      unfold c cylinderExample bearing V3.dot
      ext <;> simp
    rw [ho]
    have hs : V3.normSq (ρ • bearing (-(3 * Real.pi / 4))) = ρ ^ 2 := by
      unfold bearing V3.normSq V3.dot
      simp only [V3.smul_e, V3.smul_n, V3.smul_u]
      linear_combination ρ ^ 2 * hb
    have hdot : V3.dot ((-1 : ℝ) • bearing (-(3 * Real.pi / 4))) (ρ • bearing (-(3 * Real.pi / 4))) = -ρ := by
      unfold bearing V3.dot
      simp only [V3.smul_e, V3.smul_n, V3.smul_u]
      linear_combination -ρ * hb
    rw [hs, hdot, Real.sqrt_sq h1.le]
    rw [neg_div, div_self h1.ne', neg_neg]
    norm_num

/-! ## Blocking -/

/-- the rectangle the code makes of four corners -/
noncomputable def rectOf (q : Quad) : Rect := rectOfCorners q.1 q.2.1 q.2.2.1 q.2.2.2

theorem normalize_neg_vec (v : V3 ℝ) : SoftMask.normalize (-vec v) = -vec (SoftMask.normalize v) := by
  unfold SoftMask.normalize
  have h : V3.dot (-vec v) (-vec v) = V3.dot v v := by unfold V3.dot vec; simp
  rw [h]
  ext <;> simp [vec, neg_div]

theorem dot_neg_vec (a b : V3 ℝ) : V3.dot (vec a) (-vec b) = -V3.dot a b := by unfold V3.dot vec; simp; ring

theorem safeDenominator_neg (eps x : ℝ) (hx : x ≠ 0) : safeDenominator eps (-x) = -safeDenominator eps x := by
  unfold safeDenominator
  rw [abs_neg]
  split_ifs with h1 h2 h3
  · exact absurd (le_antisymm (by linarith) h3) hx
  · exact (neg_neg _).symm
  · rfl
  · exact absurd (not_le.1 h2) (by push Not; linarith)
  · rfl

theorem normalize_dot_ne (d v : V3 ℝ) (h : V3.dot d v ≠ 0) : V3.dot d (SoftMask.normalize v) ≠ 0 := by
  have hl : (0 : ℝ) < max (Real.sqrt (V3.dot v v)) (1 / 10 ^ 12) := lt_max_of_lt_right (by norm_num)
  unfold SoftMask.normalize
  simp only
  set l := max (Real.sqrt (V3.dot v v)) (1 / 10 ^ 12)
  have : V3.dot d ⟨v.e / l, v.n / l, v.u / l⟩ = V3.dot d v / l := by unfold V3.dot; field_simp
  rw [this]
  exact div_ne_zero h hl.ne'

/-- corner by corner mirrored rectangles -/
theorem sigma_quad (eps softness offset : ℝ) (q : Quad) (r : V3 ℝ × V3 ℝ) (h : NotParallel q r) :
    sigma eps softness offset (ray r).1 (ray r).2 (rectOf (quad q)) = sigma eps softness offset r.1 r.2 (rectOf q) := by
  obtain ⟨c0, c1, c2, c3⟩ := q
  obtain ⟨o, d⟩ := r
  have hrect : rectOf (quad (c0, c1, c2, c3)) =
      ⟨vec c0, vec (c1 - c0), vec (c3 - c0), -vec (rectOf (c0, c1, c2, c3)).normal⟩ := by
    unfold rectOf quad rectOfCorners
    simp only [sub_vec, cross_vec, normalize_neg_vec]
  have hd : SoftMask.planeDistance eps (vec o) (vec d) (rectOf (quad (c0, c1, c2, c3))) = SoftMask.planeDistance eps o d (rectOf (c0, c1, c2, c3)) := by
    rw [hrect]
    unfold SoftMask.planeDistance
    simp only [sub_vec, dot_neg_vec]
    have hnz : V3.dot d (rectOf (c0, c1, c2, c3)).normal ≠ 0 := normalize_dot_ne d _ h
    rw [safeDenominator_neg _ _ hnz, neg_div_neg_eq]
    rfl
  have hg : gram (rectOf (quad (c0, c1, c2, c3))) = gram (rectOf (c0, c1, c2, c3)) := by
    rw [hrect]
    unfold gram
    simp only [dot_vec]
    rfl
  have hp : planeCoordinates eps (vec o) (vec d) (rectOf (quad (c0, c1, c2, c3))) = planeCoordinates eps o d (rectOf (c0, c1, c2, c3)) := by
    unfold planeCoordinates
    simp only [hd, hg]
    rw [hrect]
    simp only [move_vec, sub_vec, dot_vec]
    rfl
  unfold sigma ray
  simp only [hd, hg, hp]

theorem gram_eq (r : Rect) : gram r = V3.dot (V3.cross r.spanU r.spanV) (V3.cross r.spanU r.spanV) := by
  unfold gram V3.dot V3.cross; ring

/-- mirrored rectangles with corners numbered from the other side -/
theorem sigma_turned (softness offset : ℝ) (q : Quad) (r : V3 ℝ × V3 ℝ) (h : Parallelogram q) :
    sigma (1 / 10 ^ 12) softness offset (ray r).1 (ray r).2 (rectOf (turned q)) = sigma (1 / 10 ^ 12) softness offset r.1 r.2 (rectOf q) := by
  obtain ⟨c0, c1, c2, c3⟩ := q
  obtain ⟨o, d⟩ := r
  obtain ⟨hside, harea⟩ := h
  simp only at hside harea
  have hcross : V3.cross (vec (c1 - c0)) (-vec (c3 - c0)) = vec (V3.cross (c1 - c0) (c3 - c0)) := by
    ext <;> simp [V3.cross, vec] <;> ring
  have hrect : rectOf (turned (c0, c1, c2, c3)) = ⟨vec c3, vec (c1 - c0), -vec (c3 - c0), vec (rectOf (c0, c1, c2, c3)).normal⟩ := by
    unfold rectOf turned rectOfCorners
    have h1 : vec c2 - vec c3 = vec (c1 - c0) := by rw [sub_vec, hside]
    have h2 : vec c0 - vec c3 = -vec (c3 - c0) := by ext <;> simp [vec] <;> ring
    have h3 : SoftMask.normalize (vec (V3.cross (c1 - c0) (c3 - c0))) = vec (SoftMask.normalize (V3.cross (c1 - c0) (c3 - c0))) := by
      unfold SoftMask.normalize
      rw [dot_vec]
      ext <;> simp [vec, neg_div]
    simp only [h1, h2, hcross, h3]
  have hperp : V3.dot (c3 - c0) (rectOf (c0, c1, c2, c3)).normal = 0 := by
    unfold rectOf rectOfCorners SoftMask.normalize V3.dot V3.cross
    simp only
    ring
  have hd : SoftMask.planeDistance (1 / 10 ^ 12) (vec o) (vec d) (rectOf (turned (c0, c1, c2, c3))) = SoftMask.planeDistance (1 / 10 ^ 12) o d (rectOf (c0, c1, c2, c3)) := by
    rw [hrect]
    unfold SoftMask.planeDistance
    simp only [sub_vec, dot_vec]
    congr 1
    have : V3.dot (c3 - o) (rectOf (c0, c1, c2, c3)).normal = V3.dot (c0 - o) (rectOf (c0, c1, c2, c3)).normal + V3.dot (c3 - c0) (rectOf (c0, c1, c2, c3)).normal := by
      unfold V3.dot; simp; ring
    rw [this, hperp, add_zero]
    rfl
  have hnegdot : ∀ a b : V3 ℝ, V3.dot (-vec a) (-vec b) = V3.dot a b := by intro a b; unfold V3.dot vec; simp
  have hg : gram (rectOf (turned (c0, c1, c2, c3))) = gram (rectOf (c0, c1, c2, c3)) := by
    rw [hrect]
    unfold gram
    simp only [dot_vec, dot_neg_vec, hnegdot]
    unfold rectOf rectOfCorners
    ring
  have hbig : (1 : ℝ) / 10 ^ 12 ≤ gram (rectOf (c0, c1, c2, c3)) := by
    rw [gram_eq]; exact harea
  have hsafe : safeDet (1 / 10 ^ 12) (gram (rectOf (c0, c1, c2, c3))) = gram (rectOf (c0, c1, c2, c3)) := by
    unfold safeDet
    rw [if_neg]
    rw [not_lt]
    exact hbig.trans (le_abs_self _)
  have hne : gram (rectOf (c0, c1, c2, c3)) ≠ 0 := by
    have : (0 : ℝ) < 1 / 10 ^ 12 := by norm_num
    linarith
  have hp : planeCoordinates (1 / 10 ^ 12) (vec o) (vec d) (rectOf (turned (c0, c1, c2, c3))) =
      ((planeCoordinates (1 / 10 ^ 12) o d (rectOf (c0, c1, c2, c3))).1, 1 - (planeCoordinates (1 / 10 ^ 12) o d (rectOf (c0, c1, c2, c3))).2) := by
    unfold planeCoordinates
    simp only [hd, hg, hsafe]
    rw [hrect]
    simp only [move_vec, sub_vec, dot_vec, dot_neg_vec, hnegdot]
    have hU : (rectOf (c0, c1, c2, c3)).spanU = c1 - c0 := rfl
    have hV : (rectOf (c0, c1, c2, c3)).spanV = c3 - c0 := rfl
    have hC : (rectOf (c0, c1, c2, c3)).corner = c0 := rfl
    have hgg : gram (rectOf (c0, c1, c2, c3)) = V3.dot (c1 - c0) (c1 - c0) * V3.dot (c3 - c0) (c3 - c0) - V3.dot (c1 - c0) (c3 - c0) * V3.dot (c1 - c0) (c3 - c0) := rfl
    rw [hU, hV, hC]
    set x := o + SoftMask.planeDistance (1 / 10 ^ 12) o d (rectOf (c0, c1, c2, c3)) • d with hx
    have e1 : ∀ a : V3 ℝ, V3.dot (x - c3) a = V3.dot (x - c0) a - V3.dot (c3 - c0) a := by intro a; unfold V3.dot; simp; ring
    have e2 : V3.dot (c3 - c0) (c1 - c0) = V3.dot (c1 - c0) (c3 - c0) := by unfold V3.dot; ring
    rw [e1, e1, e2]
    refine Prod.ext ?_ ?_
    · simp only
      congr 1
      ring
    · simp only
      rw [eq_sub_iff_add_eq, ← add_div, div_eq_one_iff_eq hne, hgg]
      ring
  unfold sigma ray
  simp only [hd, hg, hp, sub_sub_cancel]
  rw [mul_comm (sigmoid (softness * (1 - _))) (sigmoid (softness * (planeCoordinates (1 / 10 ^ 12) o d (rectOf (c0, c1, c2, c3))).2))]

theorem softMask_perm (eps softness alpha offset : ℝ) (o d : V3 ℝ) (l l' : List Rect) (h : l.Perm l') :
    softMask eps softness alpha offset o d l = softMask eps softness alpha offset o d l' := by
  have main : ∀ l l' : List Rect, l.Perm l' → (l.mapM (sigma eps softness offset o d) = none ∧ l'.mapM (sigma eps softness offset o d) = none) ∨
      ∃ a b, l.mapM (sigma eps softness offset o d) = some a ∧ l'.mapM (sigma eps softness offset o d) = some b ∧ a.sum = b.sum := by
    intro l l' h
    induction h with
    | nil => exact Or.inr ⟨[], [], rfl, rfl, rfl⟩
    | cons x _ ih =>
      simp only [List.mapM_cons, Option.bind_eq_bind, Option.pure_def]
      rcases ih with ⟨h1, h2⟩ | ⟨a, b, h1, h2, h3⟩
      · left
        rw [h1, h2]
        cases sigma eps softness offset o d x <;> simp
      · rw [h1, h2]
        cases hs : sigma eps softness offset o d x with
        | none => left; simp
        | some v => right; exact ⟨v :: a, v :: b, by simp, by simp, by simp [h3]⟩
    | swap x y l =>
      simp only [List.mapM_cons, Option.bind_eq_bind, Option.pure_def]
      cases h1 : sigma eps softness offset o d x <;> cases h2 : sigma eps softness offset o d y <;> cases h3 : l.mapM (sigma eps softness offset o d)
      case some.some.some v w a =>
        right; exact ⟨_, _, rfl, rfl, by simp; ring⟩
      all_goals (left; simp)
    | trans _ _ ih1 ih2 =>
      rcases ih1 with ⟨h1, h2⟩ | ⟨a, b, h1, h2, h3⟩
      · rcases ih2 with ⟨h4, h5⟩ | ⟨c, e, h4, _, _⟩
        · exact Or.inl ⟨h1, h5⟩
        · rw [h2] at h4; cases h4
      · rcases ih2 with ⟨h4, h5⟩ | ⟨c, e, h4, h5, h6⟩
        · rw [h2] at h4; cases h4
        · rw [h2] at h4; cases h4
          exact Or.inr ⟨a, e, h1, h5, h3.trans h6⟩
  unfold softMask
  rcases main l l' h with ⟨h1, h2⟩ | ⟨a, b, h1, h2, h3⟩
  · rw [h1, h2]
  · rw [h1, h2]; simp only [h3]

theorem mapM_sigma_congr (eps softness offset : ℝ) (r : V3 ℝ × V3 ℝ) (f g : Quad → Rect) (quads : List Quad)
    (h : ∀ q ∈ quads, sigma eps softness offset (ray r).1 (ray r).2 (f q) = sigma eps softness offset r.1 r.2 (g q)) :
    (quads.map f).mapM (sigma eps softness offset (ray r).1 (ray r).2) = (quads.map g).mapM (sigma eps softness offset r.1 r.2) := by
  induction quads with
  | nil => rfl
  | cons q qs ih =>
    simp only [List.map_cons, List.mapM_cons]
    rw [h q (by simp), ih fun q hq => h q (by simp [hq])]

/-- C96 for blocking: the mirrored ray is blocked by the mirrored heliostats as the ray is by the heliostats, in whatever order they are considered.  The corners of the mirrored heliostats may be
numbered like those of other heliostats (real mirrors, `turned`), or corner by corner as in the original (`quad`; then it must not be exactly parallel to the ray). -/
theorem C96_blocking (softness alpha offset : ℝ) (r : V3 ℝ × V3 ℝ) (quads : List Quad) (rects : List Rect) :
    ((∀ q ∈ quads, Parallelogram q) → rects.Perm (quads.map fun q => rectOf (turned q)) →
      softMask (1 / 10 ^ 12) softness alpha offset (ray r).1 (ray r).2 rects = softMask (1 / 10 ^ 12) softness alpha offset r.1 r.2 (quads.map rectOf)) ∧
    ((∀ q ∈ quads, NotParallel q r) → rects.Perm (quads.map fun q => rectOf (quad q)) →
      softMask (1 / 10 ^ 12) softness alpha offset (ray r).1 (ray r).2 rects = softMask (1 / 10 ^ 12) softness alpha offset r.1 r.2 (quads.map rectOf)) := by
  constructor
  · intro h hp
    rw [softMask_perm _ _ _ _ _ _ _ _ hp]
    unfold softMask
    rw [mapM_sigma_congr _ _ _ r (fun q => rectOf (turned q)) rectOf quads fun q hq => sigma_turned softness offset q r (h q hq)]
  · intro h hp
    rw [softMask_perm _ _ _ _ _ _ _ _ hp]
    unfold softMask
    rw [mapM_sigma_congr _ _ _ r (fun q => rectOf (quad q)) rectOf quads fun q hq => sigma_quad _ softness offset q r (h q hq)]

/-- a planar or cylindrical target that can be mirrored, and the rays that avoid its rim -/
def Proper : Target → Prop
  | .planar p => 0 < p.width ∧ 0 < p.height
  | .cylinder c => 0 < c.height ∧ 0 < c.opening ∧ InFront c

def Avoids : Target → V3 ℝ × V3 ℝ → Prop
  | .planar p => OffEdges p
  | .cylinder c => OffRim c

noncomputable def target : Target → Target
  | .planar p => .planar (plane p)
  | .cylinder c => .cylinder (cylinder c)

/-- Partial, C96 for a whole scene: sun, mirror with its normals, distortions of the sun, target and the blocking heliostats (parallelograms, numbered as usual, kept by the filter in any order) are mirrored.  Then
the image is mirrored and the factors are the same.  Missing for the full claim: rays that meet the rim of the target exactly and wide cylinders, for which it is false, and that the filter keeps the mirrored
heliostats exactly if it keeps the original ones. -/
theorem C96_blocked_scene_partial (W H : Nat) (hW : 2 ≤ W) (hH : 2 ≤ H) (m ext refl : ℝ) (hm : 0 ≤ m) (t : Target) (ht : Proper t)
    (incident : Fin 4 → ℝ) (surface : List (V3 ℝ × (Fin 4 → ℝ))) (distortions : List (List (ℝ × ℝ)))
    (havoid : ∀ r ∈ raysOf incident surface distortions, Avoids t r) (quads : List Quad) (hq : ∀ q ∈ quads, Parallelogram q) (rects : List Rect)
    (hrects : rects.Perm (quads.map fun q => rectOf (turned q))) (blocked blocked' : V3 ℝ × V3 ℝ → ℝ)
    (hb : ∀ r ∈ raysOf incident surface distortions, Blocks (quads.map rectOf) blocked r)
    (hb' : ∀ r ∈ raysOf (vec4 incident) (surface.map point) (distortions.map (·.map distortion)), Blocks rects blocked' r) :
    ∃ bitmap bitmap' factors, traceSample W H m ext refl t blocked (raysOf incident surface distortions) = .ok (bitmap, factors) ∧
      traceSample W H m ext refl (target t) blocked' (raysOf (vec4 incident) (surface.map point) (distortions.map (·.map distortion))) = .ok (bitmap', factors) ∧
      ∀ y c, y < H → c < W → pixel bitmap' y c = pixel bitmap y (W - 1 - c) := by
  rw [raysOf_mirrored] at hb' ⊢
  have hsame : ∀ r ∈ raysOf incident surface distortions, blocked' (ray r) = blocked r := by
    intro r hr
    have h1 := hb r hr
    have h2 := hb' (ray r) (List.mem_map_of_mem hr)
    unfold Blocks at h1 h2
    rw [(C96_blocking 1000 100 (5 / 100) r quads rects).1 hq hrects, h1] at h2
    exact (Option.some.inj h2).symm
  cases t with
  | planar p => exact C96_image_partial W H hW hH m ext refl p ht.1 ht.2 blocked blocked' _ hsame havoid
  | cylinder c => exact C96_cylinder_partial W H hW hH m ext refl hm c ht.1 ht.2.1 ht.2.2 blocked blocked' _ hsame havoid

/-- a quarter of a cylinder facing north, a ray from the north that meets it in the middle, and a square of 2 m between them which the ray crosses meet the hypotheses -/
example : let c := cylinderExample 1 (Real.pi / 2)
    let r := ((10 : ℝ) • bearing 0, (-1 : ℝ) • bearing 0)
    let q : Quad := (⟨-1, 5, -1⟩, ⟨1, 5, -1⟩, ⟨1, 5, 1⟩, ⟨-1, 5, 1⟩)
    Proper (.cylinder c) ∧ Avoids (.cylinder c) r ∧ (∃ t, c.distance r.1 r.2 = some t) ∧ Parallelogram q ∧ NotParallel q r ∧
      (5 : ℝ) • bearing 0 = (1 / 4 : ℝ) • (q.1 + q.2.1 + q.2.2.1 + q.2.2.2) := by
  intro c r q
  have hpi := Real.pi_pos
  have hn : atan2 c.normal.n c.normal.e = Real.pi / 2 := by
    have := arg_of_angle 1 0 one_pos (by linarith) (by linarith)
    simpa [c, cylinderExample] using this
  obtain ⟨t, ρ, h1, h2, h3⟩ := cylinderExample_hit 1 (Real.pi / 2) (by norm_num) (bearing 0)
    (by unfold bearing; simp only [neg_sq]; exact Real.sin_sq_add_cos_sq _) rfl
  refine ⟨⟨by unfold c cylinderExample; norm_num, by change 0 < Real.pi / 2; linarith, by unfold c cylinderExample; norm_num, ?_, ?_⟩, ?_, ⟨t, h2⟩, ⟨?_, ?_⟩, ?_, ?_⟩
  · rw [hn]; change 0 ≤ Real.pi / 2 - Real.pi / 2 / 2; linarith
  · rw [hn]; change Real.pi / 2 + Real.pi / 2 / 2 ≤ Real.pi; linarith
  · intro t' ht'
    have ht : c.distance r.1 r.2 = some t := h2
    rw [ht'] at ht
    cases ht
    have hx := toLocal_of_angle c (cylinderExample_framed 1 _ (by norm_num)) r.1 r.2 t ρ 0 0 (by
      change (10 : ℝ) • bearing 0 + t • ((-1 : ℝ) • bearing 0) = _
      rw [h3]; unfold c cylinderExample V3.cross bearing; ext <;> simp)
    have hang : c.angle ⟨-(ρ * Real.sin 0), ρ * Real.cos 0, 0⟩ = Real.pi / 4 := by
      unfold Cylinder.angle
      rw [hn, arg_of_angle ρ _ h1 (by linarith) (by linarith)]
      change _ - (_ - Real.pi / 2 / 2) = _
      ring
    simp only
    rw [hx, hang]
    refine ⟨by linarith, ?_, Or.inr (by simp [h1.ne'])⟩
    change Real.pi / 4 ≠ Real.pi / 2
    linarith
  · ext <;> simp [q]
  · simp only [q, V3.cross, V3.dot]; norm_num
  · unfold NotParallel; simp only [q, r, V3.cross, V3.dot, bearing]; norm_num
  · unfold bearing; ext <;> simp [q] <;> norm_num

end Artist.Mirrored
