import Verif.Proofs.PaintTower
/-!
# C77: measured towers become the target areas that were measured
-/
namespace Artist.PaintTower
open Artist Flatten

/-- The corner at the lower or upper (`up = -1, 1`) and left or right (`side = 1, -1`) end of a part of a cylinder with center `c`, normal `n`, axis `a`, radius `r`,
height `h` and opening angle `2 α`. -/
noncomputable def corner (c n a : V3 ℝ) (r h α up side : ℝ) : V3 ℝ :=
  c + (up * h / 2) • a + (r * Real.cos α) • n + (side * r * Real.sin α) • V3.cross n a

/-- C77, cylinders: center and height computed from the corners of a part of a cylinder. -/
theorem C77_cylinder_from_corners (c n a : V3 ℝ) (r h α degrees : ℝ) (hn : V3.dot n n = 1) (hs : (1 / 10 ^ 12 : ℝ) ≤ √(n.e ^ 2 + n.n ^ 2)) (ha : IsAxis n a)
    (hr : 0 ≤ r) (hh : 0 ≤ h) :
    cylinder (corner c n a r h α 1 1) (corner c n a r h α (-1) 1) (corner c n a r h α 1 (-1)) (corner c n a r h α (-1) (-1)) n r degrees =
      some ⟨c + (r * (Real.cos α - |Real.cos α|)) • n, n, a, r, h, Geo.deg2rad degrees⟩ := by
  have ht := cross_unit n a hn ha.1 ha.2.1
  have hchord : ∀ up, corner c n a r h α up (-1) - corner c n a r h α up 1 = (-2 * r * Real.sin α) • V3.cross n a := by
    intro up; unfold corner
    ext <;> simp only [V3.sub_e, V3.sub_n, V3.sub_u, V3.add_e, V3.add_n, V3.add_u, V3.smul_e, V3.smul_n, V3.smul_u] <;> ring
  unfold cylinder
  rw [hchord, hchord, distance_eq r α hr _ ht]
  simp only [Option.some.injEq]
  rw [axis_eq n a hn hs ha]
  have hcl : ∀ up, (1 / 2 : ℝ) • (corner c n a r h α up 1 + corner c n a r h α up (-1)) - (r * |Real.cos α|) • n =
      c + (up * h / 2) • a + (r * (Real.cos α - |Real.cos α|)) • n := by
    intro up; unfold corner
    ext <;> simp only [V3.sub_e, V3.sub_n, V3.sub_u, V3.add_e, V3.add_n, V3.add_u, V3.smul_e, V3.smul_n, V3.smul_u] <;> ring
  rw [hcl, hcl]
  congr 1
  · ext <;> simp only [V3.add_e, V3.add_n, V3.add_u, V3.smul_e, V3.smul_n, V3.smul_u] <;> ring
  · have : c + (-1 * h / 2) • a + (r * (Real.cos α - |Real.cos α|)) • n - (c + (1 * h / 2) • a + (r * (Real.cos α - |Real.cos α|)) • n) = (-h) • a := by
      ext <;> simp only [V3.sub_e, V3.sub_n, V3.sub_u, V3.add_e, V3.add_n, V3.add_u, V3.smul_e, V3.smul_n, V3.smul_u] <;> ring
    rw [this, norm_smul _ a ha.1, abs_neg, abs_of_nonneg hh]

/-- C77, full statement for cylinders up to half a turn: the measured cylinder is recovered exactly.  Missing: wider openings (`C77_wide_cylinder`). -/
theorem C77_cylinder_partial (c n a : V3 ℝ) (r h α degrees : ℝ) (hn : V3.dot n n = 1) (hs : (1 / 10 ^ 12 : ℝ) ≤ √(n.e ^ 2 + n.n ^ 2)) (ha : IsAxis n a)
    (hr : 0 ≤ r) (hh : 0 ≤ h) (h0 : 0 ≤ degrees) (hd : degrees ≤ 180) (hα : α = Geo.deg2rad degrees / 2) :
    cylinder (corner c n a r h α 1 1) (corner c n a r h α (-1) 1) (corner c n a r h α 1 (-1)) (corner c n a r h α (-1) (-1)) n r degrees =
      some ⟨c, n, a, r, h, 2 * α⟩ := by
  rw [C77_cylinder_from_corners c n a r h α degrees hn hs ha hr hh]
  have hc : 0 ≤ Real.cos α := by
    refine Real.cos_nonneg_of_neg_pi_div_two_le_of_le ?_ ?_
    · rw [hα]; unfold Geo.deg2rad; have := Real.pi_pos; nlinarith [mul_nonneg h0 Real.pi_pos.le]
    · rw [hα]; unfold Geo.deg2rad; nlinarith [Real.pi_pos]
  rw [abs_of_nonneg hc, sub_self, mul_zero, hα]
  congr 2
  · ext <;> simp
  · ring

/-- C77, negation: for an opening of more than half a turn (and up to a full turn) the computed center lies off the axis, by up to the diameter. -/
theorem C77_wide_cylinder (c n a : V3 ℝ) (r h α degrees : ℝ) (hn : V3.dot n n = 1) (hs : (1 / 10 ^ 12 : ℝ) ≤ √(n.e ^ 2 + n.n ^ 2)) (ha : IsAxis n a)
    (hr : 0 < r) (hh : 0 ≤ h) (h0 : 180 < degrees) (hd : degrees ≤ 360) (hα : α = Geo.deg2rad degrees / 2) :
    ∃ y, cylinder (corner c n a r h α 1 1) (corner c n a r h α (-1) 1) (corner c n a r h α 1 (-1)) (corner c n a r h α (-1) (-1)) n r degrees = some y ∧
      norm (y.center - c) = 2 * r * |Real.cos α| ∧ y.center ≠ c := by
  refine ⟨_, C77_cylinder_from_corners c n a r h α degrees hn hs ha hr.le hh, ?_, ?_⟩
  all_goals
    have hc : Real.cos α < 0 := by
      refine Real.cos_neg_of_pi_div_two_lt_of_lt ?_ ?_
      · rw [hα]; unfold Geo.deg2rad; nlinarith [Real.pi_pos]
      · rw [hα]; unfold Geo.deg2rad; nlinarith [Real.pi_pos]
    have hdiff : c + (r * (Real.cos α - |Real.cos α|)) • n - c = (2 * r * Real.cos α) • n := by
      rw [abs_of_neg hc]
      ext <;> simp only [V3.sub_e, V3.sub_n, V3.sub_u, V3.add_e, V3.add_n, V3.add_u, V3.smul_e, V3.smul_n, V3.smul_u] <;> ring
    have hnorm : norm (c + (r * (Real.cos α - |Real.cos α|)) • n - c) = 2 * r * |Real.cos α| := by
      rw [hdiff, norm_smul _ n hn, abs_mul, abs_of_pos (by positivity : 0 < 2 * r)]
  · exact hnorm
  · intro e
    dsimp only at e
    rw [e] at hnorm
    have : norm (c - c) = 0 := by unfold norm V3.normSq V3.dot; simp
    rw [this] at hnorm
    have : 0 < 2 * r * |Real.cos α| := by
      have := abs_pos_of_neg hc
      positivity
    linarith

/-- C77, planar areas: the computed size of a rectangle with center `c` and half edges `x` (to the right) and `y` (up) is that of its edges along east and
up. -/
theorem C77_plane_size (c x y : V3 ℝ) :
    cornersToPlane (c - x + y) (c + x + y) (c - x - y) (c + x - y) = (2 * |x.e|, 2 * |y.u|) := by
  unfold cornersToPlane
  simp only [V3.sub_e, V3.sub_u, V3.add_e, V3.add_u]
  rw [show c.e + x.e + y.e - (c.e - x.e + y.e) = 2 * x.e by ring, show c.e + x.e - y.e - (c.e - x.e - y.e) = 2 * x.e by ring,
    show c.u - x.u + y.u - (c.u - x.u - y.u) = 2 * y.u by ring, show c.u + x.u + y.u - (c.u + x.u - y.u) = 2 * y.u by ring, abs_mul, abs_mul,
    abs_of_pos (by norm_num : (0 : ℝ) < 2)]
  congr 1 <;> ring

/-- The area computed from the sizes is at most the area of the rectangle, and equal for edges along east and up. -/
theorem C77_plane_area (x y : V3 ℝ) : 2 * |x.e| * (2 * |y.u|) ≤ 2 * norm x * (2 * norm y) ∧
    (x.n = 0 → x.u = 0 → y.e = 0 → y.n = 0 → 2 * |x.e| * (2 * |y.u|) = 2 * norm x * (2 * norm y)) := by
  have h1 : |x.e| ≤ norm x := by
    unfold norm V3.normSq V3.dot
    rw [← Real.sqrt_sq_eq_abs]
    exact Real.sqrt_le_sqrt (by nlinarith [sq_nonneg x.n, sq_nonneg x.u])
  have h2 : |y.u| ≤ norm y := by
    unfold norm V3.normSq V3.dot
    rw [← Real.sqrt_sq_eq_abs]
    exact Real.sqrt_le_sqrt (by nlinarith [sq_nonneg y.n, sq_nonneg y.e])
  refine ⟨?_, fun hxn hxu hye hyn => ?_⟩
  · have := mul_le_mul h1 h2 (abs_nonneg _) (le_trans (abs_nonneg _) h1)
    nlinarith
  · unfold norm V3.normSq V3.dot
    rw [hxn, hxu, hye, hyn]
    simp only [mul_zero, add_zero, zero_add]
    rw [Real.sqrt_mul_self_eq_abs, Real.sqrt_mul_self_eq_abs]

/-- The plane made of a measured rectangle. -/
noncomputable def measured (c x y n : V3 ℝ) : Intersect.Plane ℝ :=
  let size := cornersToPlane (c - x + y) (c + x + y) (c - x - y) (c + x - y)
  ⟨c, n, size.1, size.2⟩

theorem on_plane (o d : V3 ℝ) (p : Intersect.Plane ℝ) (h : Intersect.planeAngle d p < 0) : V3.dot (Intersect.planePoint o d p - p.center) p.normal = 0 := by
  unfold Intersect.planePoint Intersect.planeDistance
  simp only [h, decide_true, if_true]
  have h' : V3.dot d p.normal ≠ 0 := h.ne
  have : V3.dot (o + (V3.dot (p.center - o) p.normal / Intersect.planeAngle d p) • d - p.center) p.normal =
      V3.dot o p.normal - V3.dot p.center p.normal + V3.dot (p.center - o) p.normal / Intersect.planeAngle d p * V3.dot d p.normal := by
    unfold V3.dot; simp only [V3.sub_e, V3.sub_n, V3.sub_u, V3.add_e, V3.add_n, V3.add_u, V3.smul_e, V3.smul_n, V3.smul_u]; ring
  rw [this, show Intersect.planeAngle d p = V3.dot d p.normal from rfl, div_mul_cancel₀ _ h']
  unfold V3.dot; simp only [V3.sub_e, V3.sub_n, V3.sub_u]; ring

theorem intensity_iff (W H : Nat) (hW : 2 ≤ W) (hH : 2 ≤ H) (o d : V3 ℝ) (m : ℝ) (hm : 0 < m) (p : Intersect.Plane ℝ) (hw : 0 < p.width) (hh : 0 < p.height)
    (hf : Intersect.planeAngle d p < 0) :
    0 < (Intersect.linePlane W H o d m p).intensity ↔
      |(Intersect.planePoint o d p).e - p.center.e| ≤ p.width / 2 ∧ |(Intersect.planePoint o d p).u - p.center.u| ≤ p.height / 2 := by
  have hW' : (0 : ℝ) < (W : ℝ) - 1 := by
    have : (2 : ℝ) ≤ W := by exact_mod_cast hW
    linarith
  have hH' : (0 : ℝ) < (H : ℝ) - 1 := by
    have : (2 : ℝ) ≤ H := by exact_mod_cast hH
    linarith
  have aux : ∀ (q c w N : ℝ), 0 < w → 0 < N → ((0 ≤ (q + w / 2 - c) / w * N ∧ (q + w / 2 - c) / w * N ≤ N) ↔ |q - c| ≤ w / 2) := by
    intro q c w N hw hN
    rw [abs_le, mul_nonneg_iff_of_pos_right hN, le_div_iff₀ hw, zero_mul]
    have : (q + w / 2 - c) / w * N ≤ N ↔ q + w / 2 - c ≤ w := by
      rw [div_mul_eq_mul_div, div_le_iff₀ hw, mul_comm N w, mul_le_mul_iff_left₀ hN]
    rw [this]
    constructor <;> rintro ⟨a, b⟩ <;> constructor <;> linarith
  have h1 := aux (Intersect.planePoint o d p).e p.center.e p.width ((W : ℝ) - 1) hw hW'
  have h2 := aux (Intersect.planePoint o d p).u p.center.u p.height ((H : ℝ) - 1) hh hH'
  unfold Intersect.linePlane
  dsimp only
  rw [← h1, ← h2]
  have hpos : 0 < m * -Intersect.planeAngle d p := mul_pos hm (by linarith)
  split_ifs with hv
  · simp only [Bool.and_eq_true, decide_eq_true_eq] at hv
    exact ⟨fun _ => ⟨⟨hv.1.1.1.1, hv.1.1.1.2⟩, hv.1.1.2, hv.1.2⟩, fun _ => hpos⟩
  · simp only [Bool.and_eq_true, decide_eq_true_eq] at hv
    exact ⟨fun h => absurd h (lt_irrefl _), fun h => absurd ⟨⟨⟨⟨h.1.1, h.1.2⟩, h.2.1⟩, h.2.2⟩, hf⟩ hv⟩

/-- C77, full statement for planar areas turned or tilted but not both: a ray that meets the plane from the front contributes to the bitmap exactly if it meets
the measured rectangle.  Missing: areas that are turned and tilted (`C77_turned_and_tilted`). -/
theorem C77_plane_partial (W H : Nat) (hW : 2 ≤ W) (hH : 2 ≤ H) (c x y n o d : V3 ℝ) (m : ℝ) (hm : 0 < m) (hx : x.u = 0) (hy : y.e = 0) (hxe : x.e ≠ 0)
    (hyu : y.u ≠ 0) (hnx : V3.dot n x = 0) (hny : V3.dot n y = 0) (hf : Intersect.planeAngle d (measured c x y n) < 0) :
    0 < (Intersect.linePlane W H o d m (measured c x y n)).intensity ↔
      ∃ s t : ℝ, |s| ≤ 1 ∧ |t| ≤ 1 ∧ Intersect.planePoint o d (measured c x y n) = c + s • x + t • y := by
  have hxp := abs_pos.2 hxe
  have hyp := abs_pos.2 hyu
  have hwid : (measured c x y n).width = 2 * |x.e| := by unfold measured; rw [C77_plane_size]
  have hhei : (measured c x y n).height = 2 * |y.u| := by unfold measured; rw [C77_plane_size]
  rw [intensity_iff W H hW hH o d m hm _ (by rw [hwid]; positivity) (by rw [hhei]; positivity) hf, hwid, hhei,
    show 2 * |x.e| / 2 = |x.e| by ring, show 2 * |y.u| / 2 = |y.u| by ring]
  have hon := on_plane o d _ hf
  set P := Intersect.planePoint o d (measured c x y n)
  have hcen : (measured c x y n).center = c := rfl
  have hnor : (measured c x y n).normal = n := rfl
  rw [hcen, hnor] at hon
  rw [hcen]
  constructor
  · rintro ⟨h1, h2⟩
    refine ⟨(P.e - c.e) / x.e, (P.u - c.u) / y.u, ?_, ?_, ?_⟩
    · rw [abs_div, div_le_one hxp]; exact h1
    · rw [abs_div, div_le_one hyp]; exact h2
    · have hnn : n.n ≠ 0 := by
        intro h0
        unfold V3.dot at hnx hny
        rw [h0, hx] at hnx
        rw [h0, hy] at hny
        have he : n.e = 0 := by
          rcases mul_eq_zero.1 (show n.e * x.e = 0 by linarith) with h | h
          exacts [h, absurd h hxe]
        have hu : n.u = 0 := by
          rcases mul_eq_zero.1 (show n.u * y.u = 0 by linarith) with h | h
          exacts [h, absurd h hyu]
        unfold Intersect.planeAngle V3.dot at hf
        rw [hnor, h0, he, hu] at hf
        simp at hf
      ext
      · simp only [V3.add_e, V3.smul_e, hy]; field_simp; ring
      · simp only [V3.add_n, V3.smul_n]
        unfold V3.dot at hon hnx hny
        simp only [V3.sub_e, V3.sub_n, V3.sub_u] at hon
        rw [hx] at hnx
        rw [hy] at hny
        apply mul_left_cancel₀ hnn
        have e1 : n.n * ((P.e - c.e) / x.e * x.n) = -(n.e * (P.e - c.e)) := by
          field_simp
          linear_combination (P.e - c.e) * hnx
        have e2 : n.n * ((P.u - c.u) / y.u * y.n) = -(n.u * (P.u - c.u)) := by
          field_simp
          linear_combination (P.u - c.u) * hny
        rw [mul_add, mul_add, e1, e2]
        linear_combination hon
      · simp only [V3.add_u, V3.smul_u, hx]; field_simp; ring
  · rintro ⟨s, t, hs, ht, hP⟩
    rw [hP]
    simp only [V3.add_e, V3.add_u, V3.smul_e, V3.smul_u, hx, hy]
    rw [show c.e + s * x.e + t * 0 - c.e = s * x.e by ring, show c.u + s * 0 + t * y.u - c.u = t * y.u by ring, abs_mul, abs_mul]
    exact ⟨mul_le_of_le_one_left hxp.le hs, mul_le_of_le_one_left hyp.le ht⟩

/-- C77, negation: a rectangle that is turned and tilted has a corner such that rays onto this corner are not counted. -/
theorem C77_turned_and_tilted (W H : Nat) (hW : 2 ≤ W) (hH : 2 ≤ H) (c x y n : V3 ℝ) (hye : y.e ≠ 0) (hxe : x.e ≠ 0) (hyu : y.u ≠ 0) :
    ∃ t : ℝ, |t| = 1 ∧ ∀ (o d : V3 ℝ) (m : ℝ), 0 < m → Intersect.planeAngle d (measured c x y n) < 0 →
      Intersect.planePoint o d (measured c x y n) = c + x + t • y → ¬ 0 < (Intersect.linePlane W H o d m (measured c x y n)).intensity := by
  have hxp := abs_pos.2 hxe
  have hyp := abs_pos.2 hyu
  have hwid : (measured c x y n).width = 2 * |x.e| := by unfold measured; rw [C77_plane_size]
  have hhei : (measured c x y n).height = 2 * |y.u| := by unfold measured; rw [C77_plane_size]
  have key : ∃ t : ℝ, |t| = 1 ∧ |x.e| < |x.e + t * y.e| := by
    rcases lt_or_gt_of_ne hxe with h1 | h1 <;> rcases lt_or_gt_of_ne hye with h2 | h2
    · exact ⟨1, abs_one, by rw [abs_of_neg h1, abs_of_neg (by linarith)]; linarith⟩
    · exact ⟨-1, by simp, by rw [abs_of_neg h1, abs_of_neg (by linarith)]; linarith⟩
    · exact ⟨-1, by simp, by rw [abs_of_pos h1, abs_of_pos (by linarith)]; linarith⟩
    · exact ⟨1, abs_one, by rw [abs_of_pos h1, abs_of_pos (by linarith)]; linarith⟩
  obtain ⟨t, ht, hlt⟩ := key
  refine ⟨t, ht, fun o d m hm hf hP h => ?_⟩
  rw [intensity_iff W H hW hH o d m hm _ (by rw [hwid]; positivity) (by rw [hhei]; positivity) hf, hwid, hP] at h
  have := h.1
  rw [show (measured c x y n).center = c from rfl] at this
  simp only [V3.add_e, V3.smul_e] at this
  rw [show c.e + x.e + t * y.e - c.e = x.e + t * y.e by ring, show 2 * |x.e| / 2 = |x.e| by ring] at this
  linarith

theorem loop_spec (plant : Geo.Wgs) (f : File) (A : Areas) (h : extractLoop plant f = .ok A) :
    List.Forall₂ (fun x a => a.1 = x.1 ∧ planarArea plant x.2 = .ok a.2) (f.filter fun x => x.2.type = some "planar".toList) A.planar ∧
    List.Forall₂ (fun x a => a.1 = x.1 ∧ cylindricalArea plant x.1 x.2 = .ok a.2) (f.filter fun x => x.2.type = some "convex_cylinder".toList) A.cylinders ∧
    ∀ x ∈ f, x.2.type ≠ none := by
  induction f generalizing A with
  | nil => cases h; exact ⟨.nil, .nil, by simp⟩
  | cons x f ih =>
    obtain ⟨name, e⟩ := x
    unfold extractLoop at h
    cases ht : e.type with
    | none => rw [ht] at h; cases h
    | some t =>
      have hn : "convex_cylinder".toList ≠ "planar".toList := by decide +kernel
      simp only [ht, need, bind, Except.bind] at h
      have hmem : ∀ B, extractLoop plant f = .ok B → ∀ x ∈ (name, e) :: f, x.2.type ≠ none := by
        intro B hB x hx
        rcases List.mem_cons.1 hx with rfl | hx
        · rw [ht]; simp
        · exact (ih B hB).2.2 x hx
      by_cases h1 : t = "planar".toList
      · rw [if_pos h1] at h
        cases ha : planarArea plant e with
        | error err => rw [ha] at h; cases h
        | ok a =>
          cases hr : extractLoop plant f with
          | error err => rw [ha, hr] at h; cases h
          | ok r =>
            simp only [ha, hr] at h
            cases h
            obtain ⟨i1, i2, i3⟩ := ih r hr
            rw [List.filter_cons_of_pos (by simp [ht, h1]), List.filter_cons_of_neg (by simp only [ht, h1, Option.some.injEq, decide_eq_true_eq]; exact hn.symm)]
            exact ⟨.cons ⟨rfl, ha⟩ i1, i2, hmem r hr⟩
      · rw [if_neg h1] at h
        by_cases h2 : t = "convex_cylinder".toList
        · rw [if_pos h2] at h
          cases ha : cylindricalArea plant name e with
          | error err => rw [ha] at h; cases h
          | ok a =>
            cases hr : extractLoop plant f with
            | error err => rw [ha, hr] at h; cases h
            | ok r =>
              simp only [ha, hr] at h
              cases h
              obtain ⟨i1, i2, i3⟩ := ih r hr
              rw [List.filter_cons_of_neg (by simp only [ht, Option.some.injEq, decide_eq_true_eq]; exact h1), List.filter_cons_of_pos (by simp [ht, h2])]
              exact ⟨i1, .cons ⟨rfl, ha⟩ i2, hmem r hr⟩
        · rw [if_neg h2] at h
          obtain ⟨i1, i2, i3⟩ := ih A h
          rw [List.filter_cons_of_neg (by simp only [ht, Option.some.injEq, decide_eq_true_eq]; exact h1),
            List.filter_cons_of_neg (by simp only [ht, Option.some.injEq, decide_eq_true_eq]; exact h2)]
          exact ⟨i1, i2, hmem A h⟩

/-- C77: in a file that starts with the power plant, the planar and the cylindrical areas are exactly the entries of that type, under their names, in the order
of the file, each computed from its own entry. -/
theorem C77_areas (plant : Entry) (pos : Geo.Wgs) (hp : plant.position = some pos) (areas : File) (A : Areas)
    (h : extract (("power_plant_properties".toList, plant) :: areas) = .ok A) :
    List.Forall₂ (fun x a => a.1 = x.1 ∧ planarArea pos x.2 = .ok a.2) (areas.filter fun x => x.2.type = some "planar".toList) A.planar ∧
    List.Forall₂ (fun x a => a.1 = x.1 ∧ cylindricalArea pos x.1 x.2 = .ok a.2) (areas.filter fun x => x.2.type = some "convex_cylinder".toList)
      A.cylinders := by
  have : extractLoop pos areas = .ok A := by
    rw [← h]
    unfold extract
    simp only [dictGet, if_true, need, hp, bind, Except.bind, List.tail_cons]
  obtain ⟨h1, h2, -⟩ := loop_spec pos areas A this
  exact ⟨h1, h2⟩

/-- Every error is a `KeyError`. -/
def OnlyKeyError {A : Type} (x : Except PyErr A) : Prop := ∀ e, x = .error e → e = .keyError

theorem OnlyKeyError.need {A : Type} (o : Option A) : OnlyKeyError (need o) := by
  intro e h
  cases o <;> cases h; rfl

theorem OnlyKeyError.bind {A B : Type} {x : Except PyErr A} {f : A → Except PyErr B} (hx : OnlyKeyError x) (hf : ∀ a, OnlyKeyError (f a)) :
    OnlyKeyError (x >>= f) := by
  intro e h
  cases x with
  | error e' => cases h; exact hx _ rfl
  | ok a => exact hf a e h

theorem OnlyKeyError.pure {A : Type} (a : A) : OnlyKeyError (Pure.pure a : Except PyErr A) := by
  intro e h; cases h

theorem loop_error (plant : Geo.Wgs) (f : File) (e : PyErr) (h : extractLoop plant f = .error e) : e = .keyError := by
  have planar_error : ∀ x, OnlyKeyError (planarArea plant x) := by
    intro x
    unfold planarArea
    exact .bind (.need _) fun _ => .bind (.need _) fun _ => .bind (.need _) fun _ => .bind (.need _) fun _ => .bind (.need _) fun _ => .bind (.need _) fun _ => .pure _
  have cyl_error : ∀ n x, OnlyKeyError (cylindricalArea plant n x) := by
    intro n x
    unfold cylindricalArea
    exact .bind (.need _) fun _ => .bind (.need _) fun _ => .bind (.need _) fun _ => .bind (.need _) fun _ => .bind (.need _) fun _ => .bind (.need _) fun _ =>
      .bind (.need _) fun _ => .pure _
  induction f with
  | nil => cases h
  | cons x f ih =>
    obtain ⟨name, en⟩ := x
    unfold extractLoop at h
    cases ht : en.type with
    | none => rw [ht] at h; cases h; rfl
    | some t =>
      simp only [ht, need, bind, Except.bind] at h
      split_ifs at h
      · cases ha : planarArea plant en with
        | error err => rw [ha] at h; cases h; exact planar_error _ _ ha
        | ok a =>
          cases hr : extractLoop plant f with
          | error err => rw [ha, hr] at h; cases h; exact ih hr
          | ok r => rw [ha, hr] at h; cases h
      · cases ha : cylindricalArea plant name en with
        | error err => rw [ha] at h; cases h; exact cyl_error _ _ _ ha
        | ok a =>
          cases hr : extractLoop plant f with
          | error err => rw [ha, hr] at h; cases h; exact ih hr
          | ok r => rw [ha, hr] at h; cases h
      · exact ih h

/-- C77: a file with the same entries in another order, with the power plant not first, cannot be read. -/
theorem C77_order_matters (first : Key × Entry) (rest : File) (h1 : first.1 ≠ "power_plant_properties".toList)
    (h2 : ∃ plant, ("power_plant_properties".toList, plant) ∈ rest ∧ plant.type = none) : extract (first :: rest) = .error .keyError := by
  obtain ⟨plant, hm, ht⟩ := h2
  unfold extract
  cases hd : dictGet (first :: rest) "power_plant_properties".toList with
  | none => rfl
  | some p =>
    cases hp : p.position with
    | none => simp only [need, hp, bind, Except.bind]
    | some pos =>
      simp only [need, hp, bind, Except.bind, List.tail_cons]
      cases hl : extractLoop pos rest with
      | error e => rw [loop_error pos rest e hl]
      | ok A => exact absurd ht ((loop_spec pos rest A hl).2.2 _ hm)

/-- A receiver like the measured one: normal to the north and 25 degrees down (here with sides 3, 4, 5), opening 60 degrees. -/
example : ∃ n a : V3 ℝ, V3.dot n n = 1 ∧ (1 / 10 ^ 12 : ℝ) ≤ √(n.e ^ 2 + n.n ^ 2) ∧ IsAxis n a ∧ n.u < 0 := by
  refine ⟨⟨0, 4 / 5, -3 / 5⟩, ⟨0, 3 / 5, 4 / 5⟩, by norm_num [V3.dot], ?_, ?_, by norm_num⟩
  · rw [show ((0 : ℝ) ^ 2 + (4 / 5) ^ 2) = (4 / 5) ^ 2 by norm_num, Real.sqrt_sq (by norm_num)]; norm_num
  · unfold IsAxis V3.dot V3.cross; norm_num
/-- C77, what is read of a planar area: center and normal vector are those of the file, the width is the mean of the extents to the east of upper and lower edge, the height the mean of the
extents upwards of left and right edge. -/
theorem C77_planar_read (plant : Geo.Wgs) (e : Entry) (ul ll ur lr c : Geo.Wgs) (n : V3 ℝ) (h1 : dictGet e.points "upper_left".toList = some ul)
    (h2 : dictGet e.points "lower_left".toList = some ll) (h3 : dictGet e.points "upper_right".toList = some ur) (h4 : dictGet e.points "lower_right".toList = some lr)
    (h5 : dictGet e.points "center".toList = some c) (h6 : e.normal = some n) :
    ∃ a, planarArea plant e = .ok a ∧ a.center = Geo.toEnu c plant ∧ a.normal = n ∧
      a.width = (|(Geo.toEnu ur plant).e - (Geo.toEnu ul plant).e| + |(Geo.toEnu lr plant).e - (Geo.toEnu ll plant).e|) / 2 ∧
      a.height = (|(Geo.toEnu ul plant).u - (Geo.toEnu ll plant).u| + |(Geo.toEnu ur plant).u - (Geo.toEnu lr plant).u|) / 2 := by
  refine ⟨⟨Geo.toEnu c plant, n, _, _⟩, ?_, rfl, rfl, rfl, rfl⟩
  unfold planarArea
  rw [h1, h2, h3, h4, h5, h6]
  rfl

/-- C77, what is read of a cylindrical area: the cylinder of its four corners; the corners of the area "receiver" are those of the inner arc. -/
theorem C77_cylinder_read (plant : Geo.Wgs) (name : Key) (e : Entry) (ul ll ur lr : Geo.Wgs) (n : V3 ℝ) (r degrees : ℝ) (hr : e.radius = some r) (ho : e.opening = some degrees)
    (hn : e.normal = some n)
    (h : (name = "receiver".toList ∧ dictGet e.points "receiver_inner_upper_left".toList = some ul ∧ dictGet e.points "receiver_inner_lower_left".toList = some ll ∧
        dictGet e.points "receiver_inner_upper_right".toList = some ur ∧ dictGet e.points "receiver_inner_lower_right".toList = some lr) ∨
      (name ≠ "receiver".toList ∧ dictGet e.points "upper_left".toList = some ul ∧ dictGet e.points "lower_left".toList = some ll ∧
        dictGet e.points "upper_right".toList = some ur ∧ dictGet e.points "lower_right".toList = some lr)) :
    cylindricalArea plant name e = .ok (cylinder (Geo.toEnu ul plant) (Geo.toEnu ll plant) (Geo.toEnu ur plant) (Geo.toEnu lr plant) n r degrees) := by
  unfold cylindricalArea
  rcases h with ⟨h0, h1, h2, h3, h4⟩ | ⟨h0, h1, h2, h3, h4⟩
  · have k1 : "receiver_inner_".toList ++ "upper_left".toList = "receiver_inner_upper_left".toList := by decide
    have k2 : "receiver_inner_".toList ++ "lower_left".toList = "receiver_inner_lower_left".toList := by decide
    have k3 : "receiver_inner_".toList ++ "upper_right".toList = "receiver_inner_upper_right".toList := by decide
    have k4 : "receiver_inner_".toList ++ "lower_right".toList = "receiver_inner_lower_right".toList := by decide
    simp only [if_pos h0, k1, k2, k3, k4, h1, h2, h3, h4, hr, ho, hn]
    rfl
  · simp only [if_neg h0, List.nil_append, h1, h2, h3, h4, hr, ho, hn]
    rfl

/-- A planar area turned by the angle of a 3-4-5 triangle, and a ray onto its center. -/
example : ∃ c x y n o d : V3 ℝ, x.u = 0 ∧ y.e = 0 ∧ x.e ≠ 0 ∧ x.n ≠ 0 ∧ y.u ≠ 0 ∧ V3.dot n x = 0 ∧ V3.dot n y = 0 ∧ Intersect.planeAngle d (measured c x y n) < 0 ∧
    Intersect.planePoint o d (measured c x y n) = c := by
  refine ⟨⟨0, 0, 50⟩, ⟨4, 3, 0⟩, ⟨0, 0, 2⟩, ⟨-3 / 5, 4 / 5, 0⟩, ⟨-3, 4, 50⟩, ⟨3 / 5, -4 / 5, 0⟩, rfl, rfl, by norm_num, by norm_num, by norm_num, by norm_num [V3.dot],
    by norm_num [V3.dot], by norm_num [Intersect.planeAngle, measured, V3.dot], ?_⟩
  have : Intersect.planeAngle (⟨3 / 5, -4 / 5, 0⟩ : V3 ℝ) (measured ⟨0, 0, 50⟩ ⟨4, 3, 0⟩ ⟨0, 0, 2⟩ ⟨-3 / 5, 4 / 5, 0⟩) = -1 := by
    norm_num [Intersect.planeAngle, measured, V3.dot]
  unfold Intersect.planePoint Intersect.planeDistance
  simp only [this]
  norm_num [measured, V3.dot]
  ext <;> simp <;> norm_num
/-- A file with the power plant, two planar areas and an area of an unknown type. -/
example : ∃ A, extract [("power_plant_properties".toList, { position := some ⟨50, 6, 87⟩ }),
    ("a".toList, { type := some "planar".toList, normal := some ⟨0, 1, 0⟩,
                   points := [("center".toList, ⟨50, 6, 100⟩), ("upper_left".toList, ⟨50, 6, 101⟩), ("upper_right".toList, ⟨50, 6, 101⟩),
                     ("lower_left".toList, ⟨50, 6, 99⟩), ("lower_right".toList, ⟨50, 6, 99⟩)] }),
    ("b".toList, { type := some "cavity".toList })] = .ok A ∧ A.planar.map (·.1) = ["a".toList] ∧ A.cylinders = [] := ⟨_, rfl, rfl, rfl⟩

/-- The inner corners of a receiver are read, the others are not. -/
example : cylindricalArea ⟨50, 6, 87⟩ "receiver".toList { normal := some ⟨0, 1, 0⟩, radius := some 4, opening := some 60, points :=
      [("receiver_outer_upper_left".toList, ⟨1, 1, 1⟩), ("receiver_inner_upper_left".toList, ⟨50, 6, 101⟩), ("receiver_inner_upper_right".toList, ⟨50, 7, 101⟩),
       ("receiver_inner_lower_left".toList, ⟨50, 6, 99⟩), ("receiver_inner_lower_right".toList, ⟨50, 7, 99⟩)] } =
    .ok (cylinder (Geo.toEnu ⟨50, 6, 101⟩ ⟨50, 6, 87⟩) (Geo.toEnu ⟨50, 6, 99⟩ ⟨50, 6, 87⟩) (Geo.toEnu ⟨50, 7, 101⟩ ⟨50, 6, 87⟩) (Geo.toEnu ⟨50, 7, 99⟩ ⟨50, 6, 87⟩) ⟨0, 1, 0⟩ 4 60) :=
  C77_cylinder_read _ _ _ _ _ _ _ _ _ _ rfl rfl rfl (.inl ⟨rfl, rfl, rfl, rfl, rfl⟩)

end Artist.PaintTower
