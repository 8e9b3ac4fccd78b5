import Verif.Proofs.FineMirror
import Verif.Props.SurfaceImage
/-! C121: finer sampling of the mirrors converges. -/
namespace Artist.FineMirror
open Artist Nurbs Surfaces BSpline Transforms MotorImage Intersect Flux Splat Resolution Moved Filter Topology

/-- C121: mirrors have no gaps: inside the parameter square the points depend continuously on the parameters.  And from degree two on they have no creases: the normals depend
continuously on the parameters, too. -/
theorem C121_smooth (f : Facet) (p q : Nat) (hp : 1 ≤ p) (hq : 1 ≤ q) (hn : p < f.net.nu) (hm : q < f.net.nv) :
    ∃ point normal : ℝ × ℝ → H ℝ, (∀ z : ℝ × ℝ, 0 < z.1 → z.1 < 1 → 0 < z.2 → z.2 < 1 → sampleAt p q true f z = .ok (point z, normal z)) ∧
      ∀ z : ℝ × ℝ, 0 < z.1 → z.1 < 1 → 0 < z.2 → z.2 < 1 →
        (∀ i, ContinuousAt (fun w => point w i) z) ∧ (2 ≤ p → 2 ≤ q → ∀ i, ContinuousAt (fun w => normal w i) z) :=
  ⟨fun z => (mirrorAt p q f z.1 z.2).1, fun z => (mirrorAt p q f z.1 z.2).2, fun z a b c d => mirror_ok f p q hp hq hn hm z.1 z.2 a b c d,
    fun z a b c d => mirror_continuous f p q hp hq hn hm z a b c d⟩

/-- C121: let the mirror be sampled on finer and finer grids, every point sending the same bundle of scattered rays, the power of the heliostat shared by all rays.  Then the brightness of
every pixel converges, namely to the mean over the surface of the mirror of what a ray from there brings to the pixel, if no ray meets the edge of the target. -/
theorem C121_image (p q : Nat) (hp : 2 ≤ p) (hq : 2 ≤ q) (facets : List Facet) (hf : facets ≠ []) (hs : ∀ f ∈ facets, p < f.net.nu ∧ q < f.net.nv)
    (incident : Fin 4 → ℝ) (orientation : Mat) (ds : List (ℝ × ℝ)) (hds : ds ≠ [])
    (W H : Nat) (hW : 2 ≤ W) (hH : 2 ≤ H) (power ext refl : ℝ) (t : Plane ℝ) (hw : 0 < t.width) (hh : 0 < t.height)
    (edge : ∀ f ∈ facets, ∀ d ∈ ds, ∀ x ∈ Set.Icc gridEps (1 - gridEps), ∀ y ∈ Set.Icc gridEps (1 - gridEps),
      ¬ HitsEdge t (rayFrom incident orientation d (mirrorAt p q f x y)))
    (r c : Nat) (hr : r < H) (hc : c < W) (ne nn : ℕ → ℕ) (hne : Tendsto ne atTop atTop) (hnn : Tendsto nn atTop atTop) :
    ∃ mirror : ℕ → List Sample, (∀ k, sampleAll p q true (evaluationGrid (ne k) (nn k) gridEps) facets = .ok (mirror k)) ∧
      ∀ (rays : ℕ → List (V3 ℝ × V3 ℝ)) (bitmap : ℕ → List (List ℝ)) (factors : ℕ → ℝ × ℝ × ℝ),
        (∀ k, rays k = raysOf incident (placed orientation (mirror k)) (ds.map (List.replicate (mirror k).length))) →
        (∀ k, traceSample W H (power / (rays k).length) ext refl (.planar t) (fun _ => 0) (rays k) = .ok (bitmap k, factors k)) →
        Tendsto (fun k => pixel (bitmap k) r c) atTop
          (𝓝 ((ds.map fun d => (facets.map fun f => mean fun x y => brings W H power ext refl t r c (rayFrom incident orientation d (mirrorAt p q f x y))).sum).sum /
            ((ds.length : ℝ) * facets.length))) := by
  have hall := fun k => sample_all p q (by omega) (by omega) facets hs (ne k) (nn k)
  refine ⟨_, hall, ?_⟩
  clear hall
  intro rays bitmap factors hrays htr
  have len : ∀ k, ((rays k).length : ℝ) = (ds.length : ℝ) * facets.length * ((ne k : ℝ) * nn k) := by
    intro k
    rw [hrays k, rays_from, List.length_flatMap]
    simp only [List.length_map, List.length_flatMap, grid_length, List.map_const', List.sum_replicate]
    simp only [smul_eq_mul]
    push_cast
    ring
  have value : ∀ k, pixel (bitmap k) r c = (ds.map fun d => (facets.map fun f =>
      ((evaluationGrid (ne k) (nn k) gridEps).map fun z => brings W H power ext refl t r c (rayFrom incident orientation d (mirrorAt p q f z.1 z.2))).sum / ((ne k : ℝ) * nn k)).sum).sum /
        ((ds.length : ℝ) * facets.length) := by
    intro k
    rw [pixel_brings hW hH _ ext refl t hw hh hr hc _ _ _ (htr k), len k, hrays k, rays_from, sum_flat]
    rw [← sum_div_list]
    congr 1
    refine List.map_congr_left fun d _ => ?_
    rw [List.map_map, sum_flat, ← sum_div_list]
    congr 1
    refine List.map_congr_left fun f _ => ?_
    rw [List.map_map, div_div, mul_comm ((ne k : ℝ) * nn k), ← sum_div_list]
    congr 1
    refine List.map_congr_left fun z _ => ?_
    exact brings_scale W H power ext refl t r c _ _
  simp only [value]
  refine Tendsto.div_const ?_ _
  refine tendsto_list_sum' _ _ ds fun d hd => tendsto_list_sum' _ _ facets fun f hf => ?_
  obtain ⟨e0, e1⟩ := gridEps_pos
  refine mean_square e1 (fun z => brings W H power ext refl t r c (rayFrom incident orientation d (mirrorAt p q f z.1 z.2))) ?_ ne nn hne hnn
  rintro z ⟨hx, hy⟩
  refine ContinuousAt.continuousWithinAt ?_
  have inn : 0 < z.1 ∧ z.1 < 1 ∧ 0 < z.2 ∧ z.2 < 1 := ⟨by linarith [hx.1], by linarith [hx.2], by linarith [hy.1], by linarith [hy.2]⟩
  obtain ⟨m1, m2⟩ := mirror_continuous f p q (by omega) (by omega) (hs f hf).1 (hs f hf).2 z inn.1 inn.2.1 inn.2.2.1 inn.2.2.2
  obtain ⟨⟨c1, c2, c3⟩, c4, c5, c6⟩ := ray_from_continuous incident orientation d (fun z : ℝ × ℝ => mirrorAt p q f z.1 z.2) z m1 (m2 hp hq)
  have := ray_continuous power ext refl t hw hh (by omega : 1 < W) (by omega : 1 < H) (fun _ _ => 0) (H - 1 - r) c hc
    (fun z : ℝ × ℝ => rayFrom incident orientation d (mirrorAt p q f z.1 z.2)) z (edge f hf d hd z.1 hx z.2 hy) continuousAt_const c1 c2 c3 c4 c5 c6
  simp only [brings_eq hW hH power ext refl t hw hh hr hc] at this
  exact this

/-- a facet like a roof: three rows of control points, the middle one is higher -/
noncomputable def roof : Facet := ⟨⟨3, 2, fun i j => ![i / 2, j, if i = 1 then 1 / 2 else 0]⟩, 0, ![1 / 2, 0, 0, 0], ![0, 1 / 2, 0, 0]⟩

/-- C121: with degree one there are creases, so that degree two is needed for normals without jumps: on the left of the ridge of a roof all normals point to the west, on the right of it to the
east. -/
theorem C121_crease : ∀ x y : ℝ, 0 < x → x < 1 → 0 < y → y < 1 →
    ∃ point normal, sampleAt 1 1 true roof (x, y) = .ok (point, normal) ∧ normal 0 = if x < 1 / 2 then -(1 / Real.sqrt 2) else 1 / Real.sqrt 2 := by
  intro x y x0 x1 y0 y1
  obtain ⟨d, hd, -, -, h3, h4⟩ := evaluate_spec (net := roof.net) (p := 1) (q := 1) (x := x) (y := y) ⟨by norm_num, by norm_num, by norm_num [roof], by norm_num [roof], x0.le, x1, y0.le, y1⟩
  refine ⟨(place roof (pointOf d, unitNormal (crossOf d))).1, (place roof (pointOf d, unitNormal (crossOf d))).2, by unfold sampleAt; rw [hd]; rfl, ?_⟩
  have can : (place roof (pointOf d, unitNormal (crossOf d))).2 = unitNormal (crossOf d) := by
    simp only [place, roof, canting_axes (show (1 : ℝ) / 10 ^ 8 ≤ 1 / 2 by norm_num) (show (1 : ℝ) / 10 ^ 8 ≤ 1 / 2 by norm_num)]
  rw [can]
  have u0 : (clampedUniform 3 1 0 : ℝ) = 0 := by norm_num [clampedUniform]
  have u1 : (clampedUniform 3 1 1 : ℝ) = 0 := by norm_num [clampedUniform]
  have u2 : (clampedUniform 3 1 2 : ℝ) = 1 / 2 := by norm_num [clampedUniform]
  have u3 : (clampedUniform 3 1 3 : ℝ) = 1 := by norm_num [clampedUniform]
  have u4 : (clampedUniform 3 1 4 : ℝ) = 1 := by norm_num [clampedUniform]
  have v0 : (clampedUniform 2 1 0 : ℝ) = 0 := by norm_num [clampedUniform]
  have v1 : (clampedUniform 2 1 1 : ℝ) = 0 := by norm_num [clampedUniform]
  have v2 : (clampedUniform 2 1 2 : ℝ) = 1 := by norm_num [clampedUniform]
  have v3 : (clampedUniform 2 1 3 : ℝ) = 1 := by norm_num [clampedUniform]
  have su := (N_nonneg_sum (K := ℝ) (n := 3) (p := 1) le_rfl (by norm_num) x0.le x1).2.1
  have sv := (N_nonneg_sum (K := ℝ) (n := 2) (p := 1) le_rfl (by norm_num) y0.le y1).2.1
  simp only [Finset.sum_range_succ, Finset.sum_range_zero, zero_add] at su sv
  have dv0 : dN (clampedUniform 2 1) 1 0 y = (-1 : ℝ) := by simp [dN, N, v0, v1, v2, y0.le, y1]
  have dv1 : dN (clampedUniform 2 1) 1 1 y = (1 : ℝ) := by simp [dN, N, v1, v2, v3, y0.le, y1]
  have d010 : d 0 1 0 = 0 := by
    rw [show (0 : Fin 4) = (0 : Fin 3).castSucc from rfl, h4]
    simp [roof, Finset.sum_range_succ, dv0, dv1]
  have d011 : d 0 1 1 = 1 := by
    rw [show (1 : Fin 4) = (1 : Fin 3).castSucc from rfl, h4]
    simp [roof, Finset.sum_range_succ, dv0, dv1, su]
  have d012 : d 0 1 2 = 0 := by
    rw [show (2 : Fin 4) = (2 : Fin 3).castSucc from rfl, h4]
    simp [roof, Finset.sum_range_succ, dv0, dv1]
  have two : Real.sqrt (1 + 1) = Real.sqrt 2 := by norm_num
  have big : (1 : ℝ) / 10 ^ 12 ≤ Real.sqrt 2 := by
    refine le_trans (by norm_num : (1 : ℝ) / 10 ^ 12 ≤ 1) ?_
    rw [Real.one_le_sqrt]; norm_num
  split_ifs with hx
  · have n0 : N (clampedUniform 3 1) 0 1 x = (1 : ℝ) := if_pos ⟨by rw [u1]; exact x0.le, by rw [u2]; exact hx⟩
    have n1 : N (clampedUniform 3 1) 0 2 x = (0 : ℝ) := if_neg fun h => by rw [u2] at h; linarith [h.1]
    have n2 : N (clampedUniform 3 1) 0 0 x = (0 : ℝ) := if_neg fun h => by rw [u1] at h; linarith [h.2]
    have n3 : N (clampedUniform 3 1) 0 3 x = (0 : ℝ) := if_neg fun h => by rw [u3] at h; linarith [h.1]
    have e0 : dN (clampedUniform 3 1) 1 0 x = (-2 : ℝ) := by simp [dN, n0, n2, u0, u1, u2]
    have e1 : dN (clampedUniform 3 1) 1 1 x = (2 : ℝ) := by simp [dN, n0, n1, u1, u2, u3]
    have e2 : dN (clampedUniform 3 1) 1 2 x = (0 : ℝ) := by simp [dN, n1, n3, u2, u3, u4]
    have d101 : d 1 0 1 = 0 := by
      rw [show (1 : Fin 4) = (1 : Fin 3).castSucc from rfl, h3]
      simp [roof, Finset.sum_range_succ, e0, e1, e2]
    have d102 : d 1 0 2 = 1 := by
      rw [show (2 : Fin 4) = (2 : Fin 3).castSucc from rfl, h3]
      simp [roof, Finset.sum_range_succ, e0, e1, e2]
      linarith
    have d100 : d 1 0 0 = 1 := by
      rw [show (0 : Fin 4) = (0 : Fin 3).castSucc from rfl, h3]
      simp [roof, Finset.sum_range_succ, e0, e1, e2]
      linarith
    have len : Real.sqrt (crossOf d 0 ^ 2 + crossOf d 1 ^ 2 + crossOf d 2 ^ 2) = Real.sqrt 2 := by
      congr 1
      simp only [crossOf, Matrix.cons_val, d010, d011, d012, d100, d101, d102]
      norm_num
    show crossOf d 0 / max (Real.sqrt (crossOf d 0 ^ 2 + crossOf d 1 ^ 2 + crossOf d 2 ^ 2)) (1 / 10 ^ 12) = _
    rw [len, max_eq_left big]
    simp only [crossOf, Matrix.cons_val, d010, d011, d012, d100, d101, d102]
    ring
  · have hx := not_lt.1 hx
    have n0 : N (clampedUniform 3 1) 0 1 x = (0 : ℝ) := if_neg fun h => by rw [u2] at h; linarith [h.2]
    have n1 : N (clampedUniform 3 1) 0 2 x = (1 : ℝ) := if_pos ⟨by rw [u2]; exact hx, by rw [u3]; exact x1⟩
    have n2 : N (clampedUniform 3 1) 0 0 x = (0 : ℝ) := if_neg fun h => by rw [u1] at h; linarith [h.2]
    have n3 : N (clampedUniform 3 1) 0 3 x = (0 : ℝ) := if_neg fun h => by rw [u3] at h; linarith [h.1]
    have e0 : dN (clampedUniform 3 1) 1 0 x = (0 : ℝ) := by simp [dN, n0, n2, u0, u1, u2]
    have e1 : dN (clampedUniform 3 1) 1 1 x = (-2 : ℝ) := by simp [dN, n0, n1, u1, u2, u3]; norm_num
    have e2 : dN (clampedUniform 3 1) 1 2 x = (2 : ℝ) := by simp [dN, n1, n3, u2, u3, u4]; norm_num
    have d101 : d 1 0 1 = 0 := by
      rw [show (1 : Fin 4) = (1 : Fin 3).castSucc from rfl, h3]
      simp [roof, Finset.sum_range_succ, e0, e1, e2]
    have d102 : d 1 0 2 = -1 := by
      rw [show (2 : Fin 4) = (2 : Fin 3).castSucc from rfl, h3]
      simp [roof, Finset.sum_range_succ, e0, e1, e2]
      linarith
    have d100 : d 1 0 0 = 1 := by
      rw [show (0 : Fin 4) = (0 : Fin 3).castSucc from rfl, h3]
      simp [roof, Finset.sum_range_succ, e0, e1, e2]
      linarith
    have len : Real.sqrt (crossOf d 0 ^ 2 + crossOf d 1 ^ 2 + crossOf d 2 ^ 2) = Real.sqrt 2 := by
      congr 1
      simp only [crossOf, Matrix.cons_val, d010, d011, d012, d100, d101, d102]
      norm_num
    show crossOf d 0 / max (Real.sqrt (crossOf d 0 ^ 2 + crossOf d 1 ^ 2 + crossOf d 2 ^ 2)) (1 / 10 ^ 12) = _
    rw [len, max_eq_left big]
    simp only [crossOf, Matrix.cons_val, d010, d011, d012, d100, d101, d102]
    ring

/-- the smoothness of a canted and translated facet of degree three with 10 × 10 control points -/
example : ∃ point normal : ℝ × ℝ → H ℝ, (∀ z : ℝ × ℝ, 0 < z.1 → z.1 < 1 → 0 < z.2 → z.2 < 1 →
      sampleAt 3 3 true ⟨⟨10, 10, fun i j => ![i / 10, j / 10, (i * j) / 1000]⟩, ![3, 2, 1, 0], ![1, 0, 1 / 10, 0], ![0, 1, 0, 0]⟩ z = .ok (point z, normal z)) ∧
    ∀ i, ContinuousAt (fun w => normal w i) (1 / 7, 3 / 7) := by
  obtain ⟨a, b, h1, h2⟩ := C121_smooth ⟨⟨10, 10, fun i j => ![i / 10, j / 10, (i * j) / 1000]⟩, ![3, 2, 1, 0], ![1, 0, 1 / 10, 0], ![0, 1, 0, 0]⟩ 3 3 (by norm_num) (by norm_num)
    (by norm_num) (by norm_num)
  exact ⟨a, b, h1, (h2 (1 / 7, 3 / 7) (by norm_num) (by norm_num) (by norm_num) (by norm_num)).2 (by norm_num) (by norm_num)⟩

/-- a flat facet of one square metre that sends horizontal light onto a target to the south: the hypotheses of `C121_image` hold -/
example (r c : Nat) (hr : r < 2) (hc : c < 2) : ∃ mirror : ℕ → List Sample, (∀ k, sampleAll 3 3 true (evaluationGrid k k gridEps) [SurfaceImage.bending 0] = .ok (mirror k)) ∧
    ∀ (rays : ℕ → List (V3 ℝ × V3 ℝ)) (bitmap : ℕ → List (List ℝ)) (factors : ℕ → ℝ × ℝ × ℝ),
      (∀ k, rays k = raysOf ![0, 1, 0, 0] (placed (rotE (Real.pi / 2)) (mirror k)) [List.replicate (mirror k).length (0, 0)]) →
      (∀ k, traceSample 2 2 (1000 / (rays k).length) 0 1 (.planar square) (fun _ => 0) (rays k) = .ok (bitmap k, factors k)) →
      Tendsto (fun k => pixel (bitmap k) r c) atTop
        (𝓝 (mean fun x y => brings 2 2 1000 0 1 square r c (rayFrom ![0, 1, 0, 0] (rotE (Real.pi / 2)) (0, 0) (mirrorAt 3 3 (SurfaceImage.bending 0) x y)))) := by
  obtain ⟨mirror, h1, h2⟩ := C121_image 3 3 (by norm_num) (by norm_num) [SurfaceImage.bending 0] (by simp) (by
      intro f hf
      simp only [List.mem_singleton] at hf
      subst hf
      exact ⟨by norm_num [SurfaceImage.bending, SurfaceImage.lift, idealFacet, planarNet], by norm_num [SurfaceImage.bending, SurfaceImage.lift, idealFacet, planarNet]⟩)
    ![0, 1, 0, 0] (rotE (Real.pi / 2)) [(0, 0)] (by simp) 2 2 le_rfl le_rfl 1000 0 1 square (by norm_num [square]) (by norm_num [square]) (by
      intro f hf d hd x hx y hy
      simp only [List.mem_singleton] at hf hd
      subst hf hd
      refine (SurfaceImage.bending_edge ?_).1
      obtain ⟨g0, g1⟩ := gridEps_pos
      obtain ⟨pt, cr, e1, e2, e3, e4, e5, e6, -⟩ := SurfaceImage.bending_evaluate (xy := (x, y)) ⟨by norm_num, by norm_num,
        by norm_num [SurfaceImage.bending, SurfaceImage.lift, idealFacet, planarNet], by norm_num [SurfaceImage.bending, SurfaceImage.lift, idealFacet, planarNet],
        by show (0 : ℝ) ≤ x; linarith [hx.1], by show x < 1; linarith [hx.2], by show (0 : ℝ) ≤ y; linarith [hy.1], by show y < 1; linarith [hy.2]⟩
      have m : mirrorAt 3 3 (SurfaceImage.bending 0) x y = (pt, ![0, 0, 1, 0]) := by
        unfold mirrorAt sampleAt
        simp only at e1
        simp only [e1, if_true]
        rw [SurfaceImage.bending_zero]
        simp only [place, idealFacet, canting_axes (show (1 : ℝ) / 10 ^ 8 ≤ 1 / 2 by norm_num) (show (1 : ℝ) / 10 ^ 8 ≤ 1 / 2 by norm_num), add_zero, e6]
      refine ⟨pt 0, pt 1, e2, e3, ?_⟩
      rw [m]
      simp [rayFrom, direction, reflect, rotDist, rotE, Matrix.mulVec, dotProduct, Fin.sum_univ_four, e4]
      norm_num) r c hr hc (fun k => k) (fun k => k) tendsto_id tendsto_id
  refine ⟨mirror, h1, fun rays bitmap factors a b => ?_⟩
  have := h2 rays bitmap factors (fun k => by rw [a k]; rfl) b
  simpa using this

end Artist.FineMirror
