import Verif.Proofs.CylinderImage
import Verif.Props.MotorImage
/-! C112: the bitmap of a cylindrical target follows the motors. -/
namespace Artist.CylinderImage
open Artist Intersect Flux Splat Kinematics Moved Transforms Filter Topology MotorImage

variable {X : Type}

/-- C112: let the motor positions, the parameters of the kinematics, the sun and the mirror change continuously (in any parameter `x`).  Then the brightness of every
pixel of a cylindrical target changes continuously, at all `x₀` where every ray is clear: it passes the cylinder, or it goes through it without touching it only, and does not
meet the target area at its edge or at the line where angles jump. -/
theorem C112_continuous_partial [TopologicalSpace X] (s : Moving X) (distortions : List (List (ℝ × ℝ))) (W H : Nat) (magnitude extinction reflectivity : ℝ) (cyl : Cylinder)
    (blocked : X → V3 ℝ × V3 ℝ → ℝ) (x₀ : X) (hfr : cyl.Framed) (hr : 0 < cyl.radius) (hh : 0 < cyl.height) (ho : 0 < cyl.opening) (hW : 1 < W) (hH : 1 < H)
    (hs : s.Varies fun f => ContinuousAt f x₀) (hb : ∀ i < (s.rays distortions x₀).length, ContinuousAt (fun x => blocked x (s.ray distortions i x)) x₀)
    (he : ∀ ray ∈ s.rays distortions x₀, Clear cyl ray) (r c : Nat) (hrH : r < H) (hc : c < W) :
    ContinuousAt (s.brightness distortions W H magnitude extinction reflectivity (.cylinder cyl) blocked r c) x₀ := by
  have e : s.brightness distortions W H magnitude extinction reflectivity (.cylinder cyl) blocked r c = fun x =>
      ((List.range (sources s distortions).length).map fun i =>
        contrib W H (H - 1 - r) c (hitOf W H magnitude extinction reflectivity (.cylinder cyl) (blocked x) (s.ray distortions i x))).sum := by
    funext x
    unfold Moving.brightness traceSample
    obtain ⟨img, h1, -, -, h2⟩ := splat_spec W H (by omega) (by omega) ((s.rays distortions x).map (hitOf W H magnitude extinction reflectivity (.cylinder cyl) (blocked x)))
    have := h2 (H - 1 - r) c (by omega) hc
    rw [show H - 1 - (H - 1 - r) = r by omega] at this
    simp only [h1, this]
    rw [rays_range, List.map_map, List.map_map]
    rfl
  rw [e]
  refine sum_continuous x₀ (fun i x => contrib W H (H - 1 - r) c (hitOf W H magnitude extinction reflectivity (.cylinder cyl) (blocked x) (s.ray distortions i x))) _ ?_
  intro i hi
  rw [List.mem_range] at hi
  have hi' := hi
  rw [← rays_length s distortions x₀] at hi'
  have hb := hb i hi'
  have he := he (s.ray distortions i x₀) (by
    rw [rays_range]; exact List.mem_map.2 ⟨i, List.mem_range.2 hi, rfl⟩)
  rw [ray_eq s distortions i hi] at hb he ⊢
  obtain ⟨c1, c2⟩ := (closed_continuous x₀).ray s hs _ (mem_sources (List.getElem_mem hi))
  exact contrib_fine (fine_ray magnitude extinction reflectivity cyl (rich_continuous x₀) hfr hr hh ho hW hH _ blocked c1 c2 hb he) (H - 1 - r) c hc

/-- C112: let everything be differentiable in a real parameter, and assume in addition that no ray meets a pixel line.  Then the coordinates and intensities of all rays
have derivatives, and the derivative of any loss of the bitmap is what the chain rule makes of the gradients that `backward` leaves for the rays. -/
theorem C112_gradient_partial (s : Moving ℝ) (distortions : List (List (ℝ × ℝ))) (W H : Nat) (magnitude extinction reflectivity : ℝ) (cyl : Cylinder)
    (blocked : ℝ → V3 ℝ × V3 ℝ → ℝ) (x₀ : ℝ) (hfr : cyl.Framed) (hr : 0 < cyl.radius) (hh : 0 < cyl.height) (ho : 0 < cyl.opening) (hW : 1 < W) (hH : 1 < H)
    (hs : s.Varies fun f => DifferentiableAt ℝ f x₀) (hb : ∀ i < (s.rays distortions x₀).length, DifferentiableAt ℝ (fun x => blocked x (s.ray distortions i x)) x₀)
    (he : ∀ ray ∈ s.rays distortions x₀, Clear cyl ray)
    (hl : ∀ ray ∈ s.rays distortions x₀, ∀ h : Hit ℝ, h = hitOf W H magnitude extinction reflectivity (.cylinder cyl) (blocked x₀) ray → h ≠ ⟨0, 0, 0⟩ → OffLine h.e ∧ OffLine h.u)
    (g : Nat → Nat → ℝ) :
    let hit := fun i x => hitOf W H magnitude extinction reflectivity (.cylinder cyl) (blocked x) (s.ray distortions i x)
    ∃ slope : Nat → Gradient ℝ,
      (∀ i < (s.rays distortions x₀).length, HasDerivAt (fun x => (hit i x).e) (slope i).e x₀ ∧ HasDerivAt (fun x => (hit i x).u) (slope i).u x₀ ∧
        HasDerivAt (fun x => (hit i x).w) (slope i).w x₀) ∧
      HasDerivAt (fun x => score W H g ((s.rays distortions x).map (hitOf W H magnitude extinction reflectivity (.cylinder cyl) (blocked x))))
        (((List.range (s.rays distortions x₀).length).map fun i => (backward W H g (hit i x₀)).e * (slope i).e + (backward W H g (hit i x₀)).u * (slope i).u +
          (backward W H g (hit i x₀)).w * (slope i).w).sum) x₀ := by
  intro hit
  have hn := rays_length s distortions x₀
  have key : ∀ i < (sources s distortions).length, (DifferentiableAt ℝ (fun x => (hit i x).e) x₀ ∧ DifferentiableAt ℝ (fun x => (hit i x).u) x₀ ∧ DifferentiableAt ℝ (fun x => (hit i x).w) x₀) ∧
      (∀ᶠ x in 𝓝 x₀, long (hit i x).e = long (hit i x₀).e) ∧ ∀ᶠ x in 𝓝 x₀, long (hit i x).u = long (hit i x₀).u := fun i hi => by
    have hi' := hi
    rw [← hn] at hi'
    have hmem : s.ray distortions i x₀ ∈ s.rays distortions x₀ := by
      rw [rays_range]; exact List.mem_map.2 ⟨i, List.mem_range.2 hi, rfl⟩
    have hb := hb i hi'
    have hl := hl _ hmem (hit i x₀) rfl
    have he := he _ hmem
    rw [ray_eq s distortions i hi] at hb he
    obtain ⟨c1, c2⟩ := (closed_differentiable x₀).ray s hs _ (mem_sources (List.getElem_mem hi))
    have fine := fine_ray magnitude extinction reflectivity cyl (rich_differentiable x₀) hfr hr hh ho hW hH _ blocked c1 c2 hb he
    rw [← ray_eq s distortions i hi] at fine
    obtain ⟨d, h | ⟨⟨a1, -⟩, -⟩⟩ := fine
    · refine ⟨d, ?_, ?_⟩
      · filter_upwards [h] with x hx
        show long (hit i x).e = _
        rw [show hit i x = _ from hx, show hit i x₀ = _ from h.self_of_nhds]
      · filter_upwards [h] with x hx
        show long (hit i x).u = _
        rw [show hit i x = _ from hx, show hit i x₀ = _ from h.self_of_nhds]
    · have a1 : 0 < (hit i x₀).e := a1
      obtain ⟨o1, o2⟩ := hl (by intro h; rw [h] at a1; exact lt_irrefl _ a1)
      exact ⟨d, d.1.continuousAt.eventually (long_eventually _ o1), d.2.1.continuousAt.eventually (long_eventually _ o2)⟩
  refine ⟨fun i => ⟨deriv (fun x => (hit i x).e) x₀, deriv (fun x => (hit i x).u) x₀, deriv (fun x => (hit i x).w) x₀⟩, ?_, ?_⟩
  · intro i hi
    rw [hn] at hi
    obtain ⟨⟨d1, d2, d3⟩, -⟩ := key i hi
    exact ⟨d1.hasDerivAt, d2.hasDerivAt, d3.hasDerivAt⟩
  · have e : (fun x => score W H g ((s.rays distortions x).map (hitOf W H magnitude extinction reflectivity (.cylinder cyl) (blocked x)))) = fun x =>
        ((List.range (sources s distortions).length).map fun i => scoreRay W H g (hit i x)).sum := by
      funext x
      rw [score_eq W H (by omega) (by omega), rays_range, List.map_map, List.map_map]
      rfl
    rw [e, hn, ← hasDerivWithinAt_univ]
    refine sum_deriv Set.univ x₀ (fun i x => scoreRay W H g (hit i x)) _ _ ?_
    intro i hi
    obtain ⟨⟨d1, d2, d3⟩, l1, l2⟩ := key i (List.mem_range.1 hi)
    refine scoreRay_deriv W H g (hit i) Set.univ x₀ ⟨_, _, _⟩ (Set.mem_univ _) d1.hasDerivAt.hasDerivWithinAt d2.hasDerivAt.hasDerivWithinAt d3.hasDerivAt.hasDerivWithinAt ?_ ?_
    · rw [nhdsWithin_univ]; exact l1
    · rw [nhdsWithin_univ]; exact l2

/-- C112: at the outline of the cylinder, where rays change from touching it to passing it, the image may jump, but only by next to nothing.  A ray that does not get inside the cylinder
is recorded with less than a millionth of its magnitude, for a cylinder of a radius of at least half a metre. -/
theorem C112_outline (W H : Nat) (ray : V3 ℝ × V3 ℝ) (m : ℝ) (hm : 0 ≤ m) (cyl : Cylinder) (hfr : cyl.Framed) (hr : 0 < cyl.radius)
    (h : ∀ t, cyl.radius ^ 2 ≤ cyl.radial (along ray t)) : (lineCylinder W H ray.1 ray.2 m cyl).intensity ≤ m * (1 / 10 ^ 6 / (2 * cyl.radius)) := by
  have nonneg : 0 ≤ m * (1 / 10 ^ 6 / (2 * cyl.radius)) := by positivity
  cases hd : cyl.distance ray.1 ray.2 with
  | none => unfold lineCylinder; rw [hd]; exact nonneg
  | some t =>
    have ha : 1 / 10 ^ 8 ≤ (cyl.quadratic ray.1 ray.2).1 := by
      by_contra hlt; rw [distance_none cyl _ _ (Or.inl (not_le.1 hlt))] at hd; exact absurd hd (by simp)
    have a0 : 0 < (cyl.quadratic ray.1 ray.2).1 := lt_of_lt_of_le (by norm_num) ha
    have hdisc : 0 ≤ (cyl.quadratic ray.1 ray.2).2.1 ^ 2 - 4 * (cyl.quadratic ray.1 ray.2).1 * (cyl.quadratic ray.1 ray.2).2.2 := by
      by_contra hlt; rw [distance_none cyl _ _ (Or.inr (not_le.1 hlt))] at hd; exact absurd hd (by simp)
    have ha' : 1 / 10 ^ 8 < (cyl.quadratic ray.1 ray.2).1 := by
      by_contra hlt
      unfold Cylinder.distance at hd
      simp only at hd
      rw [if_neg (by rintro ⟨-, h2⟩; rw [abs_of_pos a0] at h2; exact hlt h2)] at hd
      exact absurd hd (by simp)
    have hdisc' : (cyl.quadratic ray.1 ray.2).2.1 ^ 2 - 4 * (cyl.quadratic ray.1 ray.2).1 * (cyl.quadratic ray.1 ray.2).2.2 ≤ 0 := by
      have hq := quadratic_radial cyl hfr ray.1 ray.2 (-(cyl.quadratic ray.1 ray.2).2.1 / (2 * (cyl.quadratic ray.1 ray.2).1))
      have h := h (-(cyl.quadratic ray.1 ray.2).2.1 / (2 * (cyl.quadratic ray.1 ray.2).1))
      simp only at hq
      unfold along at h
      generalize cyl.quadratic ray.1 ray.2 = q at *
      have e : q.1 * (-q.2.1 / (2 * q.1)) ^ 2 + q.2.1 * (-q.2.1 / (2 * q.1)) + q.2.2 = -(q.2.1 ^ 2 - 4 * q.1 * q.2.2) / (4 * q.1) := by field_simp; ring
      have p : 0 ≤ -(q.2.1 ^ 2 - 4 * q.1 * q.2.2) / (4 * q.1) := by rw [← e]; linarith
      rw [le_div_iff₀ (by linarith)] at p
      linarith
    have ht : t = near (cyl.quadratic ray.1 ray.2) ∨ t = far (cyl.quadratic ray.1 ray.2) := by
      rw [distance_eq cyl _ _ ha' hdisc] at hd
      split_ifs at hd with h1 h2
      · exact Or.inl (Option.some.inj hd).symm
      · exact Or.inr (Option.some.inj hd).symm
    have hroot : root (cyl.quadratic ray.1 ray.2) = 1 / 10 ^ 6 := by
      unfold root
      rw [le_antisymm hdisc' hdisc, zero_add]
      rw [show (1 / 10 ^ 12 : ℝ) = (1 / 10 ^ 6) ^ 2 by norm_num]
      exact Real.sqrt_sq (by norm_num)
    have face_le : face cyl ray t ≤ 1 / 10 ^ 6 / (2 * cyl.radius) := by
      have hmeet := (meets_iff cyl hfr ray t).2 ((candidates a0 hdisc t).2 ht)
      have sum : (cyl.toLocal (along ray t - cyl.center)).e ^ 2 + (cyl.toLocal (along ray t - cyl.center)).n ^ 2 = cyl.radial (along ray t) := toLocal_normSq cyl hfr _
      have e : (cyl.toLocal ray.2).e * (cyl.toLocal (along ray t - cyl.center)).e + (cyl.toLocal ray.2).n * (cyl.toLocal (along ray t - cyl.center)).n =
          (cyl.quadratic ray.1 ray.2).1 * t + (cyl.quadratic ray.1 ray.2).2.1 / 2 := by
        rw [← toLocal_along]
        simp only [Cylinder.quadratic, V3.add_e, V3.add_n, V3.smul_e, V3.smul_n]
        ring
      have e2 : -((cyl.quadratic ray.1 ray.2).1 * t + (cyl.quadratic ray.1 ray.2).2.1 / 2) ≤ 1 / 10 ^ 6 / 2 := by
        generalize cyl.quadratic ray.1 ray.2 = q at *
        rcases ht with rfl | rfl
        · have : q.1 * near q + q.2.1 / 2 = -(root q) / 2 := by unfold near; field_simp; ring
          rw [this, hroot]; norm_num
        · have : q.1 * far q + q.2.1 / 2 = root q / 2 := by unfold far; field_simp; ring
          rw [this, hroot]; norm_num
      have rle : cyl.radius ≤ √((cyl.toLocal (along ray t - cyl.center)).e ^ 2 + (cyl.toLocal (along ray t - cyl.center)).n ^ 2) := by
        rw [sum]; exact Real.le_sqrt_of_sq_le (h t)
      unfold face
      generalize √((cyl.toLocal (along ray t - cyl.center)).e ^ 2 + (cyl.toLocal (along ray t - cyl.center)).n ^ 2) = ρ at rle
      have ρ0 : 0 < ρ := lt_of_lt_of_le hr rle
      have f : -((cyl.toLocal ray.2).e * ((cyl.toLocal (along ray t - cyl.center)).e / ρ) + (cyl.toLocal ray.2).n * ((cyl.toLocal (along ray t - cyl.center)).n / ρ)) =
          -((cyl.quadratic ray.1 ray.2).1 * t + (cyl.quadratic ray.1 ray.2).2.1 / 2) / ρ := by
        rw [← e]; field_simp
      rw [f]
      calc _ ≤ 1 / 10 ^ 6 / 2 / ρ := div_le_div_of_nonneg_right e2 ρ0.le
        _ ≤ 1 / 10 ^ 6 / 2 / cyl.radius := div_le_div_of_nonneg_left (by norm_num) hr rle
        _ = _ := by rw [div_div (1 / 10 ^ 6 : ℝ)]
    have hl : cyl.toLocal (ray.1 - cyl.center) + t • cyl.toLocal ray.2 = cyl.toLocal (along ray t - cyl.center) := toLocal_along cyl ray t
    unfold lineCylinder
    rw [hd]
    simp only [hl]
    split_ifs
    · exact mul_le_mul_of_nonneg_left (max_le face_le (by positivity)) hm
    · exact nonneg

/-! ### A concrete scene, and the seam -/

/-- a cylinder of radius 1 and height 4 to the south of the heliostat, facing north -/
noncomputable def column : Cylinder := ⟨⟨0, -10, 0⟩, ⟨0, 1, 0⟩, ⟨0, 0, 1⟩, 1, 4, Real.pi / 2⟩

/-- the same cylinder as a receiver around the whole circle, facing east -/
noncomputable def receiver : Cylinder := ⟨⟨0, -10, 0⟩, ⟨1, 0, 0⟩, ⟨0, 0, 1⟩, 1, 4, 2 * Real.pi⟩

theorem column_framed : column.Framed := by unfold Cylinder.Framed column V3.normSq V3.dot; simp
theorem receiver_framed : receiver.Framed := by unfold Cylinder.Framed receiver V3.normSq V3.dot; simp

/-- the ray of the scene `turning` -/
noncomputable def beam (x : ℝ) : V3 ℝ × V3 ℝ := (⟨0, 0, 0⟩, ⟨Real.sin (2 * x), -Real.cos (2 * x), 0⟩)

theorem column_radial (x t : ℝ) : column.radial (along (beam x) t) = t ^ 2 - 20 * t * Real.cos (2 * x) + 100 := by
  have := Real.sin_sq_add_cos_sq (2 * x)
  simp only [Cylinder.radial, along, beam, column, V3.normSq, V3.dot, V3.sub_e, V3.sub_n, V3.sub_u, V3.add_e, V3.add_n, V3.add_u, V3.smul_e, V3.smul_n, V3.smul_u]
  linear_combination t ^ 2 * this

/-- the beam to the south is clear -/
theorem beam_clear : Clear column (beam 0) := by
  have sl : slope column (beam 0).2 = 1 := by simp [slope, beam, column, V3.normSq, V3.dot]
  refine Or.inr (Or.inr ⟨by rw [sl]; norm_num, ⟨10, by rw [column_radial]; simp [column]; norm_num⟩, ?_, ?_⟩)
  · unfold Meets
    rw [column_radial, sl]
    norm_num [column]
  · intro t t0 ht hfirst
    unfold Meets at ht
    rw [column_radial, sl, mul_zero, Real.cos_zero] at ht
    have sq : (t - 10) ^ 2 = 1 + 1 / 10 ^ 12 / 4 := by simp only [column] at ht; linarith
    have lt10 : t < 10 := by
      by_contra hge
      push Not at hge
      have h20 : t < 20 := by nlinarith
      refine hfirst (20 - t) (by linarith) ?_ ?_
      · rcases hge.lt_or_eq with h | h
        · linarith
        · rw [← h] at sq; norm_num at sq
      · unfold Meets
        rw [column_radial, sl, mul_zero, Real.cos_zero]
        simp only [column]
        linarith
    have loc : column.toLocal (along (beam 0) t - column.center) = ⟨0, 10 - t, 0⟩ := by
      simp [Cylinder.toLocal, along, beam, column, V3.cross, V3.dot]
      ring
    have ang : column.angle ⟨0, 10 - t, 0⟩ = Real.pi / 4 := by
      have a1 : atan2 (10 - t) 0 = Real.pi / 2 := by
        unfold atan2; rw [Complex.arg_eq_pi_div_two_iff]; exact ⟨rfl, by simp only; linarith⟩
      have a2 : atan2 1 0 = Real.pi / 2 := by
        unfold atan2; rw [Complex.arg_eq_pi_div_two_iff]; exact ⟨rfl, by norm_num⟩
      unfold Cylinder.angle
      simp only [column]
      rw [a1, a2]; ring
    left
    unfold OffSeam
    rw [loc, ang]
    refine ⟨Or.inr (by simp only; linarith), ?_, by positivity, by simp only [column]; linarith [Real.pi_pos]⟩
    simp [along, beam, column, V3.dot]

/-- the image of the beam is continuous there -/
example : ContinuousAt (turning.brightness [[(0, 0)]] 2 2 1 0 1 (.cylinder column) (fun _ _ => 0) 0 0) 0 := by
  refine C112_continuous_partial turning _ 2 2 1 0 1 column _ 0 column_framed (by norm_num [column]) (by norm_num [column]) (by simp only [column]; positivity) (by norm_num) (by norm_num) ?_
    (fun _ _ => continuousAt_const) ?_ 0 0 (by norm_num) (by norm_num)
  · obtain ⟨a1, a2, a3, a4, a5, a6, a7⟩ := turning_varies 0
    exact ⟨fun i => (a1 i).continuousAt, fun i => (a2 i).continuousAt, fun i => (a3 i).continuousAt, a4.continuousAt, a5.continuousAt, fun i => (a6 i).continuousAt,
      fun q hq i => ⟨(a7 q hq i).1.continuousAt, (a7 q hq i).2.continuousAt⟩⟩
  · intro ray hr
    rw [turning_rays] at hr
    rw [List.mem_singleton.1 hr]
    exact beam_clear

/-- and it has a gradient -/
example (g : Nat → Nat → ℝ) : DifferentiableAt ℝ (fun x => score 2 2 g ((turning.rays [[(0, 0)]] x).map (hitOf 2 2 1 0 1 (.cylinder column) (fun _ => 0)))) 0 := by
  have ray : ∀ ray ∈ turning.rays [[(0, 0)]] 0, ray = beam 0 := fun ray hr => by
    rw [turning_rays] at hr
    exact List.mem_singleton.1 hr
  have hl : ∀ r ∈ turning.rays [[(0, 0)]] 0, ∀ h : Hit ℝ, h = hitOf 2 2 1 0 1 (.cylinder column) (fun _ => 0) r → h ≠ ⟨0, 0, 0⟩ → OffLine h.e ∧ OffLine h.u := by
    intro r hr h he hne
    rw [ray r hr] at he
    unfold hitOf land lineCylinder at he
    cases hd : column.distance (beam 0).1 (beam 0).2 with
    | none => simp only [hd] at he; exact absurd (by rw [he]; simp [SoftMask.intensity]) hne
    | some t =>
      have hq : column.quadratic (beam 0).1 (beam 0).2 = (1, -20, 99) := by
        simp only [Cylinder.quadratic, Cylinder.toLocal, beam, column, V3.dot, V3.cross, V3.sub_e, V3.sub_n, V3.sub_u]
        norm_num
      have t10 : t < 10 := by
        have := distance_eq column (beam 0).1 (beam 0).2 (by rw [hq]; norm_num) (by rw [hq]; norm_num)
        rw [hd, hq] at this
        have rt : root (1, -20, 99) < 3 := by unfold root; rw [Real.sqrt_lt' (by norm_num)]; norm_num
        have r0 : 0 < root (1, -20, 99) := root_pos (by norm_num)
        rw [if_pos (by unfold near; simp only; linarith)] at this
        rw [Option.some.inj this]; unfold near; simp only; linarith
      have hl : column.toLocal ((beam 0).1 - column.center) + t • column.toLocal (beam 0).2 = ⟨0, 10 - t, 0⟩ := by
        rw [toLocal_along]
        simp [Cylinder.toLocal, along, beam, column, V3.cross, V3.dot]
        ring
      have ang : column.angle ⟨0, 10 - t, 0⟩ = Real.pi / 4 := by
        have a1 : atan2 (10 - t) 0 = Real.pi / 2 := by
          unfold atan2; rw [Complex.arg_eq_pi_div_two_iff]; exact ⟨rfl, by simp only; linarith⟩
        have a2 : atan2 1 0 = Real.pi / 2 := by
          unfold atan2; rw [Complex.arg_eq_pi_div_two_iff]; exact ⟨rfl, by norm_num⟩
        unfold Cylinder.angle
        simp only [column]
        rw [a1, a2]; ring
      simp only [hd, hl, ang] at he
      rw [if_pos (by simp only [column]; refine ⟨?_, ?_, ?_, ?_⟩ <;> first | positivity | linarith [Real.pi_pos] | norm_num)] at he
      have half : OffLine (1 / 2 : ℝ) := by
        intro n hn
        have : (1 : ℝ) = 2 * n := by linarith
        have : (1 : Int) = 2 * n := by exact_mod_cast this
        omega
      have e1 : h.e = 1 / 2 := by
        rw [he]; simp only [column]; field_simp; norm_num
      have e2 : h.u = 1 / 2 := by
        rw [he]; simp only [column]; norm_num
      rw [e1, e2]
      exact ⟨half, half⟩
  obtain ⟨slope, -, h⟩ := C112_gradient_partial turning [[(0, 0)]] 2 2 1 0 1 column (fun _ _ => 0) 0 column_framed (by norm_num [column]) (by norm_num [column]) (by simp only [column]; positivity)
    (by norm_num) (by norm_num) (turning_varies 0) (fun _ _ => differentiableAt_const _) (fun r hr => by rw [ray r hr]; exact beam_clear) hl g
  exact h.differentiableAt

/-- a ray that touches the cylinder from the side -/
example : (lineCylinder 2 2 ⟨1, 0, 0⟩ ⟨0, -1, 0⟩ 1 column).intensity ≤ 1 / 10 ^ 6 / 2 := by
  have := C112_outline 2 2 (⟨1, 0, 0⟩, ⟨0, -1, 0⟩) 1 zero_le_one column column_framed (by norm_num [column]) (fun t => by
    simp only [Cylinder.radial, along, column, V3.normSq, V3.dot, V3.sub_e, V3.sub_n, V3.sub_u, V3.add_e, V3.add_n, V3.add_u, V3.smul_e, V3.smul_n, V3.smul_u]
    nlinarith [sq_nonneg (10 - t)])
  simpa [column] using this

theorem beam_brightness (x : ℝ) (cyl : Cylinder) : turning.brightness [[(0, 0)]] 2 2 1 0 1 (.cylinder cyl) (fun _ _ => 0) 0 0 x =
    contrib 2 2 1 0 (hitOf 2 2 1 0 1 (.cylinder cyl) (fun _ => 0) (beam x)) := by
  unfold Moving.brightness traceSample
  rw [turning_rays]
  obtain ⟨img, h1, -, -, h2⟩ := splat_spec 2 2 (by omega) (by omega) ([beam x].map (hitOf 2 2 1 0 1 (.cylinder cyl) (fun _ => (0 : ℝ))))
  have := h2 1 0 (by omega) (by omega)
  unfold beam at this h1 ⊢
  simp only [h1]
  simpa using this

theorem receiver_quadratic (x : ℝ) : receiver.quadratic (beam x).1 (beam x).2 = (1, -20 * Real.cos (2 * x), 99) := by
  have := Real.sin_sq_add_cos_sq (2 * x)
  simp only [Cylinder.quadratic, Cylinder.toLocal, beam, receiver, V3.dot, V3.cross, V3.sub_e, V3.sub_n, V3.sub_u]
  refine Prod.ext ?_ (Prod.ext ?_ ?_) <;> simp only
  · linear_combination this
  · ring
  · norm_num

/-- C112: a receiver around the whole circle has no edge at its sides.  But the column of a hit jumps from one side of the bitmap to the other, and so does the image: while the beam
turns, the brightness of a pixel jumps although the beam is always on the receiver. -/
theorem C112_seam : (∀ x, turning.Varies fun f => DifferentiableAt ℝ f x) ∧
    (∀ᶠ x in 𝓝 (0 : ℝ), ∃ t, 0 < t ∧ receiver.distance (beam x).1 (beam x).2 = some t ∧ |V3.dot (along (beam x) t - receiver.center) receiver.axis| < receiver.height / 2) ∧
    ¬ ContinuousAt (turning.brightness [[(0, 0)]] 2 2 1 0 1 (.cylinder receiver) (fun _ _ => 0) 0 0) 0 := by
  set root : ℝ → ℝ := fun x => √((-20 * Real.cos (2 * x)) ^ 2 - 4 * 1 * 99 + 1 / 10 ^ 12) with hroot
  set τ : ℝ → ℝ := fun x => (20 * Real.cos (2 * x) - root x) / 2 with hτ
  have cr : Continuous root := by rw [hroot]; fun_prop
  have ct : Continuous τ := by rw [hτ]; fun_prop
  have r0 : root 0 = √(4 + 1 / 10 ^ 12) := by
    simp only [hroot]; norm_num
  have r2 : 2 < root 0 := by rw [r0]; exact Real.lt_sqrt_of_sq_lt (by norm_num)
  have r3 : root 0 < 3 := by rw [r0, Real.sqrt_lt' (by norm_num)]; norm_num
  have t0 : τ 0 = (20 - root 0) / 2 := by simp only [hτ]; norm_num
  have loc : ∀ x, receiver.toLocal (along (beam x) (τ x) - receiver.center) = ⟨-10 + τ x * Real.cos (2 * x), τ x * Real.sin (2 * x), 0⟩ := by
    intro x
    simp [Cylinder.toLocal, along, beam, receiver, V3.cross, V3.dot]
  have lev : ∀ x, level receiver (beam x) (τ x) = 0 := by
    intro x; simp [level, along, beam, receiver, V3.dot]
  have dist : ∀ᶠ x in 𝓝 (0 : ℝ), 0 < τ x ∧ receiver.distance (beam x).1 (beam x).2 = some (τ x) := by
    have c1 : ∀ᶠ x in 𝓝 (0 : ℝ), 0 < τ x := ct.continuousAt.eventually (lt_mem_nhds (by rw [t0]; linarith))
    have c2 : ∀ᶠ x in 𝓝 (0 : ℝ), 0 < (-20 * Real.cos (2 * x)) ^ 2 - 4 * 1 * 99 := by
      have : Continuous fun x : ℝ => (-20 * Real.cos (2 * x)) ^ 2 - 4 * 1 * 99 := by fun_prop
      exact this.continuousAt.eventually (lt_mem_nhds (by norm_num))
    filter_upwards [c1, c2] with x h1 h2
    refine ⟨h1, ?_⟩
    have e := distance_eq receiver (beam x).1 (beam x).2 (by rw [receiver_quadratic]; norm_num) (by rw [receiver_quadratic]; exact h2.le)
    have n : near (receiver.quadratic (beam x).1 (beam x).2) = τ x := by
      rw [receiver_quadratic]
      simp only [near, CylinderImage.root, hτ, hroot]
      ring
    rw [e, n, if_pos h1]
  refine ⟨turning_varies, ?_, ?_⟩
  · filter_upwards [dist] with x ⟨h1, h2⟩
    refine ⟨τ x, h1, h2, ?_⟩
    rw [show V3.dot (along (beam x) (τ x) - receiver.center) receiver.axis = 0 from lev x]
    norm_num [receiver]
  · intro hc
    have a0 : atan2 receiver.normal.n receiver.normal.e = 0 := by
      simp only [receiver, atan2]; exact Complex.arg_one
    -- at the seam itself the hit is on the last column
    have zero : turning.brightness [[(0, 0)]] 2 2 1 0 1 (.cylinder receiver) (fun _ _ => 0) 0 0 0 = 0 := by
      have d := dist.self_of_nhds.2
      have hl : receiver.toLocal ((beam 0).1 - receiver.center) + τ 0 • receiver.toLocal (beam 0).2 = ⟨-10 + τ 0, 0, 0⟩ := by
        have := toLocal_along receiver (beam 0) (τ 0)
        rw [this, loc]; simp
      have an : receiver.angle ⟨-10 + τ 0, 0, 0⟩ = 2 * Real.pi := by
        have : atan2 0 (-10 + τ 0) = Real.pi := by
          unfold atan2; rw [Complex.arg_eq_pi_iff]; exact ⟨by simp only; rw [t0]; linarith, rfl⟩
        unfold Cylinder.angle
        rw [this, a0]
        simp only [receiver]; ring
      have e1 : (hitOf 2 2 1 0 1 (.cylinder receiver) (fun _ => (0 : ℝ)) (beam 0)).e = 1 ∧ (hitOf 2 2 1 0 1 (.cylinder receiver) (fun _ => (0 : ℝ)) (beam 0)).u = 1 / 2 := by
        unfold hitOf land lineCylinder
        simp only [d, hl, an]
        rw [if_pos (by simp only [receiver]; refine ⟨?_, ?_, ?_, ?_⟩ <;> first | positivity | norm_num)]
        constructor
        · simp only [receiver]
          rw [div_self (by positivity)]; norm_num
        · simp only [receiver]; norm_num
      rw [beam_brightness, contrib_eq 2 2 1 0 (by norm_num) _ (by rw [e1.1]; norm_num) (by rw [e1.2]; norm_num), if_neg]
      rintro ⟨⟨-, h⟩, -⟩
      rw [e1.1] at h
      norm_num at h
    -- before it, hits are on the first columns
    have f0 : 0 < face receiver (beam 0) (τ 0) := by
      unfold face
      rw [loc]
      have : receiver.toLocal (beam 0).2 = ⟨1, 0, 0⟩ := by simp [Cylinder.toLocal, beam, receiver, V3.cross, V3.dot]
      rw [this]
      simp only [mul_zero, Real.cos_zero, Real.sin_zero, mul_one]
      have neg : -10 + τ 0 < 0 := by rw [t0]; linarith
      have : 0 < √((-10 + τ 0) ^ 2 + 0 ^ 2) := Real.sqrt_pos.2 (by nlinarith)
      have := div_neg_of_neg_of_pos neg this
      linarith
    have cf : ContinuousAt (fun x => face receiver (beam x) (τ x)) 0 := by
      unfold face
      simp only [loc]
      have le : ContinuousAt (fun x => -10 + τ x * Real.cos (2 * x)) 0 := by fun_prop
      have ln : ContinuousAt (fun x => τ x * Real.sin (2 * x)) 0 := by fun_prop
      have sq : ContinuousAt (fun x => √((-10 + τ x * Real.cos (2 * x)) ^ 2 + (τ x * Real.sin (2 * x)) ^ 2)) 0 := by fun_prop
      have s0 : √((-10 + τ 0 * Real.cos (2 * 0)) ^ 2 + (τ 0 * Real.sin (2 * 0)) ^ 2) ≠ 0 := by
        refine (Real.sqrt_pos.2 ?_).ne'
        simp only [mul_zero, Real.cos_zero, Real.sin_zero, mul_one]
        have neg : -10 + τ 0 < 0 := by rw [t0]; linarith
        nlinarith
      have de : ContinuousAt (fun x => (receiver.toLocal (beam x).2).e) 0 := by
        simp only [Cylinder.toLocal, beam, receiver, V3.cross, V3.dot]; fun_prop
      have dn : ContinuousAt (fun x => (receiver.toLocal (beam x).2).n) 0 := by
        simp only [Cylinder.toLocal, beam, receiver, V3.cross, V3.dot]; fun_prop
      exact ((de.mul (le.div sq s0)).add (dn.mul (ln.div sq s0))).neg
    set m := face receiver (beam 0) (τ 0) with hm
    have low : ∀ᶠ x in 𝓝[<] (0 : ℝ), m / 8 < turning.brightness [[(0, 0)]] 2 2 1 0 1 (.cylinder receiver) (fun _ _ => 0) 0 0 x := by
      have cle : ∀ᶠ x in 𝓝 (0 : ℝ), -10 + τ x * Real.cos (2 * x) < 0 := by
        have : Continuous fun x : ℝ => -10 + τ x * Real.cos (2 * x) := by fun_prop
        exact this.continuousAt.eventually (gt_mem_nhds (by simp only [mul_zero, Real.cos_zero, mul_one]; rw [t0]; linarith))
      have cfe : ∀ᶠ x in 𝓝 (0 : ℝ), m / 2 < face receiver (beam x) (τ x) := cf.eventually (lt_mem_nhds (by linarith))
      have cpi : ∀ᶠ x in 𝓝 (0 : ℝ), -(Real.pi / 2) < x := lt_mem_nhds (by linarith [Real.pi_pos])
      filter_upwards [self_mem_nhdsWithin, dist.filter_mono nhdsWithin_le_nhds, cle.filter_mono nhdsWithin_le_nhds, cfe.filter_mono nhdsWithin_le_nhds,
        cpi.filter_mono nhdsWithin_le_nhds] with x hx hd hle hfe hpi
      have hx : x < 0 := hx
      have sneg : Real.sin (2 * x) < 0 := Real.sin_neg_of_neg_of_neg_pi_lt (by linarith) (by linarith)
      have nneg : τ x * Real.sin (2 * x) < 0 := mul_neg_of_pos_of_neg hd.1 sneg
      have az : azimuth receiver (beam x) (τ x) = atan2 (τ x * Real.sin (2 * x)) (-10 + τ x * Real.cos (2 * x)) + Real.pi := by
        unfold azimuth
        rw [loc]
        unfold Cylinder.angle
        rw [a0]
        simp only [receiver]; ring
      have az1 : 0 < azimuth receiver (beam x) (τ x) := by
        rw [az]; unfold atan2; linarith [Complex.neg_pi_lt_arg (⟨-10 + τ x * Real.cos (2 * x), τ x * Real.sin (2 * x)⟩ : ℂ)]
      have az2 : azimuth receiver (beam x) (τ x) < Real.pi / 2 := by
        have : Complex.arg ⟨-10 + τ x * Real.cos (2 * x), τ x * Real.sin (2 * x)⟩ < -(Real.pi / 2) := by
          by_contra h
          push Not at h
          rcases Complex.neg_pi_div_two_le_arg_iff.1 h with h | h
          · exact absurd h (not_le.2 hle)
          · exact absurd h (not_le.2 nneg)
        rw [az]; unfold atan2; linarith
      have hit := hit_on 2 2 1 0 1 receiver (fun _ => (0 : ℝ)) (beam x) (τ x) hd.2 (by rw [lev]; norm_num [receiver]) az1 (by rw [show receiver.opening = 2 * Real.pi from rfl]; linarith [Real.pi_pos])
      rw [beam_brightness, hit]
      have q0 : 0 < azimuth receiver (beam x) (τ x) / (2 * Real.pi) := by positivity
      have q1 : azimuth receiver (beam x) (τ x) / (2 * Real.pi) < 1 / 4 := by
        rw [div_lt_iff₀ (by positivity)]; linarith
      have u : (level receiver (beam x) (τ x) + receiver.height / 2) / receiver.height * (((2 : ℕ) : ℝ) - 1) = 1 / 2 := by
        rw [lev]; norm_num [receiver]
      have e : azimuth receiver (beam x) (τ x) / receiver.opening * (((2 : ℕ) : ℝ) - 1) = azimuth receiver (beam x) (τ x) / (2 * Real.pi) := by
        simp only [receiver]; norm_num
      rw [u, e]
      generalize azimuth receiver (beam x) (τ x) / (2 * Real.pi) = q at q0 q1
      rw [contrib_eq 2 2 1 0 (by norm_num) _ q0.le (by norm_num), if_pos (by refine ⟨⟨q0.le, ?_⟩, ?_, ?_⟩ <;> norm_num; linarith)]
      rw [max_eq_left (by linarith)]
      have te : tent (q - ((0 : ℕ) : ℝ)) = 1 - q := by
        unfold tent
        rw [Nat.cast_zero, sub_zero, abs_of_pos q0, max_eq_right (by linarith)]
      have tu : tent ((1 / 2 : ℝ) - ((1 : ℕ) : ℝ)) = 1 / 2 := by
        unfold tent; norm_num
      simp only
      rw [te, tu]
      unfold SoftMask.intensity
      nlinarith
    have ev := (hc.eventually (gt_mem_nhds (show _ < m / 8 by rw [zero]; linarith))).filter_mono (nhdsWithin_le_nhds (s := Set.Iio 0))
    obtain ⟨x, h1, h2⟩ := (low.and ev).exists
    exact lt_asymm h1 h2

end Artist.CylinderImage
