import Verif.Proofs.MotorImage
import Verif.Props.Kinematics
import Verif.Props.Actuators
import Mathlib.Analysis.SpecialFunctions.Trigonometric.InverseDeriv
import Mathlib.Analysis.SpecialFunctions.Log.Deriv
import Mathlib.Topology.MetricSpace.Pseudo.Defs
/-! C108: the bitmap of a planar target follows the motors. -/
namespace Artist.MotorImage
open Artist Intersect Flux Splat Kinematics Moved Transforms Filter Topology

variable {X : Type}

/-- C108: let the motor positions, the parameters of the kinematics, the sun and the mirror change continuously (in any parameter `x`).  Then the brightness of every
pixel changes continuously, at all `x₀` where no ray meets the edge of the target.  Rays that graze the target or leave it behind do no harm. -/
theorem C108_continuous [TopologicalSpace X] (s : Moving X) (distortions : List (List (ℝ × ℝ))) (W H : Nat) (magnitude extinction reflectivity : ℝ) (p : Plane ℝ)
    (blocked : X → V3 ℝ × V3 ℝ → ℝ) (x₀ : X) (hw : 0 < p.width) (hh : 0 < p.height) (hW : 1 < W) (hH : 1 < H)
    (hs : s.Varies fun f => ContinuousAt f x₀) (hb : ∀ i < (s.rays distortions x₀).length, ContinuousAt (fun x => blocked x (s.ray distortions i x)) x₀)
    (he : ∀ ray ∈ s.rays distortions x₀, ¬ HitsEdge p ray) (r c : Nat) (hr : r < H) (hc : c < W) :
    ContinuousAt (s.brightness distortions W H magnitude extinction reflectivity (.planar p) blocked r c) x₀ := by
  have e : s.brightness distortions W H magnitude extinction reflectivity (.planar p) blocked r c = fun x =>
      ((List.range (sources s distortions).length).map fun i =>
        contrib W H (H - 1 - r) c (hitOf W H magnitude extinction reflectivity (.planar p) (blocked x) (s.ray distortions i x))).sum := by
    funext x
    unfold Moving.brightness traceSample
    obtain ⟨img, h1, -, -, h2⟩ := splat_spec W H (by omega) (by omega) ((s.rays distortions x).map (hitOf W H magnitude extinction reflectivity (.planar p) (blocked x)))
    have := h2 (H - 1 - r) c (by omega) hc
    rw [show H - 1 - (H - 1 - r) = r by omega] at this
    simp only [h1, this]
    rw [rays_range, List.map_map, List.map_map]
    rfl
  rw [e]
  refine sum_continuous x₀ (fun i x => contrib W H (H - 1 - r) c (hitOf W H magnitude extinction reflectivity (.planar p) (blocked x) (s.ray distortions i x))) _ ?_
  intro i hi
  rw [List.mem_range] at hi
  have hi' := hi
  rw [← rays_length s distortions x₀] at hi'
  have hb := hb i hi'
  have he := he (s.ray distortions i x₀) (by
    rw [rays_range]; exact List.mem_map.2 ⟨i, List.mem_range.2 hi, rfl⟩)
  rw [ray_eq s distortions i hi] at hb he ⊢
  obtain ⟨⟨c1, c2, c3⟩, c4, c5, c6⟩ := (closed_continuous x₀).ray s hs _ (mem_sources (List.getElem_mem hi))
  exact ray_continuous magnitude extinction reflectivity p hw hh hW hH blocked (H - 1 - r) c hc _ x₀ he hb c1 c2 c3 c4 c5 c6

/-- C108: let everything be differentiable in a real parameter, and assume in addition that no ray is parallel to the target and none meets a pixel line.  Then the coordinates
and intensities of all rays have derivatives, and the derivative of any loss of the bitmap is what the chain rule makes of the gradients that `backward` leaves for the
rays. -/
theorem C108_gradient (s : Moving ℝ) (distortions : List (List (ℝ × ℝ))) (W H : Nat) (magnitude extinction reflectivity : ℝ) (p : Plane ℝ)
    (blocked : ℝ → V3 ℝ × V3 ℝ → ℝ) (x₀ : ℝ) (hw : 0 < p.width) (hh : 0 < p.height) (hW : 1 < W) (hH : 1 < H)
    (hs : s.Varies fun f => DifferentiableAt ℝ f x₀) (hb : ∀ i < (s.rays distortions x₀).length, DifferentiableAt ℝ (fun x => blocked x (s.ray distortions i x)) x₀)
    (he : ∀ ray ∈ s.rays distortions x₀, ¬ HitsEdge p ray ∧ V3.dot ray.2 p.normal ≠ 0)
    (hl : ∀ ray ∈ s.rays distortions x₀, ∀ h : Hit ℝ, h = hitOf W H magnitude extinction reflectivity (.planar p) (blocked x₀) ray → Inside W H h → OffLine h.e ∧ OffLine h.u)
    (g : Nat → Nat → ℝ) :
    let hit := fun i x => hitOf W H magnitude extinction reflectivity (.planar p) (blocked x) (s.ray distortions i x)
    ∃ slope : Nat → Gradient ℝ,
      (∀ i < (s.rays distortions x₀).length, HasDerivAt (fun x => (hit i x).e) (slope i).e x₀ ∧ HasDerivAt (fun x => (hit i x).u) (slope i).u x₀ ∧
        HasDerivAt (fun x => (hit i x).w) (slope i).w x₀) ∧
      HasDerivAt (fun x => score W H g ((s.rays distortions x).map (hitOf W H magnitude extinction reflectivity (.planar p) (blocked x))))
        (((List.range (s.rays distortions x₀).length).map fun i => (backward W H g (hit i x₀)).e * (slope i).e + (backward W H g (hit i x₀)).u * (slope i).u +
          (backward W H g (hit i x₀)).w * (slope i).w).sum) x₀ := by
  intro hit
  have hn := rays_length s distortions x₀
  have key : ∀ i < (sources s distortions).length, _ := fun i hi => by
    have hi' := hi
    rw [← hn] at hi'
    have hmem : s.ray distortions i x₀ ∈ s.rays distortions x₀ := by
      rw [rays_range]; exact List.mem_map.2 ⟨i, List.mem_range.2 hi, rfl⟩
    have hb := hb i hi'
    have hl := hl _ hmem _ rfl
    have he := he _ hmem
    rw [ray_eq s distortions i hi] at hb he hl
    obtain ⟨⟨c1, c2, c3⟩, c4, c5, c6⟩ := (closed_differentiable x₀).ray s hs _ (mem_sources (List.getElem_mem hi))
    have := ray_differentiable W H magnitude extinction reflectivity p hw hh hW hH blocked _ x₀ he.1 he.2 hl hb c1 c2 c3 c4 c5 c6
    rw [← ray_eq s distortions i hi] at this
    exact this
  refine ⟨fun i => ⟨deriv (fun x => (hit i x).e) x₀, deriv (fun x => (hit i x).u) x₀, deriv (fun x => (hit i x).w) x₀⟩, ?_, ?_⟩
  · intro i hi
    rw [hn] at hi
    obtain ⟨⟨d1, d2, d3⟩, -⟩ := key i hi
    exact ⟨d1.hasDerivAt, d2.hasDerivAt, d3.hasDerivAt⟩
  · have e : (fun x => score W H g ((s.rays distortions x).map (hitOf W H magnitude extinction reflectivity (.planar p) (blocked x)))) = fun x =>
        ((List.range (sources s distortions).length).map fun i => scoreRay W H g (hit i x)).sum := by
      funext x
      rw [score_eq W H (by omega) (by omega), rays_range, List.map_map, List.map_map]
      rfl
    rw [e, hn, ← hasDerivWithinAt_univ]
    refine sum_deriv Set.univ x₀ (fun i x => scoreRay W H g (hit i x)) _ _ ?_
    intro i hi
    obtain ⟨⟨d1, d2, d3⟩, l1, l2⟩ := key i (List.mem_range.1 hi)
    refine scoreRay_deriv W H g (hit i) Set.univ x₀ ⟨_, _, _⟩ (Set.mem_univ _) d1.hasDerivAt.hasDerivWithinAt d2.hasDerivAt.hasDerivWithinAt d3.hasDerivAt.hasDerivWithinAt ?_ ?_
    · rw [nhdsWithin_univ]; exact l1
    · rw [nhdsWithin_univ]; exact l2

/-! ### Where the continuity of the angles and of the blocking comes from -/
open Actuators

theorem clamp_continuous [TopologicalSpace X] {x₀ : X} {f lo hi : X → ℝ} (h1 : ContinuousAt f x₀) (h2 : ContinuousAt lo x₀) (h3 : ContinuousAt hi x₀) :
    ContinuousAt (fun x => clamp (f x) (lo x) (hi x)) x₀ := (h1.max h2).min h3

theorem physical_near (y : ℝ) (hy : y ≠ 1 / 5) : (y < 1 / 5 ∧ ∀ᶠ z in 𝓝 y, Linear.physical z = Real.log (1 + Real.exp (100 * z)) / 100 + eps) ∨
    (1 / 5 < y ∧ ∀ᶠ z in 𝓝 y, Linear.physical z = z + eps) := by
  rcases lt_or_gt_of_ne hy with h | h
  · refine Or.inl ⟨h, ?_⟩
    filter_upwards [eventually_lt_nhds h] with z hz
    unfold Linear.physical softplus
    rw [if_neg (by linarith)]
  · refine Or.inr ⟨h, ?_⟩
    filter_upwards [eventually_gt_nhds h] with z hz
    unfold Linear.physical softplus
    rw [if_pos (by linarith)]

theorem physical_differentiable (y : ℝ) (hy : y ≠ 1 / 5) : DifferentiableAt ℝ Linear.physical y := by
  rcases physical_near y hy with ⟨-, h⟩ | ⟨-, h⟩
  · refine DifferentiableAt.congr_of_eventuallyEq ?_ h
    have : DifferentiableAt ℝ (fun z : ℝ => 1 + Real.exp (100 * z)) y := by fun_prop
    exact ((this.log (by positivity)).div_const _).add_const _
  · exact (differentiableAt_id.add_const _).congr_of_eventuallyEq h

/-- C108: the angle of a linear actuator is continuous in the motor position and in all its parameters.  The only exception is the threshold of `softplus` at a raw parameter of 1/5. -/
theorem C108_actuators [TopologicalSpace X] (a : X → Linear) (motor : X → ℝ) (x₀ : X) (hc : ∀ x, (a x).clockwise = (a x₀).clockwise)
    (hm : ContinuousAt motor x₀) (h0 : ContinuousAt (fun x => (a x).initialAngle) x₀)
    (h1 : ContinuousAt (fun x => (a x).rawIncrement) x₀) (h2 : ContinuousAt (fun x => (a x).rawOffset) x₀)
    (h3 : ContinuousAt (fun x => (a x).rawPivotRadius) x₀) (h4 : ContinuousAt (fun x => (a x).rawInitialStroke) x₀)
    (hn : (a x₀).rawIncrement ≠ 1 / 5 ∧ (a x₀).rawOffset ≠ 1 / 5 ∧ (a x₀).rawPivotRadius ≠ 1 / 5 ∧ (a x₀).rawInitialStroke ≠ 1 / 5) :
    ContinuousAt (fun x => (a x).actuator.toAngle (motor x)) x₀ := by
  have ph : ∀ f : X → ℝ, ContinuousAt f x₀ → f x₀ ≠ 1 / 5 → ContinuousAt (fun x => Linear.physical (f x)) x₀ := fun f hf h =>
    (physical_differentiable _ h).continuousAt.comp_of_eq hf rfl
  have p1 : ContinuousAt (fun x => (a x).increment) x₀ := ph _ h1 hn.1
  have p2 : ContinuousAt (fun x => (a x).offset) x₀ := ph _ h2 hn.2.1
  have p3 : ContinuousAt (fun x => (a x).pivotRadius) x₀ := ph _ h3 hn.2.2.1
  have p4 : ContinuousAt (fun x => (a x).initialStroke) x₀ := ph _ h4 hn.2.2.2
  have abs : ∀ m : X → ℝ, ContinuousAt m x₀ → ContinuousAt (fun x => (a x).absoluteAngle (m x)) x₀ := by
    intro m hm
    unfold Linear.absoluteAngle
    have i0 : (a x₀).increment ≠ 0 := (physical_pos _).ne'
    have d0 : 2 * (a x₀).offset * (a x₀).pivotRadius ≠ 0 := mul_ne_zero (mul_ne_zero two_ne_zero (physical_pos _).ne') (physical_pos _).ne'
    have st : ContinuousAt (fun x => (a x).clampStroke (m x / (a x).increment + (a x).initialStroke)) x₀ :=
      clamp_continuous ((hm.div p1 i0).add p4) ((p2.sub p3).abs.add continuousAt_const) ((p2.add p3).sub continuousAt_const)
    refine Real.continuous_arccos.continuousAt.comp_of_eq (f := fun x => clamp _ _ _) ?_ rfl
    refine clamp_continuous ?_ continuousAt_const continuousAt_const
    exact (((p2.pow 2).add (p3.pow 2)).sub (st.pow 2)).div ((continuousAt_const.mul p2).mul p3) d0
  have d := (abs (fun _ => 0) continuousAt_const).sub (abs motor hm)
  show ContinuousAt (fun x => (a x).initialAngle + ((a x).absoluteAngle 0 - (a x).absoluteAngle (motor x)) * (if (a x).clockwise = 1 then 1 else 0) -
    ((a x).absoluteAngle 0 - (a x).absoluteAngle (motor x)) * (if (a x).clockwise = 0 then 1 else 0)) x₀
  simp only [hc]
  exact (h0.add (d.mul continuousAt_const)).sub (d.mul continuousAt_const)

/-- C108: at the threshold it jumps indeed (by less than a ten-billionth). -/
theorem C108_softplus : ¬ ContinuousAt Linear.physical (1 / 5) := by
  intro hc
  have big : 1 / 5 + eps < Linear.physical (1 / 5) := by
    unfold Linear.physical softplus
    rw [if_neg (by norm_num)]
    have : (20 : ℝ) < Real.log (1 + Real.exp (100 * (1 / 5))) := by
      rw [Real.lt_log_iff_exp_lt (by positivity)]
      norm_num
    linarith
  have ev : ∀ᶠ x in 𝓝[>] (1 / 5 : ℝ), x + eps < Linear.physical x := by
    have cid : ContinuousAt (fun x : ℝ => x + eps) (1 / 5) := continuousAt_id.add continuousAt_const
    have := cid.eventually_lt hc big
    exact this.filter_mono nhdsWithin_le_nhds
  obtain ⟨x, hx, h5⟩ := (ev.and self_mem_nhdsWithin).exists
  have h5 : 1 / 5 < x := h5
  unfold Linear.physical softplus at hx
  rw [if_pos (by linarith)] at hx
  linarith

/-- Stroke and cosine lie strictly inside the limits of the actuator. -/
def Free (a : Linear) (motor : ℝ) : Prop :=
  let stroke := motor / a.increment + a.initialStroke
  let cosine := (a.offset ^ 2 + a.pivotRadius ^ 2 - stroke ^ 2) / (2 * a.offset * a.pivotRadius)
  (|a.offset - a.pivotRadius| + eps < stroke ∧ stroke < a.offset + a.pivotRadius - eps) ∧ -1 + 1 / 10 ^ 6 < cosine ∧ cosine < 1 - 1 / 10 ^ 6

theorem clamp_near {f lo hi : ℝ → ℝ} {x₀ : ℝ} (h1 : ContinuousAt f x₀) (h2 : ContinuousAt lo x₀) (h3 : ContinuousAt hi x₀) (ha : lo x₀ < f x₀) (hb : f x₀ < hi x₀) :
    ∀ᶠ x in 𝓝 x₀, clamp (f x) (lo x) (hi x) = f x := by
  filter_upwards [h2.eventually_lt h1 ha, h1.eventually_lt h3 hb] with x hx hy
  exact clamp_of_mem hx.le hy.le

/-- C108: and it is differentiable where neither the reference position nor the motor position is cut off by the limits. -/
theorem C108_actuators_differentiable (a : ℝ → Linear) (motor : ℝ → ℝ) (x₀ : ℝ) (hc : ∀ x, (a x).clockwise = (a x₀).clockwise)
    (hm : DifferentiableAt ℝ motor x₀) (h0 : DifferentiableAt ℝ (fun x => (a x).initialAngle) x₀)
    (h1 : DifferentiableAt ℝ (fun x => (a x).rawIncrement) x₀) (h2 : DifferentiableAt ℝ (fun x => (a x).rawOffset) x₀)
    (h3 : DifferentiableAt ℝ (fun x => (a x).rawPivotRadius) x₀) (h4 : DifferentiableAt ℝ (fun x => (a x).rawInitialStroke) x₀)
    (hn : (a x₀).rawIncrement ≠ 1 / 5 ∧ (a x₀).rawOffset ≠ 1 / 5 ∧ (a x₀).rawPivotRadius ≠ 1 / 5 ∧ (a x₀).rawInitialStroke ≠ 1 / 5)
    (hf0 : Free (a x₀) 0) (hf : Free (a x₀) (motor x₀)) :
    DifferentiableAt ℝ (fun x => (a x).actuator.toAngle (motor x)) x₀ := by
  have ph : ∀ f : ℝ → ℝ, DifferentiableAt ℝ f x₀ → f x₀ ≠ 1 / 5 → DifferentiableAt ℝ (fun x => Linear.physical (f x)) x₀ := fun f hf h =>
    (physical_differentiable _ h).comp x₀ hf
  have p1 : DifferentiableAt ℝ (fun x => (a x).increment) x₀ := ph _ h1 hn.1
  have p2 : DifferentiableAt ℝ (fun x => (a x).offset) x₀ := ph _ h2 hn.2.1
  have p3 : DifferentiableAt ℝ (fun x => (a x).pivotRadius) x₀ := ph _ h3 hn.2.2.1
  have p4 : DifferentiableAt ℝ (fun x => (a x).initialStroke) x₀ := ph _ h4 hn.2.2.2
  have abs : ∀ m : ℝ → ℝ, DifferentiableAt ℝ m x₀ → Free (a x₀) (m x₀) → DifferentiableAt ℝ (fun x => (a x).absoluteAngle (m x)) x₀ := by
    intro m hm hf
    obtain ⟨⟨f1, f2⟩, f3, f4⟩ := hf
    have i0 : (a x₀).increment ≠ 0 := (physical_pos _).ne'
    have d0 : 2 * (a x₀).offset * (a x₀).pivotRadius ≠ 0 := mul_ne_zero (mul_ne_zero two_ne_zero (physical_pos _).ne') (physical_pos _).ne'
    have st : DifferentiableAt ℝ (fun x => m x / (a x).increment + (a x).initialStroke) x₀ := (hm.fun_div p1 i0).add p4
    have q : DifferentiableAt ℝ (fun x => ((a x).offset ^ 2 + (a x).pivotRadius ^ 2 - (m x / (a x).increment + (a x).initialStroke) ^ 2) / (2 * (a x).offset * (a x).pivotRadius)) x₀ :=
      (((p2.pow 2).add (p3.pow 2)).sub (st.pow 2)).fun_div ((p2.const_mul 2).mul p3) d0
    have n1 := clamp_near st.continuousAt (((p2.sub p3).continuousAt.abs).add continuousAt_const) ((p2.add p3).continuousAt.sub continuousAt_const) f1 f2
    have n2 := clamp_near (lo := fun _ => -1 + 1 / 10 ^ 6) (hi := fun _ => 1 - 1 / 10 ^ 6) q.continuousAt continuousAt_const continuousAt_const f3 f4
    have main : DifferentiableAt ℝ (fun x => Real.arccos (((a x).offset ^ 2 + (a x).pivotRadius ^ 2 - (m x / (a x).increment + (a x).initialStroke) ^ 2) / (2 * (a x).offset * (a x).pivotRadius))) x₀ :=
      (Real.differentiableAt_arccos.2 ⟨by linarith, by linarith⟩).comp x₀ q
    refine main.congr_of_eventuallyEq ?_
    filter_upwards [n1, n2] with x e1 e2
    unfold Linear.absoluteAngle Linear.clampStroke
    simp only
    rw [show clamp (m x / (a x).increment + (a x).initialStroke) (|(a x).offset - (a x).pivotRadius| + eps) ((a x).offset + (a x).pivotRadius - eps) = _ from e1, e2]
  have d := (abs (fun _ => 0) (differentiableAt_const _) hf0).sub (abs motor hm hf)
  show DifferentiableAt ℝ (fun x => (a x).initialAngle + ((a x).absoluteAngle 0 - (a x).absoluteAngle (motor x)) * (if (a x).clockwise = 1 then 1 else 0) -
    ((a x).absoluteAngle 0 - (a x).absoluteAngle (motor x)) * (if (a x).clockwise = 0 then 1 else 0)) x₀
  simp only [hc]
  exact (h0.add (d.mul_const _)).sub (d.mul_const _)

/-- the actuator of the example is free between its limits -/
example : Free actuatorExample 0 ∧ Free actuatorExample 15000 := by
  obtain ⟨e1, e2, e3, e4⟩ := actuatorExample_params
  unfold Free
  simp only [e1, e2, e3, e4, eps]
  norm_num [abs_of_pos]

open SoftMask in
theorem safeDenominator_continuous (eps y : ℝ) (he : 0 < eps) (hy : y ≠ 0) : ContinuousAt (safeDenominator eps) y := by
  rcases lt_or_gt_of_ne hy with h | h
  · refine ContinuousAt.congr (f := fun z => min z (-eps)) (continuousAt_id.min continuousAt_const) ?_
    filter_upwards [eventually_lt_nhds h] with z hz
    unfold safeDenominator
    rw [abs_of_neg hz]
    split_ifs with h1 h2
    · linarith
    · exact min_eq_right (by linarith)
    · exact min_eq_left (by linarith)
  · refine ContinuousAt.congr (f := fun z => max z eps) (continuousAt_id.max continuousAt_const) ?_
    filter_upwards [eventually_gt_nhds h] with z hz
    unfold safeDenominator
    rw [abs_of_pos hz]
    split_ifs with h1 h2
    · exact max_eq_right h1.le
    · linarith
    · exact max_eq_left (by linarith)

open SoftMask in
theorem safeDet_continuous (eps y : ℝ) (he : 0 < eps) (hy : y ≠ 0) : ContinuousAt (safeDet eps) y := by
  refine (safeDenominator_continuous eps y he hy).congr ?_
  have : ∀ᶠ z in 𝓝 y, z ≠ 0 := isOpen_ne.mem_nhds hy
  filter_upwards [this] with z hz
  unfold safeDet safeDenominator
  split_ifs with h1 h2
  · rw [sign_pos (lt_of_le_of_ne h2 (Ne.symm hz))]; simp
  · rw [sign_neg (not_le.1 h2)]; simp
  · rfl

open SoftMask in
theorem safeDenominator_ne (eps y : ℝ) (he : 0 < eps) : safeDenominator eps y ≠ 0 := by
  unfold safeDenominator
  split_ifs with h1 h2
  · exact he.ne'
  · linarith
  · intro h; rw [h, abs_zero] at h1; exact h1 he

open SoftMask in
theorem safeDet_ne (eps y : ℝ) (he : 0 < eps) (hy : y ≠ 0) : safeDet eps y ≠ 0 := by
  unfold safeDet
  split_ifs with h1
  · rcases lt_or_gt_of_ne hy with h | h
    · rw [sign_neg h]; simp [he.ne']
    · rw [sign_pos h]; simp [he.ne']
  · exact hy

/-- all coordinates of a vector are continuous -/
def Steady [TopologicalSpace X] (x₀ : X) (v : X → V3 ℝ) : Prop := ContinuousAt (fun x => (v x).e) x₀ ∧ ContinuousAt (fun x => (v x).n) x₀ ∧ ContinuousAt (fun x => (v x).u) x₀

theorem Steady.dot [TopologicalSpace X] {x₀ : X} {v w : X → V3 ℝ} (hv : Steady x₀ v) (hw : Steady x₀ w) : ContinuousAt (fun x => V3.dot (v x) (w x)) x₀ := by
  obtain ⟨a1, a2, a3⟩ := hv
  obtain ⟨b1, b2, b3⟩ := hw
  unfold V3.dot
  exact ((a1.mul b1).add (a2.mul b2)).add (a3.mul b3)

theorem Steady.sub [TopologicalSpace X] {x₀ : X} {v w : X → V3 ℝ} (hv : Steady x₀ v) (hw : Steady x₀ w) : Steady x₀ fun x => v x - w x :=
  ⟨hv.1.sub hw.1, hv.2.1.sub hw.2.1, hv.2.2.sub hw.2.2⟩

theorem Steady.add [TopologicalSpace X] {x₀ : X} {v w : X → V3 ℝ} (hv : Steady x₀ v) (hw : Steady x₀ w) : Steady x₀ fun x => v x + w x :=
  ⟨hv.1.add hw.1, hv.2.1.add hw.2.1, hv.2.2.add hw.2.2⟩

theorem Steady.smul [TopologicalSpace X] {x₀ : X} {v : X → V3 ℝ} {a : X → ℝ} (ha : ContinuousAt a x₀) (hv : Steady x₀ v) : Steady x₀ fun x => a x • v x :=
  ⟨ha.mul hv.1, ha.mul hv.2.1, ha.mul hv.2.2⟩

theorem sigmoid_continuous : Continuous SoftMask.sigmoid := by
  unfold SoftMask.sigmoid
  refine continuous_const.div (by fun_prop) fun x => ?_
  positivity

open SoftMask in
theorem sigma_continuous [TopologicalSpace X] (eps softness offset : ℝ) (hp : 0 < eps) (o d : X → V3 ℝ) (r : X → Rect) (x₀ : X) (ho : Steady x₀ o) (hd : Steady x₀ d)
    (h1 : Steady x₀ fun x => (r x).corner) (h2 : Steady x₀ fun x => (r x).spanU) (h3 : Steady x₀ fun x => (r x).spanV) (h4 : Steady x₀ fun x => (r x).normal)
    (hg : gram (r x₀) ≠ 0) (hn : V3.dot (d x₀) (r x₀).normal ≠ 0) :
    ∃ f : X → ℝ, ContinuousAt f x₀ ∧ ∀ᶠ x in 𝓝 x₀, sigma eps softness offset (o x) (d x) (r x) = some (f x) := by
  have cg : ContinuousAt (fun x => gram (r x)) x₀ := by
    unfold gram
    exact ((h2.dot h2).mul (h3.dot h3)).sub ((h2.dot h3).mul (h2.dot h3))
  have cd : ContinuousAt (fun x => SoftMask.planeDistance eps (o x) (d x) (r x)) x₀ := by
    unfold SoftMask.planeDistance
    exact ((h1.sub ho).dot h4).div ((safeDenominator_continuous eps _ hp hn).comp_of_eq (hd.dot h4) rfl) (safeDenominator_ne eps _ hp)
  have cs : ContinuousAt (fun x => safeDet eps (gram (r x))) x₀ := (safeDet_continuous eps _ hp hg).comp_of_eq cg rfl
  have co : Steady x₀ fun x => (o x + SoftMask.planeDistance eps (o x) (d x) (r x) • d x) - (r x).corner := (ho.add (hd.smul cd)).sub h1
  have cu := co.dot h2
  have cv := co.dot h3
  have c1 : ContinuousAt (fun x => (planeCoordinates eps (o x) (d x) (r x)).1) x₀ := by
    unfold planeCoordinates
    exact ((cu.mul (h3.dot h3)).sub (cv.mul (h2.dot h3))).div cs (safeDet_ne eps _ hp hg)
  have c2 : ContinuousAt (fun x => (planeCoordinates eps (o x) (d x) (r x)).2) x₀ := by
    unfold planeCoordinates
    exact ((cv.mul (h2.dot h2)).sub (cu.mul (h2.dot h3))).div cs (safeDet_ne eps _ hp hg)
  have sg : ∀ f : X → ℝ, ContinuousAt f x₀ → ContinuousAt (fun x => sigmoid (f x)) x₀ := fun f hf => sigmoid_continuous.continuousAt.comp hf
  refine ⟨fun x => min (max (sigmoid (softness * (planeCoordinates eps (o x) (d x) (r x)).1) * sigmoid (softness * (1 - (planeCoordinates eps (o x) (d x) (r x)).1)) *
    (sigmoid (softness * (planeCoordinates eps (o x) (d x) (r x)).2) * sigmoid (softness * (1 - (planeCoordinates eps (o x) (d x) (r x)).2))) *
    sigmoid (softness * (SoftMask.planeDistance eps (o x) (d x) (r x) - offset))) 0) 1, ?_, ?_⟩
  · refine ((ContinuousAt.mul (ContinuousAt.mul (ContinuousAt.mul ?_ ?_) (ContinuousAt.mul ?_ ?_)) ?_).max continuousAt_const).min continuousAt_const
    · exact sg _ (continuousAt_const.mul c1)
    · exact sg _ (continuousAt_const.mul (continuousAt_const.sub c1))
    · exact sg _ (continuousAt_const.mul c2)
    · exact sg _ (continuousAt_const.mul (continuousAt_const.sub c2))
    · exact sg _ (continuousAt_const.mul (cd.sub continuousAt_const))
  · have : ∀ᶠ x in 𝓝 x₀, gram (r x) ≠ 0 := cg.eventually_ne hg
    filter_upwards [this] with x hx
    unfold sigma
    rw [if_neg (safeDet_ne eps _ hp hx)]

open SoftMask in
/-- C108: the blocking mask of a ray is continuous in the ray and in the rectangles, as long as the list of rectangles stays the same.  The only exceptions are rectangles without
area and rays exactly parallel to a rectangle. -/
theorem C108_mask [TopologicalSpace X] (eps softness alpha offset : ℝ) (hp : 0 < eps) (o d : X → V3 ℝ) (rects : List (X → Rect)) (x₀ : X) (ho : Steady x₀ o) (hd : Steady x₀ d)
    (hr : ∀ r ∈ rects, (Steady x₀ fun x => (r x).corner) ∧ (Steady x₀ fun x => (r x).spanU) ∧ (Steady x₀ fun x => (r x).spanV) ∧ Steady x₀ fun x => (r x).normal)
    (hg : ∀ r ∈ rects, gram (r x₀) ≠ 0 ∧ V3.dot (d x₀) (r x₀).normal ≠ 0) :
    ∃ blocked : X → ℝ, ContinuousAt blocked x₀ ∧ ∀ᶠ x in 𝓝 x₀, softMask eps softness alpha offset (o x) (d x) (rects.map fun r => r x) = some (blocked x) := by
  have key : ∃ f : X → ℝ, ContinuousAt f x₀ ∧ ∀ᶠ x in 𝓝 x₀, ∃ l, (rects.map fun r => r x).mapM (sigma eps softness offset (o x) (d x)) = some l ∧ l.sum = f x := by
    induction rects with
    | nil => exact ⟨fun _ => 0, continuousAt_const, Eventually.of_forall fun x => ⟨[], by simp, by simp⟩⟩
    | cons r rects ih =>
      obtain ⟨f, hf, hf'⟩ := ih (fun r' h => hr r' (List.mem_cons_of_mem _ h)) (fun r' h => hg r' (List.mem_cons_of_mem _ h))
      obtain ⟨a1, a2, a3, a4⟩ := hr r List.mem_cons_self
      obtain ⟨g1, g2⟩ := hg r List.mem_cons_self
      obtain ⟨g, hg, hg'⟩ := sigma_continuous eps softness offset hp o d r x₀ ho hd a1 a2 a3 a4 g1 g2
      refine ⟨fun x => g x + f x, hg.add hf, ?_⟩
      filter_upwards [hf', hg'] with x hx hy
      obtain ⟨l, hl, hs⟩ := hx
      exact ⟨g x :: l, by rw [List.map_cons, List.mapM_cons, hy, hl]; rfl, by rw [List.sum_cons, hs]⟩
  obtain ⟨f, hf, hf'⟩ := key
  refine ⟨fun x => 1 - Real.exp (-(alpha * f x)), ?_, ?_⟩
  · exact continuousAt_const.sub (Real.continuous_exp.continuousAt.comp (f := fun x => -(alpha * f x)) (continuousAt_const.mul hf).neg)
  · filter_upwards [hf'] with x hx
    obtain ⟨l, hl, hs⟩ := hx
    unfold softMask
    rw [hl]
    simp only [hs]

/-- the mask of a fixed rectangle around the height of the ray, on the path of a ray that turns -/
example : ∃ blocked : ℝ → ℝ, ContinuousAt blocked 0 ∧ ∀ᶠ x in 𝓝 (0 : ℝ), SoftMask.softMask (1 / 10 ^ 12) 1000 100 (5 / 100) ⟨0, 0, 0⟩ ⟨Real.sin x, Real.cos x, 0⟩
    ([fun _ => (⟨⟨-1, 1, -1⟩, ⟨2, 0, 0⟩, ⟨0, 0, 2⟩, ⟨0, -1, 0⟩⟩ : SoftMask.Rect)].map fun r => r x) = some (blocked x) := by
  refine C108_mask _ _ _ _ (by norm_num) (fun _ => ⟨0, 0, 0⟩) (fun x => ⟨Real.sin x, Real.cos x, 0⟩) [fun _ => ⟨⟨-1, 1, -1⟩, ⟨2, 0, 0⟩, ⟨0, 0, 2⟩, ⟨0, -1, 0⟩⟩] 0
    ⟨continuousAt_const, continuousAt_const, continuousAt_const⟩ ⟨Real.continuous_sin.continuousAt, Real.continuous_cos.continuousAt, continuousAt_const⟩ ?_ ?_
  · intro r hr
    simp only [List.mem_singleton] at hr
    subst hr
    exact ⟨⟨continuousAt_const, continuousAt_const, continuousAt_const⟩, ⟨continuousAt_const, continuousAt_const, continuousAt_const⟩,
      ⟨continuousAt_const, continuousAt_const, continuousAt_const⟩, continuousAt_const, continuousAt_const, continuousAt_const⟩
  · intro r hr
    simp only [List.mem_singleton] at hr
    subst hr
    norm_num [SoftMask.gram, V3.dot]

/-- C108: for a linear actuator that is not changed, the angle is a continuous function of the motor position, everywhere. -/
theorem C108_motor_position (a : Linear) : Continuous a.actuator.toAngle := by
  have h : Continuous fun m => a.absoluteAngle m := by
    unfold Linear.absoluteAngle Linear.clampStroke clamp
    refine Real.continuous_arccos.comp ?_
    fun_prop
  show Continuous fun m => a.initialAngle + (a.absoluteAngle 0 - a.absoluteAngle m) * (if a.clockwise = 1 then 1 else 0) -
    (a.absoluteAngle 0 - a.absoluteAngle m) * (if a.clockwise = 0 then 1 else 0)
  fun_prop

/-- A heliostat whose motors move while everything else is kept. -/
def motorsOnly (h : Heliostat) (incident : Fin 4 → ℝ) (mirror : List ((Fin 4 → ℝ) × (Fin 4 → ℝ))) : Moving (ℝ × ℝ) :=
  ⟨fun _ => h, id, fun _ => incident, mirror.map fun q => (fun _ => q.1, fun _ => q.2)⟩

/-- C108: the image of a heliostat with two linear actuators, as a function of its two motor positions. -/
theorem C108_motors (h : Heliostat) (a₁ a₂ : Linear) (h1 : h.actuator1 = a₁.actuator) (h2 : h.actuator2 = a₂.actuator) (incident : Fin 4 → ℝ)
    (mirror : List ((Fin 4 → ℝ) × (Fin 4 → ℝ))) (distortions : List (List (ℝ × ℝ))) (W H : Nat) (magnitude extinction reflectivity : ℝ) (p : Plane ℝ)
    (hw : 0 < p.width) (hh : 0 < p.height) (hW : 1 < W) (hH : 1 < H) (m : ℝ × ℝ)
    (he : ∀ ray ∈ raysOf incident (placed (h.motorToOrientation m) mirror) distortions, ¬ HitsEdge p ray) (r c : Nat) (hr : r < H) (hc : c < W) :
    ContinuousAt ((motorsOnly h incident mirror).brightness distortions W H magnitude extinction reflectivity (.planar p) (fun _ _ => 0) r c) m := by
  have e : (motorsOnly h incident mirror).rays distortions m = raysOf incident (placed (h.motorToOrientation m) mirror) distortions := by
    unfold Moving.rays motorsOnly
    simp [Function.comp_def]
  refine C108_continuous _ _ _ _ _ _ _ p _ m hw hh hW hH ?_ (fun _ _ => continuousAt_const) (by rw [e]; exact he) r c hr hc
  refine ⟨fun _ => continuousAt_const, fun _ => continuousAt_const, fun _ => continuousAt_const, ?_, ?_, fun _ => continuousAt_const, ?_⟩
  · show ContinuousAt (fun x : ℝ × ℝ => h.actuator1.toAngle x.1) m
    rw [h1]
    exact ((C108_motor_position a₁).comp continuous_fst).continuousAt
  · show ContinuousAt (fun x : ℝ × ℝ => h.actuator2.toAngle x.2) m
    rw [h2]
    exact ((C108_motor_position a₂).comp continuous_snd).continuousAt
  · intro q hq i
    obtain ⟨q', -, rfl⟩ := List.mem_map.1 hq
    exact ⟨continuousAt_const, continuousAt_const⟩

/-! ### The edge, and a concrete scene -/

/-- a heliostat at the origin with ideal actuators whose second axis turns by `x`; one point, light from the south, no scattering -/
noncomputable def turning : Moving ℝ :=
  ⟨fun _ => ⟨![0, 0, 0, 1], 0, 0, (Actuators.Ideal.mk (-4) 4).actuator, (Actuators.Ideal.mk (-4) 4).actuator⟩, fun x => (0, x), fun _ => ![0, 1, 0, 0],
    [(fun _ => ![0, 0, 0, 1], fun _ => ![0, 0, 1, 0])]⟩

/-- a square target to the south of it -/
def square : Plane ℝ := ⟨⟨0, -1, 0⟩, ⟨0, 1, 0⟩, 2, 2⟩

theorem turning_rays (x : ℝ) : turning.rays [[(0, 0)]] x = [(⟨0, 0, 0⟩, ⟨Real.sin (2 * x), -Real.cos (2 * x), 0⟩)] := by
  have r0 : rotN 0 = 1 := by ext i j; fin_cases i <;> fin_cases j <;> simp [rotN]
  have r1 : rotU 0 = 1 := by ext i j; fin_cases i <;> fin_cases j <;> simp [rotU]
  have r2 : rotE 0 = 1 := by ext i j; fin_cases i <;> fin_cases j <;> simp [rotE]
  have r3 : transl 0 0 0 = 1 := by ext i j; fin_cases i <;> fin_cases j <;> simp [transl]
  have o : (turning.heliostat x).motorToOrientation (turning.motors x) = rotU x * rotE (Real.pi / 2) := by
    unfold Heliostat.motorToOrientation Heliostat.forward Heliostat.anglesToOrientation
    rw [offset_eq]
    simp [turning, r0, r1, r2, r3, Actuators.Ideal.actuator, Actuators.Ideal.toAngle]
  unfold Moving.rays
  rw [o]
  have sq := Real.sin_sq_add_cos_sq x
  simp [turning, raysOf, placed, direction, reflect, rotDist, rotU, rotE, Matrix.mulVec, dotProduct, Fin.sum_univ_four, Matrix.mul_apply, Real.sin_two_mul, Real.cos_two_mul]
  constructor <;> ring

theorem turning_varies (x₀ : ℝ) : turning.Varies fun f => DifferentiableAt ℝ f x₀ := by
  refine ⟨fun _ => differentiableAt_const _, fun _ => differentiableAt_const _, fun _ => differentiableAt_const _, ?_, ?_, fun _ => differentiableAt_const _, ?_⟩
  · exact differentiableAt_const _
  · exact differentiableAt_id
  · intro q hq i
    simp only [turning, List.mem_singleton] at hq
    subst hq
    exact ⟨differentiableAt_const _, differentiableAt_const _⟩

theorem turning_bits (x : ℝ) (hx : Real.cos (2 * x) ≠ 0) : V3.dot (⟨Real.sin (2 * x), -Real.cos (2 * x), 0⟩ : V3 ℝ) square.normal = -Real.cos (2 * x) ∧
    bitE 2 square (⟨0, 0, 0⟩, ⟨Real.sin (2 * x), -Real.cos (2 * x), 0⟩) = (Real.sin (2 * x) / Real.cos (2 * x) + 1) / 2 ∧
    bitU 2 square (⟨0, 0, 0⟩, ⟨Real.sin (2 * x), -Real.cos (2 * x), 0⟩) = 1 / 2 := by
  refine ⟨?_, ?_, ?_⟩
  · simp [V3.dot, square]
  · simp only [bitE, V3.dot, square, V3.sub_e, V3.sub_n, V3.sub_u]
    field_simp
    norm_num
    rw [mul_add, mul_div_cancel₀ _ hx, mul_one]
  · simp only [bitU, V3.dot, square, V3.sub_e, V3.sub_n, V3.sub_u]
    norm_num

theorem turning_brightness (x : ℝ) : turning.brightness [[(0, 0)]] 2 2 1 0 1 (.planar square) (fun _ _ => 0) 0 0 x =
    contrib 2 2 1 0 (hitOf 2 2 1 0 1 (.planar square) (fun _ => 0) (⟨0, 0, 0⟩, ⟨Real.sin (2 * x), -Real.cos (2 * x), 0⟩)) := by
  unfold Moving.brightness traceSample
  rw [turning_rays]
  obtain ⟨img, h1, -, -, h2⟩ := splat_spec 2 2 (by omega) (by omega)
    ([(⟨0, 0, 0⟩, ⟨Real.sin (2 * x), -Real.cos (2 * x), 0⟩)].map (hitOf 2 2 1 0 1 (.planar square) (fun _ => (0 : ℝ))))
  have := h2 1 0 (by omega) (by omega)
  simp only [h1]
  simpa using this

/-- C108: at the edge the image jumps.  While the second axis turns, the reflected ray leaves the target over its edge, and the pixels there drop to zero at once. -/
theorem C108_edge : (∀ x, turning.Varies fun f => DifferentiableAt ℝ f x) ∧ (∃ ray ∈ turning.rays [[(0, 0)]] (Real.pi / 8), HitsEdge square ray) ∧
    ¬ ContinuousAt (turning.brightness [[(0, 0)]] 2 2 1 0 1 (.planar square) (fun _ _ => 0) 0 0) (Real.pi / 8) := by
  have e8 : 2 * (Real.pi / 8) = Real.pi / 4 := by ring
  have sc : Real.sin (Real.pi / 4) = Real.cos (Real.pi / 4) := by rw [Real.sin_pi_div_four, Real.cos_pi_div_four]
  have cp : 0 < Real.cos (Real.pi / 4) := by rw [Real.cos_pi_div_four]; positivity
  refine ⟨turning_varies, ?_, ?_⟩
  · refine ⟨_, by rw [turning_rays]; exact List.mem_singleton.2 rfl, ?_⟩
    rw [e8, sc]
    refine ⟨by simp only [V3.dot, square]; linarith, 1 / Real.cos (Real.pi / 4), ?_, ?_, ?_, ?_⟩
    · simp only [V3.dot, square, V3.sub_e, V3.sub_n, V3.sub_u, V3.add_e, V3.add_n, V3.add_u, V3.smul_e, V3.smul_n, V3.smul_u]
      field_simp; ring
    · simp only [square, V3.add_e, V3.smul_e]
      rw [show (0 : ℝ) + 1 / Real.cos (Real.pi / 4) * Real.cos (Real.pi / 4) - 0 = 1 by field_simp; ring]
      norm_num
    · simp [square]
    · left
      simp only [square, V3.add_e, V3.smul_e]
      rw [show (0 : ℝ) + 1 / Real.cos (Real.pi / 4) * Real.cos (Real.pi / 4) - 0 = 1 by field_simp; ring]
      norm_num
  · intro hc
    have pos : 0 < turning.brightness [[(0, 0)]] 2 2 1 0 1 (.planar square) (fun _ _ => 0) 0 0 (Real.pi / 8) := by
      obtain ⟨b1, b2, b3⟩ := turning_bits (Real.pi / 8) (by rw [e8]; exact cp.ne')
      rw [e8, sc, div_self cp.ne'] at b2
      rw [turning_brightness, contrib_planar _ _ _ square (by norm_num) _ 1 0 (by norm_num)]
      rw [land_valid 2 2 1 0 1 square _ (by rw [b1, e8]; linarith) (by rw [e8, sc, b2]; norm_num) (by rw [e8, sc, b2]; norm_num) (by rw [b3]; norm_num) (by rw [b3]; norm_num)]
      rw [b3, show bitE 2 square (⟨0, 0, 0⟩, ⟨Real.sin (2 * (Real.pi / 8)), -Real.cos (2 * (Real.pi / 8)), 0⟩) = 1 by rw [e8, sc, b2]; norm_num, b1, e8, if_pos]
      · simp only [SoftMask.intensity, tent]
        norm_num
      · norm_num [Inside]
    have ev := hc.eventually (lt_mem_nhds pos)
    have ev' : ∀ᶠ x in 𝓝[>] (Real.pi / 8), 0 < turning.brightness [[(0, 0)]] 2 2 1 0 1 (.planar square) (fun _ _ => 0) 0 0 x := ev.filter_mono nhdsWithin_le_nhds
    have near : ∀ᶠ x in 𝓝[>] (Real.pi / 8), x < Real.pi / 4 := (eventually_lt_nhds (by linarith [Real.pi_pos])).filter_mono nhdsWithin_le_nhds
    obtain ⟨x, hx, hx4, hx8⟩ := (ev'.and (near.and self_mem_nhdsWithin)).exists
    have hx8 : Real.pi / 8 < x := hx8
    have c2 : 0 < Real.cos (2 * x) := Real.cos_pos_of_mem_Ioo ⟨by linarith [Real.pi_pos], by linarith⟩
    have c3 : Real.cos (2 * x) < Real.cos (Real.pi / 4) := Real.cos_lt_cos_of_nonneg_of_le_pi_div_two (by linarith [Real.pi_pos]) (by linarith) (by linarith)
    have s3 : Real.sin (Real.pi / 4) < Real.sin (2 * x) := Real.sin_lt_sin_of_lt_of_le_pi_div_two (by linarith [Real.pi_pos]) (by linarith) (by linarith)
    obtain ⟨b1, b2, b3⟩ := turning_bits x c2.ne'
    have big : 1 < Real.sin (2 * x) / Real.cos (2 * x) := by rw [lt_div_iff₀ c2]; linarith
    rw [turning_brightness, contrib_planar _ _ _ square (by norm_num) _ 1 0 (by norm_num), land_invalid 2 2 1 0 1 square _ (by
      rintro ⟨-, ⟨-, h⟩, -⟩
      rw [b2] at h
      push_cast at h
      linarith)] at hx
    simp at hx

/-- and at the middle of the target it is continuous and has a gradient -/
example : ContinuousAt (turning.brightness [[(0, 0)]] 2 2 1 0 1 (.planar square) (fun _ _ => 0) 0 0) 0 := by
  refine C108_continuous turning _ 2 2 1 0 1 square _ 0 (by norm_num [square]) (by norm_num [square]) (by norm_num) (by norm_num) ?_ (fun _ _ => continuousAt_const) ?_ 0 0 (by norm_num)
    (by norm_num)
  · obtain ⟨a1, a2, a3, a4, a5, a6, a7⟩ := turning_varies 0
    exact ⟨fun i => (a1 i).continuousAt, fun i => (a2 i).continuousAt, fun i => (a3 i).continuousAt, a4.continuousAt, a5.continuousAt, fun i => (a6 i).continuousAt,
      fun q hq i => ⟨(a7 q hq i).1.continuousAt, (a7 q hq i).2.continuousAt⟩⟩
  · intro ray hr
    rw [turning_rays] at hr
    simp only [mul_zero, Real.sin_zero, Real.cos_zero, List.mem_singleton] at hr
    subst hr
    rintro ⟨-, t, -, -, -, h⟩
    norm_num [square] at h

example (g : Nat → Nat → ℝ) : DifferentiableAt ℝ (fun x => score 2 2 g ((turning.rays [[(0, 0)]] x).map (hitOf 2 2 1 0 1 (.planar square) (fun _ => 0)))) 0 := by
  obtain ⟨slope, -, h⟩ := C108_gradient turning [[(0, 0)]] 2 2 1 0 1 square (fun _ _ => 0) 0 (by norm_num [square]) (by norm_num [square]) (by norm_num) (by norm_num) (turning_varies 0)
    (fun _ _ => differentiableAt_const _) (by
      intro ray hr
      rw [turning_rays] at hr
      simp only [mul_zero, Real.sin_zero, Real.cos_zero, List.mem_singleton] at hr
      subst hr
      refine ⟨?_, by simp [V3.dot, square]⟩
      rintro ⟨-, t, -, -, -, h⟩
      norm_num [square] at h) (by
      intro ray hr h hh _
      rw [turning_rays] at hr
      rw [List.mem_singleton] at hr
      obtain ⟨b1, b2, b3⟩ := turning_bits 0 (by simp)
      simp only [mul_zero, Real.sin_zero, Real.cos_zero] at hr b1 b2 b3
      subst hr
      rw [land_valid 2 2 1 0 1 square _ (by rw [b1]; norm_num) (by rw [b2]; norm_num) (by rw [b2]; norm_num) (by rw [b3]; norm_num) (by rw [b3]; norm_num), b2, b3] at hh
      subst hh
      have half : OffLine (1 / 2 : ℝ) := by
        intro n hn
        have : (1 : ℝ) = 2 * n := by linarith
        have : (1 : ℤ) = 2 * n := by exact_mod_cast this
        omega
      refine ⟨?_, half⟩
      show OffLine (((2 : ℕ) : ℝ) - 1 - _)
      norm_num
      norm_num at half
      exact half) g
  exact h.differentiableAt

end Artist.MotorImage
