import Verif.Proofs.SurfaceImage
import Verif.Props.MotorImage
/-! C109: the image follows the control points of the mirrors. -/
namespace Artist.SurfaceImage
open Artist Nurbs Surfaces BSpline Transforms MotorImage Intersect Flux Splat Kinematics Filter Topology

section
variable {K : Type} [Field K] [LinearOrder K] [IsStrictOrderedRing K] [FloorSemiring K] {p q : Nat} {x y : K}

/-- C109: a surface point depends linearly on the control points: if the control points are moved by `t` times `d`, it moves by `t` times the weighted mean of `d`
with the basis functions as weights. -/
theorem C109_affine (nu nv : Nat) (a d : Nat → Nat → Fin 3 → K) (h : Valid ⟨nu, nv, a⟩ p q x y) (t : K) :
    ∃ pt pt' cr cr', evaluate ⟨nu, nv, a⟩ p q x y = .ok (pt, cr) ∧ evaluate ⟨nu, nv, fun i j c => a i j c + t * d i j c⟩ p q x y = .ok (pt', cr') ∧
      ∀ c : Fin 3, pt' c.castSucc = pt c.castSucc + t * surface (clampedUniform nu p) (clampedUniform nv q) p q nu nv (fun i j => d i j c) x y := by
  have h' : Valid ⟨nu, nv, fun i j c => a i j c + t * d i j c⟩ p q x y := ⟨h.p_pos, h.q_pos, h.nu, h.nv, h.x0, h.x1, h.y0, h.y1⟩
  obtain ⟨pt, cr, e1, -, s1⟩ := C23_surface h
  obtain ⟨pt', cr', e2, -, s2⟩ := C23_surface h'
  refine ⟨pt, pt', cr, cr', e1, e2, fun c => ?_⟩
  rw [s1, s2]
  unfold surface
  rw [Finset.mul_sum, ← Finset.sum_add_distrib]
  refine Finset.sum_congr rfl fun i _ => ?_
  rw [Finset.mul_sum, ← Finset.sum_add_distrib]
  exact Finset.sum_congr rfl fun j _ => by ring

/-- C109: moving every control point by at most `δ` in a coordinate moves no surface point by more than `δ`. -/
theorem C109_displacement (nu nv : Nat) (a b : Nat → Nat → Fin 3 → K) (h : Valid ⟨nu, nv, a⟩ p q x y) (c : Fin 3) (δ : K)
    (hd : ∀ i < nu, ∀ j < nv, |b i j c - a i j c| ≤ δ) :
    ∃ pt pt' cr cr', evaluate ⟨nu, nv, a⟩ p q x y = .ok (pt, cr) ∧ evaluate ⟨nu, nv, b⟩ p q x y = .ok (pt', cr') ∧ |pt' c.castSucc - pt c.castSucc| ≤ δ := by
  have h' : Valid ⟨nu, nv, b⟩ p q x y := ⟨h.p_pos, h.q_pos, h.nu, h.nv, h.x0, h.x1, h.y0, h.y1⟩
  obtain ⟨pt, cr, e1, -, s1⟩ := C23_surface h
  obtain ⟨pt', cr', e2, -, s2⟩ := C23_surface h'
  refine ⟨pt, pt', cr, cr', e1, e2, ?_⟩
  rw [s1, s2]
  unfold surface
  obtain ⟨n1, sum1, -⟩ := N_nonneg_sum h.p_pos h.nu h.x0 h.x1
  obtain ⟨n2, sum2, -⟩ := N_nonneg_sum h.q_pos h.nv h.y0 h.y1
  rw [← Finset.sum_sub_distrib]
  have : ∀ i ∈ Finset.range nu, |(∑ j ∈ Finset.range nv, N (clampedUniform nu p) p i x * N (clampedUniform nv q) q j y * b i j c) -
      ∑ j ∈ Finset.range nv, N (clampedUniform nu p) p i x * N (clampedUniform nv q) q j y * a i j c| ≤ N (clampedUniform nu p) p i x * δ := by
    intro i hi
    rw [← Finset.sum_sub_distrib]
    refine (Finset.abs_sum_le_sum_abs _ _).trans ?_
    have : ∀ j ∈ Finset.range nv, |N (clampedUniform nu p) p i x * N (clampedUniform nv q) q j y * b i j c - N (clampedUniform nu p) p i x * N (clampedUniform nv q) q j y * a i j c| ≤
        N (clampedUniform nu p) p i x * δ * N (clampedUniform nv q) q j y := by
      intro j hj
      have n0 := mul_nonneg (n1 i (Finset.mem_range.1 hi)) (n2 j (Finset.mem_range.1 hj))
      rw [← mul_sub, abs_mul, abs_of_nonneg n0]
      have := hd i (Finset.mem_range.1 hi) j (Finset.mem_range.1 hj)
      have := mul_le_mul_of_nonneg_left this n0
      linarith
    refine (Finset.sum_le_sum this).trans ?_
    rw [← Finset.mul_sum, sum2, mul_one]
  refine (Finset.abs_sum_le_sum_abs _ _).trans ((Finset.sum_le_sum this).trans ?_)
  rw [← Finset.sum_mul, sum1, one_mul]
end

variable {X : Type}

/-- C109: let the control points of all facets of a mirror change continuously, and the rest of the scene, too.  As computed in a surface reconstruction (canting
and translations applied), the mirror can be evaluated always, and the brightness of every pixel is continuous unless a ray meets the edge of the target. -/
theorem C109_image [TopologicalSpace X] (p q : Nat) (grid : List (ℝ × ℝ)) (facets : List (X → Facet)) (x₀ : X) (hf : ∀ f ∈ facets, Bends (fun g => ContinuousAt g x₀) f)
    (hv : ∀ f ∈ facets, ∀ xy ∈ grid, Valid (f x₀).net p q xy.1 xy.2) :
    ∃ mirror : List ((X → Fin 4 → ℝ) × (X → Fin 4 → ℝ)),
      (∀ x, sampleAll p q true grid (facets.map fun f => f x) = .ok (mirror.map fun s => (s.1 x, s.2 x))) ∧
      ∀ (s : Moving X) (distortions : List (List (ℝ × ℝ))) (W H : Nat) (magnitude extinction reflectivity : ℝ) (t : Plane ℝ),
        s.mirror = mirror → 0 < t.width → 0 < t.height → 1 < W → 1 < H → ({ s with mirror := [] }).Varies (fun f => ContinuousAt f x₀) →
        (∀ ray ∈ s.rays distortions x₀, ¬ HitsEdge t ray) → ∀ r c, r < H → c < W →
        ContinuousAt (s.brightness distortions W H magnitude extinction reflectivity (.planar t) (fun _ _ => 0) r c) x₀ := by
  obtain ⟨h1, h2⟩ := mirror_closed (closed_continuous x₀) p q grid facets x₀ hf hv fun f _ xy _ cr _ hc i => unitNormal_continuous x₀ cr hc i
  refine ⟨mirrorOf p q grid facets, h1, ?_⟩
  intro s distortions W H magnitude extinction reflectivity t hm hw hh hW hH hs he r c hr hc
  refine C108_continuous s distortions W H magnitude extinction reflectivity t _ x₀ hw hh hW hH ?_ (fun _ _ => continuousAt_const) he r c hr hc
  exact ⟨hs.position, hs.translation, hs.rotation, hs.angle1, hs.angle2, hs.incident, by rw [hm]; exact h2⟩

/-- C109: and if everything is differentiable, no tangents of the mirror are (nearly) parallel, no ray is parallel to the target, and none meets the edge of the target or a pixel line,
then every loss of the image has a derivative. -/
theorem C109_gradient (p q : Nat) (grid : List (ℝ × ℝ)) (facets : List (ℝ → Facet)) (x₀ : ℝ) (hf : ∀ f ∈ facets, Bends (fun g => DifferentiableAt ℝ g x₀) f)
    (hv : ∀ f ∈ facets, ∀ xy ∈ grid, Valid (f x₀).net p q xy.1 xy.2)
    (hn : ∀ f ∈ facets, ∀ xy ∈ grid, ∀ pt cr, evaluate (f x₀).net p q xy.1 xy.2 = .ok (pt, cr) → 1 / 10 ^ 12 < Real.sqrt (cr 0 ^ 2 + cr 1 ^ 2 + cr 2 ^ 2)) :
    ∃ mirror : List ((ℝ → Fin 4 → ℝ) × (ℝ → Fin 4 → ℝ)),
      (∀ x, sampleAll p q true grid (facets.map fun f => f x) = .ok (mirror.map fun s => (s.1 x, s.2 x))) ∧
      ∀ (s : Moving ℝ) (distortions : List (List (ℝ × ℝ))) (W H : Nat) (magnitude extinction reflectivity : ℝ) (t : Plane ℝ),
        s.mirror = mirror → 0 < t.width → 0 < t.height → 1 < W → 1 < H → ({ s with mirror := [] }).Varies (fun f => DifferentiableAt ℝ f x₀) →
        (∀ ray ∈ s.rays distortions x₀, ¬ HitsEdge t ray ∧ V3.dot ray.2 t.normal ≠ 0) →
        (∀ ray ∈ s.rays distortions x₀, ∀ h : Hit ℝ, h = hitOf W H magnitude extinction reflectivity (.planar t) (fun _ => 0) ray → Inside W H h → OffLine h.e ∧ OffLine h.u) →
        ∀ g : Nat → Nat → ℝ,
        DifferentiableAt ℝ (fun x => score W H g ((s.rays distortions x).map (hitOf W H magnitude extinction reflectivity (.planar t) (fun _ => 0)))) x₀ := by
  obtain ⟨h1, h2⟩ := mirror_closed (closed_differentiable x₀) p q grid facets x₀ hf hv fun f hf' xy hxy cr he hc i =>
    unitNormal_differentiable x₀ cr hc (by obtain ⟨pt, e⟩ := he x₀; exact hn f hf' xy hxy pt _ e) i
  refine ⟨mirrorOf p q grid facets, h1, ?_⟩
  intro s distortions W H magnitude extinction reflectivity t hm hw hh hW hH hs he hl g
  obtain ⟨slope, -, hd⟩ := C108_gradient s distortions W H magnitude extinction reflectivity t (fun _ _ => 0) x₀ hw hh hW hH
    ⟨hs.position, hs.translation, hs.rotation, hs.angle1, hs.angle2, hs.incident, by rw [hm]; exact h2⟩ (fun _ _ => differentiableAt_const _) he hl g
  exact hd.differentiableAt

/-- C109: the loading of a scenario is different.  Let the facets of a heliostat be flat and lie along the axes.  If one control point of one facet is lifted by any
amount other than zero, then on loading **all** points of **all** facets move to the centre by the translation of their facet. -/
theorem C109_jump (p q ne nn : Nat) (facets : List Facet) (hp : 1 ≤ p) (hq : 1 ≤ q) (big : ∀ f ∈ facets, p < f.net.nu ∧ q < f.net.nv) (flat : Flat facets)
    (axes : ∀ f ∈ facets, ∃ w h, 1 / 10 ^ 8 ≤ w ∧ 1 / 10 ^ 8 ≤ h ∧ f.cantE = ![w, 0, 0, 0] ∧ f.cantN = ![0, h, 0, 0])
    (k i₀ j₀ : Nat) (g : Facet) (hk : facets[k]? = some g) (hi : i₀ < g.net.nu) (hj : j₀ < g.net.nv) (ε : ℝ) (hε : ε ≠ 0) :
    ∃ before after, surfaceSamples p q ne nn facets = .ok before ∧ surfaceSamples p q ne nn (facets.modify k (lift i₀ j₀ ε)) = .ok after ∧
      ∀ m j f, facets[m]? = some f → j < ne * nn → ∃ u v, before[m * (ne * nn) + j]? = some u ∧ after[m * (ne * nn) + j]? = some v ∧
        u.1 0 = v.1 0 + f.translation 0 ∧ u.1 1 = v.1 1 + f.translation 1 := by
  classical
  have hg : (evaluationGrid ne nn gridEps).length = ne * nn := grid_length ..
  have get : ∀ m, (facets.modify k (lift i₀ j₀ ε))[m]? = (facets[m]?).map fun f => if k = m then lift i₀ j₀ ε f else f := by
    intro m
    rw [List.getElem?_modify]
    cases facets[m]? <;> simp <;> split_ifs <;> rfl
  have big' : ∀ f ∈ facets.modify k (lift i₀ j₀ ε), p < f.net.nu ∧ q < f.net.nv := by
    intro f hf
    obtain ⟨m, hm⟩ := List.mem_iff_getElem?.1 hf
    rw [get] at hm
    obtain ⟨f', hf', rfl⟩ := Option.map_eq_some_iff.1 hm
    have := big f' (List.mem_of_getElem? hf')
    split_ifs
    · exact this
    · exact this
  have curved : ¬ Flat (facets.modify k (lift i₀ j₀ ε)) := by
    intro h
    have hm : (facets.modify k (lift i₀ j₀ ε))[k]? = some (lift i₀ j₀ ε g) := by rw [get, hk]; simp
    have := h _ (List.mem_of_getElem? hm) i₀ j₀ hi hj
    have z := flat g (List.mem_of_getElem? hk) i₀ j₀ hi hj
    simp [lift, z] at this
    exact hε this
  obtain ⟨r, hr⟩ := sampleAll_exists (p := p) (q := q) (m := ne) (m' := nn) (placed := true) (facets := facets) hp hq big
  obtain ⟨r', hr'⟩ := sampleAll_exists (p := p) (q := q) (m := ne) (m' := nn) (placed := false) (facets := facets.modify k (lift i₀ j₀ ε)) hp hq big'
  refine ⟨r, r', ?_, ?_, ?_⟩
  · rw [surfaceSamples, decide_eq_true_iff.2 flat, hr]
  · rw [surfaceSamples, decide_eq_false_iff_not.2 curved, hr']
  intro m j f hm hj'
  obtain ⟨xy, hxy⟩ : ∃ xy, (evaluationGrid ne nn gridEps)[j]? = some xy := ⟨_, List.getElem?_eq_getElem (by omega)⟩
  have hpt := points_get (evaluationGrid ne nn gridEps) _ m j _ hm (by omega)
  have hm' : (facets.modify k (lift i₀ j₀ ε))[m]? = some (if k = m then lift i₀ j₀ ε f else f) := by rw [get, hm]; rfl
  have hpt' := points_get (evaluationGrid ne nn gridEps) _ m j _ hm' (by omega)
  rw [hg, hxy] at hpt hpt'
  obtain ⟨u, hu, hsu⟩ := mapM_get _ _ hr _ _ hpt
  obtain ⟨v, hv, hsv⟩ := mapM_get _ _ hr' _ _ hpt'
  refine ⟨u, v, hu, hv, ?_⟩
  have hf := List.mem_of_getElem? hm
  have hxy' := List.mem_of_getElem? hxy
  obtain ⟨pt, cr, e1, -, s1⟩ := C23_surface (grid_valid (net := f.net) hp hq (big f hf).1 (big f hf).2 hxy')
  have hf' := List.mem_of_getElem? hm'
  obtain ⟨pt', cr', e2, -, s2⟩ := C23_surface (grid_valid (net := (if k = m then lift i₀ j₀ ε f else f).net) hp hq (big' _ hf').1 (big' _ hf').2 hxy')
  have same : ∀ c : Fin 3, c ≠ 2 → pt' c.castSucc = pt c.castSucc := by
    intro c hc
    rw [s1, s2]
    by_cases hkm : k = m
    · simp only [hkm, if_true, lift, hc, and_false, if_false, add_zero]
    · simp only [hkm, if_false]
  simp only [sampleAt, e1, if_true, Except.ok.injEq] at hsu
  simp only [sampleAt, e2, Bool.false_eq_true, if_false, Except.ok.injEq] at hsv
  obtain ⟨w, h, hw, hh, ew, eh⟩ := axes f hf
  subst hsu hsv
  have a0 := same 0 (by decide)
  have a1 := same 1 (by decide)
  simp only [place, ew, eh, canting_axes hw hh, Pi.add_apply]
  exact ⟨by rw [show pt' 0 = pt 0 from a0], by rw [show pt' 1 = pt 1 from a1]⟩

/-! ### Concrete cases -/

/-- Moving one of 5 × 6 control points by a millimetre moves no point of the surface by more than a millimetre. -/
example (a b : Nat → Nat → Fin 3 → ℚ) (h : ∀ i j, |b i j 2 - a i j 2| ≤ if i = 2 ∧ j = 3 then 1 / 1000 else 0) :
    ∃ pt pt' cr cr', evaluate ⟨5, 6, a⟩ 3 3 (1 / 3) (1 / 7) = .ok (pt, cr) ∧ evaluate ⟨5, 6, b⟩ 3 3 (1 / 3) (1 / 7) = .ok (pt', cr') ∧ |pt' 2 - pt 2| ≤ 1 / 1000 := by
  refine C109_displacement 5 6 a b ⟨by norm_num, by norm_num, by norm_num, by norm_num, by norm_num, by norm_num, by norm_num, by norm_num⟩ 2 (1 / 1000) ?_
  intro i _ j _
  refine (h i j).trans ?_
  split_ifs <;> norm_num

/-- a facet of one by one metre, one control point of which is lifted by `x` -/
noncomputable def bending (x : ℝ) : Facet := lift 1 2 x (idealFacet 4 4 0 ![1 / 2, 0, 0, 0] ![0, 1 / 2, 0, 0])

theorem bending_zero : bending 0 = idealFacet 4 4 0 ![1 / 2, 0, 0, 0] ![0, 1 / 2, 0, 0] := by
  simp [bending, lift]

theorem bending_bends (x₀ : ℝ) : Bends (fun g => DifferentiableAt ℝ g x₀) bending := by
  refine ⟨fun _ _ => rfl, fun _ _ => rfl, fun _ _ => rfl, fun _ _ => rfl, fun _ _ => rfl, ?_⟩
  intro i j c
  show DifferentiableAt ℝ (fun x => _ + if i = 1 ∧ j = 2 ∧ c = 2 then x else 0) x₀
  split_ifs
  · exact (differentiableAt_const _).add differentiableAt_id
  · exact (differentiableAt_const _).add (differentiableAt_const _)

theorem bending_evaluate {xy : ℝ × ℝ} (h : Valid (bending 0).net 3 3 xy.1 xy.2) :
    ∃ pt cr, evaluate (bending 0).net 3 3 xy.1 xy.2 = .ok (pt, cr) ∧ |pt 0| ≤ 1 / 2 ∧ |pt 1| ≤ 1 / 2 ∧ pt 2 = 0 ∧ pt 3 = 1 ∧ unitNormal cr = ![0, 0, 1, 0] ∧
      1 / 10 ^ 12 < Real.sqrt (cr 0 ^ 2 + cr 1 ^ 2 + cr 2 ^ 2) := by
  have n1 : norm4 ![1 / 2, 0, 0, 0] = 1 / 2 := by
    simp only [norm4, Matrix.cons_val]
    rw [show (1 / 2 : ℝ) ^ 2 + 0 ^ 2 + 0 ^ 2 + 0 ^ 2 = (1 / 2) ^ 2 by norm_num, Real.sqrt_sq (by norm_num)]
  have n2 : norm4 ![0, 1 / 2, 0, 0] = 1 / 2 := by
    simp only [norm4, Matrix.cons_val]
    rw [show (0 : ℝ) ^ 2 + (1 / 2) ^ 2 + 0 ^ 2 + 0 ^ 2 = (1 / 2) ^ 2 by norm_num, Real.sqrt_sq (by norm_num)]
  have e : (bending 0).net = planarNet 4 4 (1 / 2) (1 / 2) := by rw [bending_zero]; unfold idealFacet; rw [n1, n2]
  rw [e] at h ⊢
  obtain ⟨pt, cr, h1, h2, h3, h4, h5, h6⟩ := C23_planar 4 4 (1 / 2) (1 / 2) (by norm_num) (by norm_num) h (by norm_num)
  obtain ⟨pt', cr', z, k1, -, -, -, -, hc, hz⟩ := planar_cross 4 4 (1 / 2) (1 / 2) (by norm_num) (by norm_num) h
  rw [h1] at k1
  obtain ⟨rfl, rfl⟩ := Prod.mk.inj (Except.ok.inj k1)
  refine ⟨pt, cr, h1, h2, h3, h4, h5, h6, ?_⟩
  norm_num at hz
  rw [hc]
  simp only [Matrix.cons_val]
  rw [show (0 : ℝ) ^ 2 + 0 ^ 2 + z ^ 2 = z ^ 2 by ring, Real.sqrt_sq (by linarith)]
  norm_num
  linarith

theorem bending_scene (mirror : List ((ℝ → Fin 4 → ℝ) × (ℝ → Fin 4 → ℝ))) (m : Nat)
    (h : sampleAll 3 3 true (evaluationGrid m m gridEps) ([bending].map fun f => f 0) = .ok (mirror.map fun s => (s.1 0, s.2 0)))
    (ray : V3 ℝ × V3 ℝ) (hr : ray ∈ ({ turning with mirror := mirror }).rays [List.replicate (m * m) (0, 0)] 0) :
    ∃ a b : ℝ, |a| ≤ 1 / 2 ∧ |b| ≤ 1 / 2 ∧ ray = (⟨a, 0, b⟩, ⟨0, -1, 0⟩) := by
  have r0 : rotN 0 = 1 := by ext i j; fin_cases i <;> fin_cases j <;> simp [rotN]
  have r1 : rotU 0 = 1 := by ext i j; fin_cases i <;> fin_cases j <;> simp [rotU]
  have r2 : rotE 0 = 1 := by ext i j; fin_cases i <;> fin_cases j <;> simp [rotE]
  have r3 : transl 0 0 0 = 1 := by ext i j; fin_cases i <;> fin_cases j <;> simp [transl]
  have o : (turning.heliostat 0).motorToOrientation (turning.motors 0) = rotE (Real.pi / 2) := by
    unfold Heliostat.motorToOrientation Heliostat.forward Heliostat.anglesToOrientation
    rw [offset_eq]
    simp [turning, r0, r1, r2, r3, Actuators.Ideal.actuator, Actuators.Ideal.toAngle]
  unfold Moving.rays raysOf at hr
  simp only [List.flatMap_cons, List.flatMap_nil, List.append_nil] at hr
  rw [o] at hr
  obtain ⟨k, hk⟩ := List.mem_iff_getElem?.1 hr
  rw [List.getElem?_zipWith] at hk
  unfold Moved.placed at hk
  rw [List.map_map, List.getElem?_map, List.getElem?_replicate] at hk
  cases hq : mirror[k]? with
  | none => rw [hq] at hk; simp at hk
  | some s =>
    rw [hq] at hk
    split_ifs at hk with hlt
    · obtain ⟨xy, hxy⟩ : ∃ xy, (evaluationGrid m m gridEps)[k]? = some xy :=
        ⟨_, List.getElem?_eq_getElem (by rw [grid_length]; exact hlt)⟩
      have hpt := points_get (evaluationGrid m m gridEps) [bending 0] 0 k _ rfl (by rw [grid_length]; exact hlt)
      rw [zero_mul, zero_add, hxy] at hpt
      obtain ⟨u, hu, hsu⟩ := mapM_get _ _ h _ _ hpt
      rw [List.getElem?_map, hq] at hu
      obtain ⟨pt, cr, e1, e2, e3, e4, e5, e6, -⟩ := bending_evaluate (grid_valid (net := (bending 0).net) (p := 3) (q := 3) (by norm_num) (by norm_num)
        (by norm_num [bending, lift, idealFacet, planarNet]) (by norm_num [bending, lift, idealFacet, planarNet]) (List.mem_of_getElem? hxy))
      simp only [sampleAt, e1, if_true, Except.ok.injEq] at hsu
      simp only [Option.map_some, Option.some.injEq] at hu
      rw [bending_zero] at hsu
      simp only [place, idealFacet, canting_axes (show (1 : ℝ) / 10 ^ 8 ≤ 1 / 2 by norm_num) (show (1 : ℝ) / 10 ^ 8 ≤ 1 / 2 by norm_num), add_zero, e6] at hsu
      subst hsu
      obtain ⟨f1, f2⟩ := Prod.mk.inj hu
      refine ⟨pt 0, pt 1, e2, e3, ?_⟩
      simp only [Option.map_some, Function.comp_apply, f1, f2, Option.some.injEq] at hk
      rw [← hk]
      simp [turning, direction, reflect, rotDist, rotE, Matrix.mulVec, dotProduct, Fin.sum_univ_four, e4]
      norm_num
    · simp at hk

theorem bending_valid (m : Nat) : ∀ f ∈ [bending], ∀ xy ∈ evaluationGrid m m gridEps, Valid (f 0).net 3 3 xy.1 xy.2 := by
  intro f hf xy hxy
  simp only [List.mem_singleton] at hf
  subst hf
  exact grid_valid (by norm_num) (by norm_num) (by norm_num [bending, lift, idealFacet, planarNet]) (by norm_num [bending, lift, idealFacet, planarNet]) hxy

theorem bending_edge {ray : V3 ℝ × V3 ℝ} (h : ∃ a b : ℝ, |a| ≤ 1 / 2 ∧ |b| ≤ 1 / 2 ∧ ray = (⟨a, 0, b⟩, ⟨0, -1, 0⟩)) :
    ¬ HitsEdge square ray ∧ V3.dot ray.2 square.normal = -1 ∧ 0 < bitE 2 square ray ∧ bitE 2 square ray < 1 ∧ 0 < bitU 2 square ray ∧ bitU 2 square ray < 1 := by
  obtain ⟨a, b, ha, hb, rfl⟩ := h
  refine ⟨?_, by simp [V3.dot, square], ?_⟩
  · rintro ⟨-, t, -, -, -, h | h⟩
    · norm_num [square] at h; linarith
    · norm_num [square] at h; linarith
  · obtain ⟨a1, a2⟩ := abs_le.1 ha
    obtain ⟨b1, b2⟩ := abs_le.1 hb
    norm_num [bitE, bitU, square, V3.dot]
    refine ⟨?_, ?_, ?_, ?_⟩ <;> linarith

/-- The facet sampled at `m` × `m` points, before a target of two by two metres: lifting a control point changes the image continuously ... -/
example (m : Nat) : ∃ mirror : List ((ℝ → Fin 4 → ℝ) × (ℝ → Fin 4 → ℝ)),
    (∀ x, sampleAll 3 3 true (evaluationGrid m m gridEps) [bending x] = .ok (mirror.map fun s => (s.1 x, s.2 x))) ∧
    ∀ r c, r < 2 → c < 2 →
      ContinuousAt (({ turning with motors := fun _ => (0, 0), mirror := mirror }).brightness [List.replicate (m * m) (0, 0)] 2 2 1 0 1 (.planar square) (fun _ _ => 0) r c) 0 := by
  obtain ⟨mirror, h1, h2⟩ := C109_image 3 3 (evaluationGrid m m gridEps) [bending] 0 (by
    intro f hf
    simp only [List.mem_singleton] at hf
    subst hf
    obtain ⟨a, b, c, d, e, g⟩ := bending_bends 0
    exact ⟨a, b, c, d, e, fun i j c => (g i j c).continuousAt⟩) (bending_valid m)
  refine ⟨mirror, h1, fun r c hr hc => ?_⟩
  refine h2 { turning with motors := fun _ => (0, 0), mirror := mirror } _ 2 2 1 0 1 square rfl (by norm_num [square]) (by norm_num [square]) (by norm_num) (by norm_num) ?_ ?_ r c hr hc
  · exact ⟨fun _ => continuousAt_const, fun _ => continuousAt_const, fun _ => continuousAt_const, continuousAt_const, continuousAt_const, fun _ => continuousAt_const,
      fun q hq => absurd hq List.not_mem_nil⟩
  · exact fun ray hr => (bending_edge (bending_scene mirror m (h1 0) ray hr)).1

/-- ... and every loss of it has a derivative. -/
example (m : Nat) : ∃ mirror : List ((ℝ → Fin 4 → ℝ) × (ℝ → Fin 4 → ℝ)),
    (∀ x, sampleAll 3 3 true (evaluationGrid m m gridEps) [bending x] = .ok (mirror.map fun s => (s.1 x, s.2 x))) ∧
    ∀ g : Nat → Nat → ℝ, DifferentiableAt ℝ (fun x => score 2 2 g ((({ turning with motors := fun _ => (0, 0), mirror := mirror }).rays [List.replicate (m * m) (0, 0)] x).map
      (hitOf 2 2 1 0 1 (.planar square) (fun _ => 0)))) 0 := by
  obtain ⟨mirror, h1, h2⟩ := C109_gradient 3 3 (evaluationGrid m m gridEps) [bending] 0 (by
    intro f hf
    simp only [List.mem_singleton] at hf
    subst hf
    exact bending_bends 0) (bending_valid m) (by
    intro f hf xy hxy pt cr he
    have hv := bending_valid m f hf xy hxy
    simp only [List.mem_singleton] at hf
    subst hf
    obtain ⟨pt', cr', e, -, -, -, -, -, h⟩ := bending_evaluate hv
    rw [he] at e
    obtain ⟨rfl, rfl⟩ := Prod.mk.inj (Except.ok.inj e)
    exact h)
  refine ⟨mirror, h1, fun g => ?_⟩
  have off : ∀ y : ℝ, 0 < y → y < 1 → OffLine y := by
    intro y h0 h1 n hn
    rw [hn] at h0 h1
    have a : (0 : ℤ) < n := by exact_mod_cast h0
    have b : n < (1 : ℤ) := by exact_mod_cast h1
    omega
  refine h2 { turning with motors := fun _ => (0, 0), mirror := mirror } _ 2 2 1 0 1 square rfl (by norm_num [square]) (by norm_num [square]) (by norm_num) (by norm_num) ?_ ?_ ?_ g
  · exact ⟨fun _ => differentiableAt_const _, fun _ => differentiableAt_const _, fun _ => differentiableAt_const _, differentiableAt_const _, differentiableAt_const _,
      fun _ => differentiableAt_const _, fun q hq => absurd hq List.not_mem_nil⟩
  · intro ray hr
    obtain ⟨b1, b2, -⟩ := bending_edge (bending_scene mirror m (h1 0) ray hr)
    exact ⟨b1, by rw [b2]; norm_num⟩
  · intro ray hr h hh _
    obtain ⟨-, b2, b3, b4, b5, b6⟩ := bending_edge (bending_scene mirror m (h1 0) ray hr)
    rw [land_valid 2 2 1 0 1 square _ (by rw [b2]; norm_num) b3.le (by norm_num; exact b4.le) b5.le (by norm_num; exact b6.le)] at hh
    subst hh
    refine ⟨off _ ?_ ?_, off _ b5 b6⟩
    · show (0 : ℝ) < ((2 : ℕ) : ℝ) - 1 - _
      norm_num; exact b4
    · show ((2 : ℕ) : ℝ) - 1 - _ < 1
      norm_num; linarith

/-- Two flat facets side by side: lifting a control point of the first by a nanometre moves all points of the second one metre to the west. -/
example : ∃ before after, surfaceSamples 3 3 50 50 pair = .ok before ∧ surfaceSamples 3 3 50 50 (pair.modify 0 (lift 1 1 (1 / 10 ^ 9))) = .ok after ∧
    ∀ j < 2500, ∃ u v, before[2500 + j]? = some u ∧ after[2500 + j]? = some v ∧ v.1 0 = u.1 0 - 1 := by
  obtain ⟨a, b, h1, h2, h3⟩ := C109_jump 3 3 50 50 pair (by norm_num) (by norm_num) pair_big pair_flat (by
    intro f hf
    simp only [pair, List.mem_cons, List.not_mem_nil, or_false] at hf
    rcases hf with rfl | rfl
    · exact ⟨1, 2, by norm_num, by norm_num, rfl, rfl⟩
    · exact ⟨1, 2, by norm_num, by norm_num, rfl, rfl⟩) 0 1 1 _ rfl (by norm_num [idealFacet, planarNet]) (by norm_num [idealFacet, planarNet]) (1 / 10 ^ 9) (by norm_num)
  refine ⟨a, b, h1, h2, fun j hj => ?_⟩
  obtain ⟨u, v, e1, e2, e3, -⟩ := h3 1 j _ rfl (by omega)
  norm_num at e1 e2
  refine ⟨u, v, e1, e2, ?_⟩
  rw [e3]
  simp [idealFacet]

end Artist.SurfaceImage
