import Verif.Spec.CylinderImage
import Verif.Proofs.MotorImage
import Mathlib.Analysis.SpecialFunctions.Complex.LogDeriv
import Mathlib.Analysis.SpecialFunctions.Sqrt
/-! Helper lemmas for C112. -/
namespace Artist.CylinderImage
open Artist Intersect Flux Splat Kinematics Moved Transforms Filter Topology MotorImage

variable {X : Type} [TopologicalSpace X]

/-- properties of functions that are kept by the operations of the intersection with a cylinder -/
structure Rich (P : (X → ℝ) → Prop) (x₀ : X) : Prop extends Closed P where
  div : ∀ f g, P f → P g → g x₀ ≠ 0 → P fun x => f x / g x
  sqrt : ∀ f, P f → 0 < f x₀ → P fun x => √(f x)
  arg : ∀ f g, P f → P g → (0 < f x₀ ∨ g x₀ ≠ 0) → P fun x => Complex.arg ⟨f x, g x⟩
  congr : ∀ f g, f =ᶠ[𝓝 x₀] g → P f → P g
  continuous : ∀ f, P f → ContinuousAt f x₀

theorem rich_continuous (x₀ : X) : Rich (fun f : X → ℝ => ContinuousAt f x₀) x₀ where
  toClosed := closed_continuous x₀
  div _ _ h1 h2 h0 := h1.div h2 h0
  sqrt _ h _ := Real.continuous_sqrt.continuousAt.comp h
  arg f g hf hg h0 := by
    have e : (fun x => (⟨f x, g x⟩ : ℂ)) = fun x => (f x : ℂ) + (g x : ℂ) * Complex.I := by funext x; exact Complex.mk_eq_add_mul_I _ _
    have c : ContinuousAt (fun x => (⟨f x, g x⟩ : ℂ)) x₀ := by
      rw [e]
      exact (Complex.continuous_ofReal.continuousAt.comp hf).add ((Complex.continuous_ofReal.continuousAt.comp hg).mul continuousAt_const)
    exact (Complex.continuousAt_arg (x := ⟨f x₀, g x₀⟩) (Complex.mem_slitPlane_iff.2 h0)).comp_of_eq c rfl
  congr _ _ e h := ContinuousAt.congr h e
  continuous _ h := h

theorem rich_differentiable (x₀ : ℝ) : Rich (fun f : ℝ → ℝ => DifferentiableAt ℝ f x₀) x₀ where
  toClosed := closed_differentiable x₀
  div _ _ h1 h2 h0 := h1.fun_div h2 h0
  sqrt _ h h0 := h.sqrt h0.ne'
  arg f g hf hg h0 := by
    have e : (fun x => (⟨f x, g x⟩ : ℂ)) = fun x => (f x : ℂ) + (g x : ℂ) * Complex.I := by funext x; exact Complex.mk_eq_add_mul_I _ _
    have c : DifferentiableAt ℝ (fun x => (⟨f x, g x⟩ : ℂ)) x₀ := by
      rw [e]
      exact (Complex.ofRealCLM.differentiableAt.comp x₀ hf).add ((Complex.ofRealCLM.differentiableAt.comp x₀ hg).mul_const _)
    have l := (c.hasDerivAt.clog_real (Complex.mem_slitPlane_iff.2 h0)).differentiableAt
    have := Complex.imCLM.differentiableAt.comp x₀ l
    refine this.congr_of_eventuallyEq (Eventually.of_forall fun x => ?_)
    simp [Function.comp, Complex.log_im]
  congr _ _ e h := h.congr_of_eventuallyEq e.symm
  continuous _ h := h.continuousAt

section
variable {P : (X → ℝ) → Prop} {x₀ : X} (R : Rich P x₀)
include R

theorem Rich.dot (v : X → V3 ℝ) (w : V3 ℝ) (h : (P fun x => (v x).e) ∧ (P fun x => (v x).n) ∧ P fun x => (v x).u) : P fun x => V3.dot (v x) w :=
  R.add _ _ (R.add _ _ (R.mul _ _ h.1 (R.const _)) (R.mul _ _ h.2.1 (R.const _))) (R.mul _ _ h.2.2 (R.const _))

theorem Rich.toLocal (cyl : Cylinder) (v : X → V3 ℝ) (h : (P fun x => (v x).e) ∧ (P fun x => (v x).n) ∧ P fun x => (v x).u) :
    (P fun x => (cyl.toLocal (v x)).e) ∧ (P fun x => (cyl.toLocal (v x)).n) ∧ P fun x => (cyl.toLocal (v x)).u :=
  ⟨R.dot v _ h, R.dot v _ h, R.dot v _ h⟩

theorem Rich.quadratic (cyl : Cylinder) (ray : X → V3 ℝ × V3 ℝ) (ho : (P fun x => (ray x).1.e) ∧ (P fun x => (ray x).1.n) ∧ P fun x => (ray x).1.u)
    (hd : (P fun x => (ray x).2.e) ∧ (P fun x => (ray x).2.n) ∧ P fun x => (ray x).2.u) :
    (P fun x => (cyl.quadratic (ray x).1 (ray x).2).1) ∧ (P fun x => (cyl.quadratic (ray x).1 (ray x).2).2.1) ∧ P fun x => (cyl.quadratic (ray x).1 (ray x).2).2.2 := by
  obtain ⟨oe, on, -⟩ := R.toLocal cyl (fun x => (ray x).1 - cyl.center) ⟨R.sub _ _ ho.1 (R.const _), R.sub _ _ ho.2.1 (R.const _), R.sub _ _ ho.2.2 (R.const _)⟩
  obtain ⟨de, dn, -⟩ := R.toLocal cyl (fun x => (ray x).2) hd
  unfold Cylinder.quadratic
  simp only [pow_two]
  exact ⟨R.add _ _ (R.mul _ _ de de) (R.mul _ _ dn dn), R.mul _ _ (R.const _) (R.add _ _ (R.mul _ _ oe de) (R.mul _ _ on dn)),
    R.sub _ _ (R.add _ _ (R.mul _ _ oe oe) (R.mul _ _ on on)) (R.const _)⟩
end

/-- the two candidates -/
noncomputable def root (q : ℝ × ℝ × ℝ) : ℝ := √(q.2.1 ^ 2 - 4 * q.1 * q.2.2 + 1 / 10 ^ 12)
noncomputable def near (q : ℝ × ℝ × ℝ) : ℝ := (-q.2.1 - root q) / (2 * q.1)
noncomputable def far (q : ℝ × ℝ × ℝ) : ℝ := (-q.2.1 + root q) / (2 * q.1)

theorem root_pos {q : ℝ × ℝ × ℝ} (h : 0 ≤ q.2.1 ^ 2 - 4 * q.1 * q.2.2) : 0 < root q := Real.sqrt_pos.2 (by positivity)

theorem near_lt_far {q : ℝ × ℝ × ℝ} (ha : 0 < q.1) (h : 0 ≤ q.2.1 ^ 2 - 4 * q.1 * q.2.2) : near q < far q := by
  have := root_pos h
  unfold near far
  exact div_lt_div_of_pos_right (by linarith) (by linarith)

theorem candidates {q : ℝ × ℝ × ℝ} (ha : 0 < q.1) (h : 0 ≤ q.2.1 ^ 2 - 4 * q.1 * q.2.2) (x : ℝ) :
    q.1 * x ^ 2 + q.2.1 * x + q.2.2 = 1 / 10 ^ 12 / (4 * q.1) ↔ x = near q ∨ x = far q := by
  have hs : root q ^ 2 = q.2.1 ^ 2 - 4 * q.1 * q.2.2 + 1 / 10 ^ 12 := Real.sq_sqrt (by positivity)
  have hfac : q.1 * x ^ 2 + q.2.1 * x + q.2.2 - 1 / 10 ^ 12 / (4 * q.1) = q.1 * ((x - near q) * (x - far q)) := by
    unfold near far
    field_simp
    linear_combination (4 * 10 ^ 12 : ℝ) * hs
  rw [← sub_eq_zero, hfac, mul_eq_zero, mul_eq_zero, sub_eq_zero, sub_eq_zero]
  constructor
  · rintro (h | h)
    · exact absurd h ha.ne'
    · exact h
  · exact Or.inr

theorem distance_eq (cyl : Cylinder) (o d : V3 ℝ) (ha : 1 / 10 ^ 8 < (cyl.quadratic o d).1)
    (h : 0 ≤ (cyl.quadratic o d).2.1 ^ 2 - 4 * (cyl.quadratic o d).1 * (cyl.quadratic o d).2.2) :
    cyl.distance o d = if 0 < near (cyl.quadratic o d) then some (near (cyl.quadratic o d)) else if 0 < far (cyl.quadratic o d) then some (far (cyl.quadratic o d)) else none := by
  have a0 : 0 < (cyl.quadratic o d).1 := lt_trans (by norm_num) ha
  have lt := near_lt_far a0 h
  unfold Cylinder.distance
  simp only
  rw [if_pos ⟨h, by rwa [abs_of_pos a0]⟩]
  change (if 0 < near (cyl.quadratic o d) then (if 0 < far (cyl.quadratic o d) then some (min (near (cyl.quadratic o d)) (far (cyl.quadratic o d))) else some (near (cyl.quadratic o d)))
    else if 0 < far (cyl.quadratic o d) then some (far (cyl.quadratic o d)) else none) = _
  by_cases hn : 0 < near (cyl.quadratic o d)
  · rw [if_pos hn, if_pos hn, if_pos (hn.trans lt), min_eq_left lt.le]
  · rw [if_neg hn, if_neg hn]

theorem distance_none (cyl : Cylinder) (o d : V3 ℝ) (h : (cyl.quadratic o d).1 < 1 / 10 ^ 8 ∨ (cyl.quadratic o d).2.1 ^ 2 - 4 * (cyl.quadratic o d).1 * (cyl.quadratic o d).2.2 < 0) :
    cyl.distance o d = none := by
  have hq0 : 0 ≤ (cyl.quadratic o d).1 := by simp only [Cylinder.quadratic]; positivity
  unfold Cylinder.distance
  simp only
  rw [if_neg]
  rintro ⟨h1, h2⟩
  rw [abs_of_nonneg hq0] at h2
  rcases h with h | h <;> linarith

theorem slope_eq (cyl : Cylinder) (hfr : cyl.Framed) (o d : V3 ℝ) : slope cyl d = (cyl.quadratic o d).1 := (toLocal_normSq cyl hfr d).symm

theorem meets_iff (cyl : Cylinder) (hfr : cyl.Framed) (ray : V3 ℝ × V3 ℝ) (t : ℝ) :
    Meets cyl ray t ↔ (cyl.quadratic ray.1 ray.2).1 * t ^ 2 + (cyl.quadratic ray.1 ray.2).2.1 * t + (cyl.quadratic ray.1 ray.2).2.2 = 1 / 10 ^ 12 / (4 * (cyl.quadratic ray.1 ray.2).1) := by
  have := quadratic_radial cyl hfr ray.1 ray.2 t
  simp only at this
  rw [this, Meets, slope_eq cyl hfr ray.1, along]
  constructor <;> intro h <;> linarith

theorem disc_pos (cyl : Cylinder) (hfr : cyl.Framed) (ray : V3 ℝ × V3 ℝ) (ha : 0 < (cyl.quadratic ray.1 ray.2).1) (h : ∃ t, cyl.radial (along ray t) < cyl.radius ^ 2) :
    0 < (cyl.quadratic ray.1 ray.2).2.1 ^ 2 - 4 * (cyl.quadratic ray.1 ray.2).1 * (cyl.quadratic ray.1 ray.2).2.2 := by
  obtain ⟨t, ht⟩ := h
  have := quadratic_radial cyl hfr ray.1 ray.2 t
  simp only at this
  have e : (cyl.quadratic ray.1 ray.2).1 * t ^ 2 + (cyl.quadratic ray.1 ray.2).2.1 * t + (cyl.quadratic ray.1 ray.2).2.2 < 0 := by rw [this]; exact sub_neg.2 ht
  generalize cyl.quadratic ray.1 ray.2 = q at *
  nlinarith [sq_nonneg (2 * q.1 * t + q.2.1)]

theorem disc_neg (cyl : Cylinder) (hfr : cyl.Framed) (ray : V3 ℝ × V3 ℝ) (ha : 0 < (cyl.quadratic ray.1 ray.2).1) (h : ∀ t, cyl.radius ^ 2 < cyl.radial (along ray t)) :
    (cyl.quadratic ray.1 ray.2).2.1 ^ 2 - 4 * (cyl.quadratic ray.1 ray.2).1 * (cyl.quadratic ray.1 ray.2).2.2 < 0 := by
  have := quadratic_radial cyl hfr ray.1 ray.2 (-(cyl.quadratic ray.1 ray.2).2.1 / (2 * (cyl.quadratic ray.1 ray.2).1))
  simp only at this
  have h := h (-(cyl.quadratic ray.1 ray.2).2.1 / (2 * (cyl.quadratic ray.1 ray.2).1))
  unfold along at h
  generalize cyl.quadratic ray.1 ray.2 = q at *
  have e : q.1 * (-q.2.1 / (2 * q.1)) ^ 2 + q.2.1 * (-q.2.1 / (2 * q.1)) + q.2.2 = -(q.2.1 ^ 2 - 4 * q.1 * q.2.2) / (4 * q.1) := by field_simp; ring
  rw [e] at this
  have p : 0 < -(q.2.1 ^ 2 - 4 * q.1 * q.2.2) / (4 * q.1) := by rw [this]; linarith
  rw [div_pos_iff_of_pos_right (by linarith)] at p
  linarith

theorem toLocal_along (cyl : Cylinder) (ray : V3 ℝ × V3 ℝ) (t : ℝ) : cyl.toLocal (ray.1 - cyl.center) + t • cyl.toLocal ray.2 = cyl.toLocal (along ray t - cyl.center) := by
  rw [← toLocal_add_smul]
  congr 1
  ext <;> simp [along] <;> ring

section hits
variable (W H : Nat) (magnitude extinction reflectivity : ℝ) (cyl : Cylinder)

theorem hit_none (blocked : V3 ℝ × V3 ℝ → ℝ) (ray : V3 ℝ × V3 ℝ) (h : cyl.distance ray.1 ray.2 = none) :
    hitOf W H magnitude extinction reflectivity (.cylinder cyl) blocked ray = ⟨0, 0, 0⟩ := by
  simp [hitOf, land, lineCylinder, h, SoftMask.intensity]

/-- the signed cosine, the height and the angle of a point of the ray -/
noncomputable def face (ray : V3 ℝ × V3 ℝ) (t : ℝ) : ℝ :=
  -((cyl.toLocal ray.2).e * ((cyl.toLocal (along ray t - cyl.center)).e / √((cyl.toLocal (along ray t - cyl.center)).e ^ 2 + (cyl.toLocal (along ray t - cyl.center)).n ^ 2)) +
    (cyl.toLocal ray.2).n * ((cyl.toLocal (along ray t - cyl.center)).n / √((cyl.toLocal (along ray t - cyl.center)).e ^ 2 + (cyl.toLocal (along ray t - cyl.center)).n ^ 2)))
noncomputable def level (ray : V3 ℝ × V3 ℝ) (t : ℝ) : ℝ := V3.dot (along ray t - cyl.center) cyl.axis
noncomputable def azimuth (ray : V3 ℝ × V3 ℝ) (t : ℝ) : ℝ := cyl.angle (cyl.toLocal (along ray t - cyl.center))

theorem hit_on (blocked : V3 ℝ × V3 ℝ → ℝ) (ray : V3 ℝ × V3 ℝ) (t : ℝ) (h : cyl.distance ray.1 ray.2 = some t)
    (h1 : |level cyl ray t| < cyl.height / 2) (h2 : 0 < azimuth cyl ray t) (h3 : azimuth cyl ray t < cyl.opening) :
    hitOf W H magnitude extinction reflectivity (.cylinder cyl) blocked ray =
      ⟨azimuth cyl ray t / cyl.opening * ((W : ℝ) - 1), (level cyl ray t + cyl.height / 2) / cyl.height * ((H : ℝ) - 1),
        SoftMask.intensity (magnitude * max (face cyl ray t) 0) (blocked ray) extinction reflectivity⟩ := by
  obtain ⟨l1, l2⟩ := abs_lt.1 h1
  unfold level at l1 l2
  have hl : cyl.toLocal (ray.1 - cyl.center) + t • cyl.toLocal ray.2 = cyl.toLocal (along ray t - cyl.center) := toLocal_along cyl ray t
  have hu : (cyl.toLocal (along ray t - cyl.center)).u = V3.dot (along ray t - cyl.center) cyl.axis := rfl
  unfold hitOf land lineCylinder
  simp only [h, hl, hu]
  rw [if_pos ⟨by linarith, by linarith, h2.le, h3.le⟩]
  rfl

theorem hit_off (blocked : V3 ℝ × V3 ℝ → ℝ) (ray : V3 ℝ × V3 ℝ) (t : ℝ) (h : cyl.distance ray.1 ray.2 = some t)
    (h1 : cyl.height / 2 < |level cyl ray t| ∨ azimuth cyl ray t < 0 ∨ cyl.opening < azimuth cyl ray t) :
    hitOf W H magnitude extinction reflectivity (.cylinder cyl) blocked ray = ⟨0, 0, 0⟩ := by
  have hl : cyl.toLocal (ray.1 - cyl.center) + t • cyl.toLocal ray.2 = cyl.toLocal (along ray t - cyl.center) := toLocal_along cyl ray t
  have hu : (cyl.toLocal (along ray t - cyl.center)).u = V3.dot (along ray t - cyl.center) cyl.axis := rfl
  unfold hitOf land lineCylinder
  simp only [h, hl, hu]
  rw [if_neg]
  · simp [SoftMask.intensity]
  · rintro ⟨a1, a2, a3, a4⟩
    unfold level azimuth at h1
    rcases h1 with h1 | h1 | h1
    · rcases lt_abs.1 h1 with h1 | h1 <;> linarith
    · linarith
    · linarith

variable {W H} {P : (X → ℝ) → Prop} {x₀ : X}

/-- what is known about a hit: it varies as the ray does, and either nothing is recorded close by, or it is properly inside the bitmap -/
def Fine (W H : Nat) (P : (X → ℝ) → Prop) (x₀ : X) (hit : X → Hit ℝ) : Prop :=
  ((P fun x => (hit x).e) ∧ (P fun x => (hit x).u) ∧ P fun x => (hit x).w) ∧
  ((∀ᶠ x in 𝓝 x₀, hit x = ⟨0, 0, 0⟩) ∨ ((0 < (hit x₀).e ∧ (hit x₀).e < (W : ℝ) - 1) ∧ 0 < (hit x₀).u ∧ (hit x₀).u < (H : ℝ) - 1))

theorem fine_zero (R : Rich P x₀) {hit : X → Hit ℝ} (h : ∀ᶠ x in 𝓝 x₀, hit x = ⟨0, 0, 0⟩) : Fine W H P x₀ hit := by
  refine ⟨⟨?_, ?_, ?_⟩, Or.inl h⟩
  · exact R.congr (fun _ => 0) _ (by filter_upwards [h] with x hx; rw [hx]) (R.const 0)
  · exact R.congr (fun _ => 0) _ (by filter_upwards [h] with x hx; rw [hx]) (R.const 0)
  · exact R.congr (fun _ => 0) _ (by filter_upwards [h] with x hx; rw [hx]) (R.const 0)

theorem fine_at (R : Rich P x₀) (hh : 0 < cyl.height) (ho : 0 < cyl.opening) (hW : 1 < W) (hH : 1 < H) (ray : X → V3 ℝ × V3 ℝ) (blocked : X → V3 ℝ × V3 ℝ → ℝ)
    (po : (P fun x => (ray x).1.e) ∧ (P fun x => (ray x).1.n) ∧ P fun x => (ray x).1.u)
    (pd : (P fun x => (ray x).2.e) ∧ (P fun x => (ray x).2.n) ∧ P fun x => (ray x).2.u) (hb : P fun x => blocked x (ray x)) (t : X → ℝ) (pt : P t)
    (hd : ∀ᶠ x in 𝓝 x₀, cyl.distance (ray x).1 (ray x).2 = some (t x)) (hp : Proper cyl (along (ray x₀) (t x₀)))
    (hn : 0 < (cyl.toLocal (along (ray x₀) (t x₀) - cyl.center)).e ^ 2 + (cyl.toLocal (along (ray x₀) (t x₀) - cyl.center)).n ^ 2) (hf : face cyl (ray x₀) (t x₀) ≠ 0) :
    Fine W H P x₀ fun x => hitOf W H magnitude extinction reflectivity (.cylinder cyl) (blocked x) (ray x) := by
  have pa : (P fun x => (along (ray x) (t x) - cyl.center).e) ∧ (P fun x => (along (ray x) (t x) - cyl.center).n) ∧ P fun x => (along (ray x) (t x) - cyl.center).u :=
    ⟨R.sub _ _ (R.add _ _ po.1 (R.mul _ _ pt pd.1)) (R.const _), R.sub _ _ (R.add _ _ po.2.1 (R.mul _ _ pt pd.2.1)) (R.const _),
      R.sub _ _ (R.add _ _ po.2.2 (R.mul _ _ pt pd.2.2)) (R.const _)⟩
  obtain ⟨le, ln, -⟩ := R.toLocal cyl (fun x => along (ray x) (t x) - cyl.center) pa
  obtain ⟨de, dn, -⟩ := R.toLocal cyl (fun x => (ray x).2) pd
  have plevel : P fun x => level cyl (ray x) (t x) := R.dot _ _ pa
  have pazimuth : OffSeam cyl (along (ray x₀) (t x₀)) → P fun x => azimuth cyl (ray x) (t x) := fun h => R.sub _ _ (R.arg _ _ le ln h) (R.const _)
  have pface : P fun x => face cyl (ray x) (t x) := by
    have r : P fun x => √((cyl.toLocal (along (ray x) (t x) - cyl.center)).e ^ 2 + (cyl.toLocal (along (ray x) (t x) - cyl.center)).n ^ 2) := by
      refine R.sqrt _ ?_ hn
      simp only [pow_two]
      exact R.add _ _ (R.mul _ _ le le) (R.mul _ _ ln ln)
    have r0 := (Real.sqrt_pos.2 hn).ne'
    exact R.neg _ (R.add _ _ (R.mul _ _ de (R.div _ _ le r r0)) (R.mul _ _ dn (R.div _ _ ln r r0)))
  have clevel := R.continuous _ plevel
  rcases hp with ⟨hs, h1, h2, h3⟩ | h1 | ⟨hs, h1⟩
  · have pazimuth := pazimuth hs
    have cazimuth := R.continuous _ pazimuth
    have on : ∀ᶠ x in 𝓝 x₀, hitOf W H magnitude extinction reflectivity (.cylinder cyl) (blocked x) (ray x) =
        ⟨azimuth cyl (ray x) (t x) / cyl.opening * ((W : ℝ) - 1), (level cyl (ray x) (t x) + cyl.height / 2) / cyl.height * ((H : ℝ) - 1),
        SoftMask.intensity (magnitude * max (face cyl (ray x) (t x)) 0) (blocked x (ray x)) extinction reflectivity⟩ := by
      filter_upwards [hd, clevel.abs.eventually_lt continuousAt_const h1, continuousAt_const.eventually_lt cazimuth h2, cazimuth.eventually_lt continuousAt_const h3] with x a b c d
      exact hit_on W H _ _ _ cyl _ _ _ a b c d
    have pmax : P fun x => max (face cyl (ray x) (t x)) 0 := by
      have c := R.continuous _ pface
      rcases lt_or_gt_of_ne hf with hf | hf
      · refine R.congr (fun _ => 0) _ ?_ (R.const 0)
        filter_upwards [c.eventually_lt continuousAt_const hf] with x hx
        exact (max_eq_right hx.le).symm
      · refine R.congr _ _ ?_ pface
        filter_upwards [continuousAt_const.eventually_lt c hf] with x hx
        exact (max_eq_left hx.le).symm
    have hW' : (0 : ℝ) < (W : ℝ) - 1 := by have : (1 : ℝ) < W := by exact_mod_cast hW
                                           linarith
    have hH' : (0 : ℝ) < (H : ℝ) - 1 := by have : (1 : ℝ) < H := by exact_mod_cast hH
                                           linarith
    refine ⟨⟨?_, ?_, ?_⟩, Or.inr ?_⟩
    · refine R.congr (fun x => azimuth cyl (ray x) (t x) / cyl.opening * ((W : ℝ) - 1)) _ (by filter_upwards [on] with x hx; rw [hx]) ?_
      exact R.mul _ _ (R.div _ _ pazimuth (R.const _) ho.ne') (R.const _)
    · refine R.congr (fun x => (level cyl (ray x) (t x) + cyl.height / 2) / cyl.height * ((H : ℝ) - 1)) _ (by filter_upwards [on] with x hx; rw [hx]) ?_
      exact R.mul _ _ (R.div _ _ (R.add _ _ plevel (R.const _)) (R.const _) hh.ne') (R.const _)
    · refine R.congr (fun x => SoftMask.intensity (magnitude * max (face cyl (ray x) (t x)) 0) (blocked x (ray x)) extinction reflectivity) _ (by filter_upwards [on] with x hx; rw [hx]) ?_
      unfold SoftMask.intensity
      exact R.mul _ _ (R.mul _ _ (R.mul _ _ (R.mul _ _ (R.const _) pmax) (R.sub _ _ (R.const _) hb)) (R.const _)) (R.const _)
    · beta_reduce
      rw [on.self_of_nhds]
      obtain ⟨l1, l2⟩ := abs_lt.1 h1
      have scale : ∀ (v w n : ℝ), 0 < w → 0 < n → 0 < v → v < w → 0 < v / w * n ∧ v / w * n < n := by
        intro v w n hw hn hv hvw
        refine ⟨by positivity, ?_⟩
        have : v / w < 1 := (div_lt_one hw).2 hvw
        nlinarith
      exact ⟨scale _ _ _ ho hW' h2 h3, scale _ _ _ hh hH' (by unfold level; linarith) (by unfold level; linarith)⟩
  · refine fine_zero R ?_
    filter_upwards [hd, continuousAt_const.eventually_lt clevel.abs h1] with x a b
    exact hit_off W H _ _ _ cyl _ _ _ a (Or.inl b)
  · have cazimuth := R.continuous _ (pazimuth hs)
    refine fine_zero R ?_
    rcases h1 with h1 | h1
    · filter_upwards [hd, cazimuth.eventually_lt continuousAt_const h1] with x a b
      exact hit_off W H _ _ _ cyl _ _ _ a (Or.inr (Or.inl b))
    · filter_upwards [hd, continuousAt_const.eventually_lt cazimuth h1] with x a b
      exact hit_off W H _ _ _ cyl _ _ _ a (Or.inr (Or.inr b))

/-- the cosine does not vanish where the line goes through the surface -/
theorem face_ne (hfr : cyl.Framed) (hr : 0 < cyl.radius) (ray : V3 ℝ × V3 ℝ) (t : ℝ) (ha : 0 < (cyl.quadratic ray.1 ray.2).1)
    (hdisc : 0 ≤ (cyl.quadratic ray.1 ray.2).2.1 ^ 2 - 4 * (cyl.quadratic ray.1 ray.2).1 * (cyl.quadratic ray.1 ray.2).2.2)
    (ht : t = near (cyl.quadratic ray.1 ray.2) ∨ t = far (cyl.quadratic ray.1 ray.2)) :
    0 < (cyl.toLocal (along ray t - cyl.center)).e ^ 2 + (cyl.toLocal (along ray t - cyl.center)).n ^ 2 ∧ face cyl ray t ≠ 0 := by
  have hm := (meets_iff cyl hfr ray t).2 ((candidates ha hdisc t).2 ht)
  have hn : 0 < (cyl.toLocal (along ray t - cyl.center)).e ^ 2 + (cyl.toLocal (along ray t - cyl.center)).n ^ 2 := by
    rw [toLocal_normSq cyl hfr]
    unfold Meets Cylinder.radial at hm
    rw [hm, slope_eq cyl hfr ray.1]
    positivity
  refine ⟨hn, ?_⟩
  have e : (cyl.toLocal ray.2).e * (cyl.toLocal (along ray t - cyl.center)).e + (cyl.toLocal ray.2).n * (cyl.toLocal (along ray t - cyl.center)).n =
      (cyl.quadratic ray.1 ray.2).1 * t + (cyl.quadratic ray.1 ray.2).2.1 / 2 := by
    rw [← toLocal_along]
    simp only [Cylinder.quadratic, V3.add_e, V3.add_n, V3.smul_e, V3.smul_n]
    ring
  have e2 : (cyl.quadratic ray.1 ray.2).1 * t + (cyl.quadratic ray.1 ray.2).2.1 / 2 ≠ 0 := by
    have rp := root_pos hdisc
    generalize cyl.quadratic ray.1 ray.2 = q at *
    rcases ht with rfl | rfl
    · have : q.1 * near q + q.2.1 / 2 = -(root q) / 2 := by unfold near; field_simp; ring
      rw [this]; linarith
    · have : q.1 * far q + q.2.1 / 2 = root q / 2 := by unfold far; field_simp; ring
      rw [this]; linarith
  have r0 := Real.sqrt_pos.2 hn
  unfold face
  intro hc
  apply e2
  rw [← e]
  have : (cyl.toLocal ray.2).e * (cyl.toLocal (along ray t - cyl.center)).e + (cyl.toLocal ray.2).n * (cyl.toLocal (along ray t - cyl.center)).n =
      √((cyl.toLocal (along ray t - cyl.center)).e ^ 2 + (cyl.toLocal (along ray t - cyl.center)).n ^ 2) *
      ((cyl.toLocal ray.2).e * ((cyl.toLocal (along ray t - cyl.center)).e / √((cyl.toLocal (along ray t - cyl.center)).e ^ 2 + (cyl.toLocal (along ray t - cyl.center)).n ^ 2)) +
    (cyl.toLocal ray.2).n * ((cyl.toLocal (along ray t - cyl.center)).n / √((cyl.toLocal (along ray t - cyl.center)).e ^ 2 + (cyl.toLocal (along ray t - cyl.center)).n ^ 2))) := by
    field_simp
  rw [this, neg_eq_zero.1 hc, mul_zero]

theorem fine_ray (R : Rich P x₀) (hfr : cyl.Framed) (hr : 0 < cyl.radius) (hh : 0 < cyl.height) (ho : 0 < cyl.opening) (hW : 1 < W) (hH : 1 < H) (ray : X → V3 ℝ × V3 ℝ)
    (blocked : X → V3 ℝ × V3 ℝ → ℝ) (po : (P fun x => (ray x).1.e) ∧ (P fun x => (ray x).1.n) ∧ P fun x => (ray x).1.u)
    (pd : (P fun x => (ray x).2.e) ∧ (P fun x => (ray x).2.n) ∧ P fun x => (ray x).2.u) (hb : P fun x => blocked x (ray x)) (hc : Clear cyl (ray x₀)) :
    Fine W H P x₀ fun x => hitOf W H magnitude extinction reflectivity (.cylinder cyl) (blocked x) (ray x) := by
  obtain ⟨qa, qb, qc⟩ := R.quadratic cyl ray po pd
  have pdisc : P fun x => (cyl.quadratic (ray x).1 (ray x).2).2.1 ^ 2 - 4 * (cyl.quadratic (ray x).1 (ray x).2).1 * (cyl.quadratic (ray x).1 (ray x).2).2.2 := by
    simp only [pow_two]
    exact R.sub _ _ (R.mul _ _ qb qb) (R.mul _ _ (R.mul _ _ (R.const _) qa) qc)
  have ca := R.continuous _ qa
  have cd := R.continuous _ pdisc
  have hq0 : 0 ≤ (cyl.quadratic (ray x₀).1 (ray x₀).2).1 := by simp only [Cylinder.quadratic]; positivity
  by_cases hsm : (cyl.quadratic (ray x₀).1 (ray x₀).2).1 < 1 / 10 ^ 8
  · refine fine_zero R ?_
    filter_upwards [ca.eventually_lt continuousAt_const hsm] with x hx
    exact hit_none W H _ _ _ cyl _ _ (distance_none cyl _ _ (Or.inl hx))
  have a0 : 0 < (cyl.quadratic (ray x₀).1 (ray x₀).2).1 := by push Not at hsm; exact lt_of_lt_of_le (by norm_num) hsm
  rcases hc with h | h | ⟨h1, h2, h3, h4⟩
  · rw [slope_eq cyl hfr (ray x₀).1] at h; exact absurd h hsm
  · have := disc_neg cyl hfr (ray x₀) a0 h
    refine fine_zero R ?_
    filter_upwards [cd.eventually_lt continuousAt_const this] with x hx
    exact hit_none W H _ _ _ cyl _ _ (distance_none cyl _ _ (Or.inr hx))
  · rw [slope_eq cyl hfr (ray x₀).1] at h1
    have hdisc := disc_pos cyl hfr (ray x₀) a0 h2
    have proot : P fun x => root (cyl.quadratic (ray x).1 (ray x).2) := R.sqrt _ (R.add _ _ pdisc (R.const _)) (by positivity)
    have two : (2 : ℝ) * (cyl.quadratic (ray x₀).1 (ray x₀).2).1 ≠ 0 := by positivity
    have pnear : P fun x => near (cyl.quadratic (ray x).1 (ray x).2) := R.div _ _ (R.sub _ _ (R.neg _ qb) proot) (R.mul _ _ (R.const _) qa) two
    have pfar : P fun x => far (cyl.quadratic (ray x).1 (ray x).2) := R.div _ _ (R.add _ _ (R.neg _ qb) proot) (R.mul _ _ (R.const _) qa) two
    have cn := R.continuous _ pnear
    have cf := R.continuous _ pfar
    have n0 : near (cyl.quadratic (ray x₀).1 (ray x₀).2) ≠ 0 := fun h => h3 ((meets_iff cyl hfr (ray x₀) 0).2 ((candidates a0 hdisc.le 0).2 (Or.inl h.symm)))
    have f0 : far (cyl.quadratic (ray x₀).1 (ray x₀).2) ≠ 0 := fun h => h3 ((meets_iff cyl hfr (ray x₀) 0).2 ((candidates a0 hdisc.le 0).2 (Or.inr h.symm)))
    have lt := near_lt_far a0 hdisc.le
    have ev : ∀ᶠ x in 𝓝 x₀, cyl.distance (ray x).1 (ray x).2 = if 0 < near (cyl.quadratic (ray x).1 (ray x).2) then some (near (cyl.quadratic (ray x).1 (ray x).2)) else
        if 0 < far (cyl.quadratic (ray x).1 (ray x).2) then some (far (cyl.quadratic (ray x).1 (ray x).2)) else none := by
      filter_upwards [continuousAt_const.eventually_lt ca h1, continuousAt_const.eventually_lt cd hdisc] with x a b
      exact distance_eq cyl _ _ a b.le
    have first : ∀ t, 0 < t → (t = near (cyl.quadratic (ray x₀).1 (ray x₀).2) ∨ t = far (cyl.quadratic (ray x₀).1 (ray x₀).2)) →
        (0 < near (cyl.quadratic (ray x₀).1 (ray x₀).2) → t = near (cyl.quadratic (ray x₀).1 (ray x₀).2)) → Proper cyl (along (ray x₀) t) := by
      intro t t0 ht hn
      refine h4 t t0 ((meets_iff cyl hfr (ray x₀) t).2 ((candidates a0 hdisc.le t).2 ht)) ?_
      intro s s0 st hs
      rcases (candidates a0 hdisc.le s).1 ((meets_iff cyl hfr (ray x₀) s).1 hs) with rfl | rfl
      · rw [hn s0] at st; exact lt_irrefl _ st
      · rcases ht with rfl | rfl
        · exact lt_asymm st lt
        · exact lt_irrefl _ st
    rcases lt_or_gt_of_ne n0 with hn | hn
    · rcases lt_or_gt_of_ne f0 with hf | hf
      · refine fine_zero R ?_
        filter_upwards [ev, cn.eventually_lt continuousAt_const hn, cf.eventually_lt continuousAt_const hf] with x a b c
        rw [if_neg (not_lt.2 b.le), if_neg (not_lt.2 c.le)] at a
        exact hit_none W H _ _ _ cyl _ _ a
      · obtain ⟨g1, g2⟩ := face_ne cyl hfr hr (ray x₀) _ a0 hdisc.le (Or.inr rfl)
        refine fine_at magnitude extinction reflectivity cyl R hh ho hW hH ray blocked po pd hb _ pfar ?_ (first _ hf (Or.inr rfl) (fun h => absurd h (not_lt.2 hn.le))) g1 g2
        filter_upwards [ev, cn.eventually_lt continuousAt_const hn, continuousAt_const.eventually_lt cf hf] with x a b c
        rw [if_neg (not_lt.2 b.le), if_pos c] at a
        exact a
    · obtain ⟨g1, g2⟩ := face_ne cyl hfr hr (ray x₀) _ a0 hdisc.le (Or.inl rfl)
      refine fine_at magnitude extinction reflectivity cyl R hh ho hW hH ray blocked po pd hb _ pnear ?_ (first _ hn (Or.inl rfl) (fun _ => rfl)) g1 g2
      filter_upwards [ev, continuousAt_const.eventually_lt cn hn] with x a b
      rw [if_pos b] at a
      exact a

end hits

/-- the share of a pixel is continuous in a fine hit -/
theorem contrib_fine {W H : Nat} {x₀ : X} {hit : X → Hit ℝ} (hf : Fine W H (fun f : X → ℝ => ContinuousAt f x₀) x₀ hit) (r c : Nat) (hc : c < W) :
    ContinuousAt (fun x => contrib W H r c (hit x)) x₀ := by
  obtain ⟨⟨h1, h2, h3⟩, h | ⟨⟨a1, a2⟩, a3, a4⟩⟩ := hf
  · refine ContinuousAt.congr (f := fun _ => (0 : ℝ)) continuousAt_const ?_
    filter_upwards [h] with x hx
    rw [hx, contrib_eq W H r c hc _ le_rfl le_rfl]
    simp
  · refine ContinuousAt.congr (f := fun x => (hit x).w * (tent ((hit x).e - (c : ℝ)) * tent ((hit x).u - (r : ℝ)))) ?_ ?_
    · refine h3.mul (ContinuousAt.mul ?_ ?_)
      · exact tent_continuous.continuousAt.comp (f := fun x => (hit x).e - (c : ℝ)) (by fun_prop)
      · exact tent_continuous.continuousAt.comp (f := fun x => (hit x).u - (r : ℝ)) (by fun_prop)
    · filter_upwards [continuousAt_const.eventually_lt h1 a1, h1.eventually_lt continuousAt_const a2, continuousAt_const.eventually_lt h2 a3, h2.eventually_lt continuousAt_const a4] with x b1 b2 b3 b4
      rw [contrib_eq W H r c hc _ b1.le b3.le, if_pos ⟨⟨b1.le, b2⟩, b3.le, b4⟩]

end Artist.CylinderImage
