import Verif.Spec.Tracking
import Verif.Proofs.MotorImage
import Verif.Proofs.Converge
import Verif.Props.MotorImage
import Mathlib.Analysis.SpecialFunctions.Complex.Arg
/-! Helper lemmas for C111. -/
namespace Artist.Tracking
open Artist Kinematics Real Matrix Transforms Intersect Filter Topology MotorImage Converge

variable {X : Type} [TopologicalSpace X]

theorem atan2_continuous {x₀ : X} {y z : X → ℝ} (hy : ContinuousAt y x₀) (hz : ContinuousAt z x₀) :
    ContinuousAt (fun x => (⟨z x, y x⟩ : ℂ)) x₀ := by
  have e : (fun x => (⟨z x, y x⟩ : ℂ)) = fun x => (z x : ℂ) + (y x : ℂ) * Complex.I := by funext x; exact Complex.mk_eq_add_mul_I _ _
  rw [e]
  exact (Complex.continuous_ofReal.continuousAt.comp hz).add ((Complex.continuous_ofReal.continuousAt.comp hy).mul continuousAt_const)

/-- a motor follows an angle that is computed from its sine and cosine -/
theorem motor_continuous {x₀ : X} {y z : X → ℝ} (a : Actuator) (ha : Continuous a.toMotor) (hy : ContinuousAt y x₀) (hz : ContinuousAt z x₀)
    (h0 : y x₀ ≠ 0 ∨ z x₀ ≠ 0) (hp : NoHalfTurn a (atan2 (y x₀) (z x₀))) : ContinuousAt (fun x => a.toMotor (atan2 (y x) (z x))) x₀ := by
  have hc := atan2_continuous hy hz
  have n0 : (⟨z x₀, y x₀⟩ : ℂ) ≠ 0 := by
    intro h
    rcases h0 with h0 | h0
    · exact h0 (congrArg Complex.im h)
    · exact h0 (congrArg Complex.re h)
  rcases hp with hp | hp
  · have : ContinuousAt (fun x => atan2 (y x) (z x)) x₀ :=
      (Complex.continuousAt_arg (Complex.mem_slitPlane_iff_arg.2 ⟨hp, n0⟩)).comp_of_eq hc rfl
    exact ha.continuousAt.comp this
  · have k : Continuous (hp.lift : Real.Angle → ℝ) := by
      refine continuous_coinduced_dom.2 ?_
      exact ha
    have e : (fun x => a.toMotor (atan2 (y x) (z x))) = fun x => hp.lift ((atan2 (y x) (z x) : ℝ) : Real.Angle) := by
      funext x; exact (hp.lift_coe _).symm
    rw [e]
    have : ContinuousAt (fun x => ((atan2 (y x) (z x) : ℝ) : Real.Angle)) x₀ :=
      (Complex.continuousAt_arg_coe_angle n0).comp_of_eq hc rfl
    exact k.continuousAt.comp this

theorem wrap_atan2 (y z : ℝ) : Heliostat.wrap (atan2 y z) = atan2 y z := by
  unfold Heliostat.wrap
  have : (⟨cos (atan2 y z), sin (atan2 y z)⟩ : ℂ) = Complex.exp ((atan2 y z : ℝ) * Complex.I) := by
    rw [Complex.exp_mul_I, ← Complex.ofReal_cos, ← Complex.ofReal_sin, Complex.mk_eq_add_mul_I]
  show Complex.arg _ = _
  rw [this, Complex.arg_exp_mul_I, toIocMod_eq_self]
  exact ⟨Complex.neg_pi_lt_arg _, by have := Complex.arg_le_pi ⟨z, y⟩; unfold atan2; linarith⟩

theorem wrap_motor_continuous {x₀ : X} {θ : X → ℝ} (a : Actuator) (ha : Continuous a.toMotor) (hθ : ContinuousAt θ x₀)
    (hp : NoHalfTurn a (Heliostat.wrap (θ x₀))) : ContinuousAt (fun x => a.toMotor (Heliostat.wrap (θ x))) x₀ := by
  refine motor_continuous a ha (continuous_sin.continuousAt.comp hθ) (continuous_cos.continuousAt.comp hθ) ?_ hp
  by_contra hc
  push Not at hc
  have := sin_sq_add_cos_sq (θ x₀)
  rw [hc.1, hc.2] at this
  norm_num at this

theorem vOf_across (h : Heliostat) {b ρ : ℝ} (h1 : |ρ| < 1) (hb : vOf h b 0 = |cos (h.rotation 3)| * ρ) : vOf h b 1 ≠ 0 ∨ vOf h b 2 ≠ 0 := by
  by_contra hc
  push Not at hc
  have hu := vOf_unit h b
  rw [hc.1, hc.2] at hu
  have : |vOf h b 0| < 1 := by
    rw [hb, abs_mul, abs_abs]
    exact lt_of_le_of_lt (mul_le_of_le_one_left (abs_nonneg _) (abs_cos_le_one _)) h1
  have := abs_lt.1 this
  nlinarith

theorem product_ne {v n : Fin 4 → ℝ} (hv : v 1 ≠ 0 ∨ v 2 ≠ 0) (hn : n 1 ≠ 0 ∨ n 2 ≠ 0) : v 1 * n 2 - v 2 * n 1 ≠ 0 ∨ v 1 * n 1 + v 2 * n 2 ≠ 0 := by
  by_contra hc
  push Not at hc
  have e : (v 1 ^ 2 + v 2 ^ 2) * (n 1 ^ 2 + n 2 ^ 2) = 0 := by
    linear_combination (v 1 * n 2 - v 2 * n 1) * hc.1 + (v 1 * n 1 + v 2 * n 2) * hc.2
  have p : ∀ w : Fin 4 → ℝ, (w 1 ≠ 0 ∨ w 2 ≠ 0) → 0 < w 1 ^ 2 + w 2 ^ 2 := by
    intro w hw
    rcases hw with hw | hw <;> positivity
  exact (mul_pos (p v hv) (p n hn)).ne' e

theorem vOf_continuous (h : Heliostat) {x₀ : X} {θ : X → ℝ} (hc : ContinuousAt (fun x => cos (θ x)) x₀) (hs : ContinuousAt (fun x => sin (θ x)) x₀) (i : Fin 4) :
    ContinuousAt (fun x => vOf h (θ x) i) x₀ := by
  have e : ∀ b, vOf h b i = h.deviation2 i 0 * sin b + h.deviation2 i 1 * -cos b := by
    intro b
    simp [vOf, rotU, south, mulVec, dotProduct, Fin.sum_univ_four]
    ring
  simp only [e]
  fun_prop

/-- both motors follow one branch of the solution -/
theorem branch_continuous (h : Heliostat) (hg : Gentle h.actuator1 ∧ Gentle h.actuator2) {x₀ : X} {n : X → Fin 4 → ℝ} {θ : X → ℝ}
    (hn : ∀ i, ContinuousAt (fun x => n x i) x₀) (hθ : ContinuousAt θ x₀) (ha : n x₀ 1 ≠ 0 ∨ n x₀ 2 ≠ 0)
    (hv : vOf h (Heliostat.wrap (θ x₀)) 1 ≠ 0 ∨ vOf h (Heliostat.wrap (θ x₀)) 2 ≠ 0)
    (hp : Clear h (h.firstAngle (n x₀) (Heliostat.wrap (θ x₀)), Heliostat.wrap (θ x₀))) :
    ContinuousAt (fun x => h.motors (h.firstAngle (n x) (Heliostat.wrap (θ x)), Heliostat.wrap (θ x))) x₀ := by
  refine ContinuousAt.prodMk ?_ (wrap_motor_continuous _ hg.2.2 hθ hp.2)
  have v := vOf_continuous h (θ := fun x => Heliostat.wrap (θ x)) (x₀ := x₀) (by simp only [wrap_cos]; exact continuous_cos.continuousAt.comp hθ)
    (by simp only [wrap_sin]; exact continuous_sin.continuousAt.comp hθ)
  have cy : ContinuousAt (fun x => vOf h (Heliostat.wrap (θ x)) 1 * n x 2 - vOf h (Heliostat.wrap (θ x)) 2 * n x 1) x₀ :=
    ((v 1).mul (hn 2)).sub ((v 2).mul (hn 1))
  have cz : ContinuousAt (fun x => vOf h (Heliostat.wrap (θ x)) 1 * n x 1 + vOf h (Heliostat.wrap (θ x)) 2 * n x 2) x₀ :=
    ((v 1).mul (hn 1)).add ((v 2).mul (hn 2))
  have ne := product_ne hv ha
  have e : ∀ x, h.firstAngle (n x) (Heliostat.wrap (θ x)) = Heliostat.wrap (atan2 (vOf h (Heliostat.wrap (θ x)) 1 * n x 2 - vOf h (Heliostat.wrap (θ x)) 2 * n x 1)
      (vOf h (Heliostat.wrap (θ x)) 1 * n x 1 + vOf h (Heliostat.wrap (θ x)) 2 * n x 2)) := by
    intro x
    simp only [Heliostat.firstAngle, vOf, mulVec_mulVec]
  have hp1 := hp.1
  simp only [e] at hp1
  rw [wrap_atan2] at hp1
  have m := motor_continuous h.actuator1 hg.1.2 cy cz ne hp1
  simp only [e, wrap_atan2]
  exact m

theorem ratio_bound (c A : ℝ) : |Actuators.clamp (c / (A + 1 / 10 ^ 8)) (-1 + 1 / 10 ^ 8) (1 - 1 / 10 ^ 8)| < 1 := by
  unfold Actuators.clamp
  rw [abs_lt]
  constructor
  · exact lt_min (lt_of_lt_of_le (by norm_num) (le_max_right _ _)) (by norm_num)
  · exact lt_of_le_of_lt (min_le_right _ _) (by norm_num)

theorem solutions_continuous (h : Heliostat) (hg : Gentle h.actuator1 ∧ Gentle h.actuator2) {x₀ : X} {n : X → Fin 4 → ℝ}
    (hn : ∀ i, ContinuousAt (fun x => n x i) x₀) (ha : (h.deviation1ᵀ *ᵥ n x₀) 1 ≠ 0 ∨ (h.deviation1ᵀ *ᵥ n x₀) 2 ≠ 0) :
    (Clear h (h.jointAngles (1 / 10 ^ 8) (n x₀)).1 → ContinuousAt (fun x => h.motors (h.jointAngles (1 / 10 ^ 8) (n x)).1) x₀) ∧
    (Clear h (h.jointAngles (1 / 10 ^ 8) (n x₀)).2 → ContinuousAt (fun x => h.motors (h.jointAngles (1 / 10 ^ 8) (n x)).2) x₀) := by
  have n' : ∀ i, ContinuousAt (fun x => (h.deviation1ᵀ *ᵥ n x) i) x₀ := (closed_continuous x₀).mulVec (fun _ => h.deviation1ᵀ) n (fun _ _ => continuousAt_const) hn
  have r : ContinuousAt (fun x => Actuators.clamp ((h.deviation1ᵀ *ᵥ n x) 0 / (√((h.deviation2 0 0) ^ 2 + (h.deviation2 0 1) ^ 2) + 1 / 10 ^ 8)) (-1 + 1 / 10 ^ 8) (1 - 1 / 10 ^ 8)) x₀ :=
    clamp_continuous ((n' 0).div_const _) continuousAt_const continuousAt_const
  have a := continuous_arcsin.continuousAt.comp r
  have b := ratio_bound ((h.deviation1ᵀ *ᵥ n x₀) 0) (√((h.deviation2 0 0) ^ 2 + (h.deviation2 0 1) ^ 2))
  obtain ⟨b1, b2⟩ := arcsin_branch h (abs_lt.1 b).1.le (abs_lt.1 b).2.le
  constructor
  · intro hp
    exact branch_continuous h hg n' (θ := fun x => arcsin _ - atan2 (-(h.deviation2 0 1)) (h.deviation2 0 0)) (a.sub continuousAt_const) ha (vOf_across h b b1) hp
  · intro hp
    exact branch_continuous h hg n' (θ := fun x => π - arcsin _ - atan2 (-(h.deviation2 0 1)) (h.deviation2 0 0)) ((continuousAt_const.sub a).sub continuousAt_const) ha (vOf_across h b b2) hp

theorem normalize_continuous {x₀ : X} {ε : ℝ} (hε : 0 < ε) {v : X → Fin 3 → ℝ} (hv : ∀ i, ContinuousAt (fun x => v x i) x₀) (i : Fin 3) :
    ContinuousAt (fun x => normalizeEps ε (v x) i) x₀ := by
  have n : ContinuousAt (fun x => norm3 (v x)) x₀ := by
    unfold norm3
    simp only [dotProduct, Fin.sum_univ_three]
    have h0 := hv 0
    have h1 := hv 1
    have h2 := hv 2
    exact continuous_sqrt.continuousAt.comp (((h0.mul h0).add (h1.mul h1)).add (h2.mul h2))
  unfold normalizeEps
  simp only [Pi.smul_apply, smul_eq_mul]
  exact ((n.max continuousAt_const).inv₀ (lt_of_lt_of_le hε (le_max_right _ _)).ne').mul (hv i)

theorem desired_continuous {x₀ : X} {incident aim : X → Fin 4 → ℝ} {M : X → Mat} (hi : ∀ i, ContinuousAt (fun x => incident x i) x₀) (ha : ∀ i, ContinuousAt (fun x => aim x i) x₀)
    (hM : ∀ i j, ContinuousAt (fun x => M x i j) x₀) (i : Fin 4) : ContinuousAt (fun x => Heliostat.desiredNormal (incident x) (aim x) (M x) i) x₀ := by
  have o := (closed_continuous x₀).mulVec M (fun _ => origin) hM (fun _ => continuousAt_const)
  have r := normalize_continuous (x₀ := x₀) (ε := 1 / 10 ^ 8) (by norm_num)
    (v := fun x => ![aim x 0 - (M x *ᵥ origin) 0, aim x 1 - (M x *ᵥ origin) 1, aim x 2 - (M x *ᵥ origin) 2]) (by
      intro j; fin_cases j
      · exact (ha 0).sub (o 0)
      · exact (ha 1).sub (o 1)
      · exact (ha 2).sub (o 2))
  have d := normalize_continuous (x₀ := x₀) (ε := 1 / 10 ^ 8) (by norm_num) (v := fun x =>
      ![-incident x 0 + normalizeEps (1 / 10 ^ 8) ![aim x 0 - (M x *ᵥ origin) 0, aim x 1 - (M x *ᵥ origin) 1, aim x 2 - (M x *ᵥ origin) 2] 0,
        -incident x 1 + normalizeEps (1 / 10 ^ 8) ![aim x 0 - (M x *ᵥ origin) 0, aim x 1 - (M x *ᵥ origin) 1, aim x 2 - (M x *ᵥ origin) 2] 1,
        -incident x 2 + normalizeEps (1 / 10 ^ 8) ![aim x 0 - (M x *ᵥ origin) 0, aim x 1 - (M x *ᵥ origin) 1, aim x 2 - (M x *ᵥ origin) 2] 2]) (by
      intro j; fin_cases j
      · exact (hi 0).neg.add (r 0)
      · exact (hi 1).neg.add (r 1)
      · exact (hi 2).neg.add (r 2))
  fin_cases i
  · exact d 0
  · exact d 1
  · exact d 2
  · exact continuousAt_const

theorem forward_continuous (h : Heliostat) (hg : Gentle h.actuator1 ∧ Gentle h.actuator2) {x₀ : X} {m : X → ℝ × ℝ} (hm : ContinuousAt m x₀) (i j : Fin 4) :
    ContinuousAt (fun x => h.forward (m x) i j) x₀ := by
  have C := closed_continuous x₀
  have a1 : ContinuousAt (fun x => h.actuator1.toAngle (m x).1) x₀ := hg.1.1.continuousAt.comp hm.fst
  have a2 : ContinuousAt (fun x => h.actuator2.toAngle (m x).2) x₀ := hg.2.1.continuousAt.comp hm.snd
  unfold Heliostat.forward Heliostat.anglesToOrientation
  simp only [one_mul]
  have k : ∀ (M : Mat) (i j : Fin 4), ContinuousAt (fun _ : X => M i j) x₀ := fun _ _ _ => continuousAt_const
  exact C.matMul _ _ (C.matMul _ _ (C.matMul _ _ (k _) (C.matMul _ _ (k _) (C.rotE _ a1))) (C.matMul _ _ (k _) (C.rotU _ a2))) (k _) i j

end Artist.Tracking
