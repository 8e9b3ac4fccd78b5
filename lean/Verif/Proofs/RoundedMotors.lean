import Verif.Spec.RoundedMotors
import Verif.Props.RoundedChain
import Verif.Props.RoundedActuator
/-! Helper lemmas for C136. -/
namespace Artist.RoundedMotors
open Artist Transforms Kinematics Actuators Intersect RoundedRay RoundedKinematics RoundedLanding RoundedChain Pointing Matrix Rounded
noncomputable section
variable {rnd : ℝ → ℝ} {u η : ℝ} {M : Nat} {fcos fsin : ℝ → ℝ} {f : Fin 3 → ℝ} {P : RoundedChain.Plans} {x : Ray} {R ρ s r κ t D θ₁ θ₂ : ℝ} {p : Plane ℝ}

theorem rigid_pose (x : Ray) : Rigid x.pose := by
  rw [Ray.pose, offset_eq]
  exact (rigid_forward _ _ _).mul (rigid_rotE _)

/-- turning the joints moves what is fixed to the mirror -/
theorem turn (x : Ray) (θ₁ θ₂ : ℝ) (v : Fin 4 → ℝ) : length3 (x.pose *ᵥ v - (turned x θ₁ θ₂).pose *ᵥ v) ≤
    |x.first - θ₁| * (length3 v + |v 3| * Converge.lever x.heliostat) + |x.second - θ₂| * (length3 v + |v 3| * Converge.concentrator x.heliostat) := by
  have := joints_close x.heliostat x.first x.second θ₁ θ₂ (orientationOffset *ᵥ v)
  rw [offset_eq, rot_length _ (by simp [rotE]) (by simp [rotE]) (by simp [rotE]) (rigid_rotE _), (rigid_rotE _).homogeneous, ← offset_eq, mulVec_mulVec, mulVec_mulVec] at this
  exact this

theorem start_turned (hε : 0 ≤ u + η) (hx : x.Regular (u + η) R ρ s fcos fsin f) (hD : |x.first - θ₁| + |x.second - θ₂| ≤ D) :
    length3 (x.pose *ᵥ x.point - (turned x θ₁ θ₂).pose *ᵥ x.point) ≤ D * (s + 2 * ρ) := by
  refine (turn x θ₁ θ₂ x.point).trans ?_
  rw [hx.point.1, abs_one, one_mul, one_mul]
  have c1 : Converge.concentrator x.heliostat ≤ ρ := hx.sized.concentrator
  have c2 : Converge.lever x.heliostat ≤ 2 * ρ := by
    have : Converge.secondJoint x.heliostat ≤ ρ := hx.sized.second
    unfold Converge.lever
    linarith
  have hρ := (hx.sized.facts hε).2.1
  have hp := hx.point.2
  have l := Converge.length3_nonneg x.point
  have t1 : |x.first - θ₁| * (length3 x.point + Converge.lever x.heliostat) ≤ |x.first - θ₁| * (s + 2 * ρ) := mul_le_mul_of_nonneg_left (by linarith) (abs_nonneg _)
  have t2 : |x.second - θ₂| * (length3 x.point + Converge.concentrator x.heliostat) ≤ |x.second - θ₂| * (s + 2 * ρ) := mul_le_mul_of_nonneg_left (by linarith) (abs_nonneg _)
  have t3 := mul_le_mul_of_nonneg_right hD (by linarith : 0 ≤ s + 2 * ρ)
  linarith

theorem normal_unit (x : Ray) (hn : x.normal 3 = 0 ∧ length3 x.normal = 1) : UnitDirection (x.pose *ᵥ x.normal) :=
  ⟨by rw [(rigid_pose x).homogeneous]; exact hn.1, by rw [(rigid_pose x).length_dir _ hn.1]; exact hn.2⟩

theorem leave_turned (hx : x.Regular (u + η) R ρ s fcos fsin f) (hD : |x.first - θ₁| + |x.second - θ₂| ≤ D) : apart x.leave (turned x θ₁ θ₂).leave ≤ 22 / 10 * D := by
  have n1 := normal_unit x hx.normal
  have n2 : UnitDirection ((turned x θ₁ θ₂).pose *ᵥ x.normal) := normal_unit (turned x θ₁ θ₂) hx.normal
  have hi := hx.incident
  have t := turn x θ₁ θ₂ x.normal
  rw [hx.normal.1, hx.normal.2, abs_zero, zero_mul, zero_mul, add_zero, mul_one, mul_one] at t
  have e3 : reflect x.incident (x.pose *ᵥ x.normal) 3 = reflect x.incident ((turned x θ₁ θ₂).pose *ᵥ x.normal) 3 := by
    simp only [Intersect.reflect, Pi.sub_apply, Pi.smul_apply, smul_eq_mul, n1.1, n2.1, mul_zero]
  have k := scattered x.incident (x.pose *ᵥ x.normal) x.incident ((turned x θ₁ θ₂).pose *ᵥ x.normal) x.e x.u e3
  have w := reflect_normals x.incident (x.pose *ᵥ x.normal) ((turned x θ₁ θ₂).pose *ᵥ x.normal) hi.1 n1 n2
  have il : length3 x.incident ≤ 11 / 10 := Converge.length3_le_of_sq (by norm_num) (hi.2.trans (by norm_num))
  have l := Converge.length3_nonneg (x.pose *ᵥ x.normal - (turned x θ₁ θ₂).pose *ᵥ x.normal)
  have := mul_le_mul_of_nonneg_left il (mul_nonneg (by norm_num : (0 : ℝ) ≤ 2) l)
  have goal : apart x.leave (turned x θ₁ θ₂).leave = length3 (reflect x.incident (x.pose *ᵥ x.normal) - reflect x.incident ((turned x θ₁ θ₂).pose *ᵥ x.normal)) := k
  rw [goal]
  linarith

theorem leave_within (x : Ray) (hn : x.normal 3 = 0 ∧ length3 x.normal = 1) (hi : AtMostUnit x.incident) : Within (104 / 100) x.leave := by
  refine direction_within _ _ hi ⟨(normal_unit x hn).1, ?_⟩ x.e x.u
  rw [← length_sq, (normal_unit x hn).2]
  norm_num

/-- what rounding and wrong joint angles do to the direction together -/
theorem leave_both (A : Arithmetic rnd u η M) (hM : 1 ≤ M) (hP : P.Complete) (hx : x.Regular (u + η) R ρ s fcos fsin f) (hD : |x.first - θ₁| + |x.second - θ₂| ≤ D) :
    |(leave rnd fcos fsin f P x).e - (turned x θ₁ θ₂).leave.e| ≤ 2200 * units (u + η) D ∧ |(leave rnd fcos fsin f P x).n - (turned x θ₁ θ₂).leave.n| ≤ 2200 * units (u + η) D ∧
      |(leave rnd fcos fsin f P x).u - (turned x θ₁ θ₂).leave.u| ≤ 2200 * units (u + η) D := by
  have D0 : 0 ≤ D := (add_nonneg (abs_nonneg _) (abs_nonneg _)).trans hD
  obtain ⟨b1, b2, b3⟩ := leave_near A hM hP hx
  have c := leave_turned hx hD
  have d : (x.leave.e - (turned x θ₁ θ₂).leave.e) ^ 2 + (x.leave.n - (turned x θ₁ θ₂).leave.n) ^ 2 + (x.leave.u - (turned x θ₁ θ₂).leave.u) ^ 2 ≤ (22 / 10 * D) ^ 2 :=
    (Real.sqrt_le_left (by linarith)).1 c
  obtain ⟨d1, d2, d3⟩ := comp_le (by linarith) d
  have e : 2200 * units (u + η) D = 2200 * (u + η) + 22 / 10 * D := by unfold units; ring
  rw [e]
  exact ⟨(abs_sub_le _ x.leave.e _).trans (add_le_add b1 d1), (abs_sub_le _ x.leave.n _).trans (add_le_add b2 d2), (abs_sub_le _ x.leave.u _).trans (add_le_add b3 d3)⟩

/-- what the earlier parts give together -/
theorem moved (A : Arithmetic rnd u η M) (hM : 1 ≤ M) (hP : P.Complete) (hx : x.Regular (u + η) R ρ s fcos fsin f) (hD : |x.first - θ₁| + |x.second - θ₂| ≤ D)
    (m : Arrives (units (u + η) D) R ρ s r κ p t (turned x θ₁ θ₂)) {W H : Nat} (hW : 2 ≤ W) (hH : 2 ≤ H) :
    ∃ t', Meeting (u + η) (11 / 10 * r) (49 / 50 * κ) (start rnd fcos fsin f P x) (leave rnd fcos fsin f P x) p t' ∧
      |column W (start rnd fcos fsin f P x) (leave rnd fcos fsin f P x) p t' - column W (turned x θ₁ θ₂).start (turned x θ₁ θ₂).leave p t| + shift (u + η) (11 / 10 * r) (49 / 50 * κ) p.width W ≤
        pixels (units (u + η) D) R ρ s r κ p.width W ∧
      |RoundedLanding.row H (start rnd fcos fsin f P x) (leave rnd fcos fsin f P x) p t' - RoundedLanding.row H (turned x θ₁ θ₂).start (turned x θ₁ θ₂).leave p t| + shift (u + η) (11 / 10 * r) (49 / 50 * κ) p.height H ≤
        pixels (units (u + η) D) R ρ s r κ p.height H ∧
      |V3.dot (leave rnd fcos fsin f P x) p.normal - V3.dot (turned x θ₁ θ₂).leave p.normal| ≤ 3838 * units (u + η) D := by
  have hε : 0 ≤ u + η := add_nonneg A.u_nonneg A.η_nonneg
  have D0 : 0 ≤ D := (add_nonneg (abs_nonneg _) (abs_nonneg _)).trans hD
  have un : u + η ≤ units (u + η) D := by unfold units; linarith
  have hU : 0 ≤ units (u + η) D := hε.trans un
  obtain ⟨m, ⟨sr, Rr, ρr⟩, small⟩ := m
  obtain ⟨hR, hρ, _, _⟩ := hx.sized.facts hε
  obtain ⟨k0, k1, _⟩ := m.cosine
  have r1 := m.size
  have hs : 0 ≤ s := (Converge.length3_nonneg _).trans hx.point.2
  have σr : (1000 * s + 90 * R + 2000 * ρ + 269) * units (u + η) D ≤ κ * r / 100 := by
    have h1 := mul_le_mul_of_nonneg_left sr hU
    have h2 : 400000 * units (u + η) D * r ≤ κ * r := mul_le_mul_of_nonneg_right small (by linarith)
    have h3 := mul_le_mul_of_nonneg_left Rr hU
    have h4 := mul_le_mul_of_nonneg_left ρr hU
    have h5 := mul_le_mul_of_nonneg_left r1 hU
    linarith
  have sn : ((start rnd fcos fsin f P x).e - (turned x θ₁ θ₂).start.e) ^ 2 + ((start rnd fcos fsin f P x).n - (turned x θ₁ θ₂).start.n) ^ 2 + ((start rnd fcos fsin f P x).u - (turned x θ₁ θ₂).start.u) ^ 2 ≤
      ((1000 * s + 90 * R + 2000 * ρ + 269) * units (u + η) D) ^ 2 := by
    have a1 := (C130_point A hM hP.matrices P.point hP.point hx.sized hx.angles x.point hx.point.1 s hx.point.2).2
    have a2 := start_turned hε hx hD
    have a3 := Converge.length3_triangle (place rnd P.point (orientation rnd fcos fsin P.matrices f x.heliostat x.first x.second) x.point) (x.pose *ᵥ x.point) ((turned x θ₁ θ₂).pose *ᵥ x.point)
    have a4 := mul_nonneg D0 hs
    have a5 := mul_nonneg D0 hρ
    have a6 := mul_nonneg D0 hR
    have a7 := mul_nonneg hε hs
    have a8 := mul_nonneg hε hρ
    have a9 : length3 (place rnd P.point (orientation rnd fcos fsin P.matrices f x.heliostat x.first x.second) x.point - (turned x θ₁ θ₂).pose *ᵥ x.point) ≤ (1000 * s + 90 * R + 2000 * ρ + 269) * units (u + η) D := by
      refine a3.trans ((add_le_add a1 a2).trans ?_)
      unfold units
      linarith
    have k := pow_le_pow_left₀ (Converge.length3_nonneg _) a9 2
    rw [length_sq] at k
    exact k
  obtain ⟨t', me, ce, cu, cn⟩ := drifted hU m (by linarith) (leave_within (turned x θ₁ θ₂) hx.normal hx.incident) (by positivity) σr sn (leave_both A hM hP hx hD)
  have sh : ∀ {size : ℝ} {n : Nat}, 0 < size → 2 ≤ n →
      (214 / 100 * (1000 * s + 90 * R + 2000 * ρ + 269) + 5860 * r) * (units (u + η) D / κ) * (((n : ℝ) - 1) / size) + shift (u + η) (11 / 10 * r) (49 / 50 * κ) size n ≤ pixels (units (u + η) D) R ρ s r κ size n := by
    intro size n h0 hn
    have n1 : (0 : ℝ) ≤ (n : ℝ) - 1 := by
      have : (2 : ℝ) ≤ n := by exact_mod_cast hn
      linarith
    have q0 : 0 ≤ ((n : ℝ) - 1) / size := div_nonneg n1 h0.le
    have k := shift_small k0 hε (by linarith : 0 ≤ r) h0 hn
    have k2 : 113 * r * ((u + η) / κ) * (((n : ℝ) - 1) / size) ≤ 113 * r * (units (u + η) D / κ) * (((n : ℝ) - 1) / size) :=
      mul_le_mul_of_nonneg_right (mul_le_mul_of_nonneg_left (div_le_div_of_nonneg_right un k0.le) (by linarith)) q0
    refine (add_le_add le_rfl (k.trans k2)).trans ?_
    unfold pixels reach
    rw [← add_mul]
    refine mul_le_mul_of_nonneg_right ?_ q0
    rw [← add_mul]
    exact mul_le_mul_of_nonneg_right (by linarith) (by positivity)
  refine ⟨t', { me with small := by have := me.small; linarith }, ?_, ?_, cn⟩
  · have n1 : (0 : ℝ) ≤ (W : ℝ) - 1 := by
      have : (2 : ℝ) ≤ W := by exact_mod_cast hW
      linarith
    have q0 : 0 ≤ ((W : ℝ) - 1) / p.width := div_nonneg n1 m.width.1.le
    have e : column W (start rnd fcos fsin f P x) (leave rnd fcos fsin f P x) p t' - column W (turned x θ₁ θ₂).start (turned x θ₁ θ₂).leave p t =
        ((start rnd fcos fsin f P x + t' • leave rnd fcos fsin f P x).e - ((turned x θ₁ θ₂).start + t • (turned x θ₁ θ₂).leave).e) * (((W : ℝ) - 1) / p.width) := by
      unfold column
      ring
    rw [e, abs_mul, abs_of_nonneg q0]
    exact (add_le_add (mul_le_mul_of_nonneg_right ce q0) le_rfl).trans (sh m.width.1 hW)
  · have n1 : (0 : ℝ) ≤ (H : ℝ) - 1 := by
      have : (2 : ℝ) ≤ H := by exact_mod_cast hH
      linarith
    have q0 : 0 ≤ ((H : ℝ) - 1) / p.height := div_nonneg n1 m.height.1.le
    have e : RoundedLanding.row H (start rnd fcos fsin f P x) (leave rnd fcos fsin f P x) p t' - RoundedLanding.row H (turned x θ₁ θ₂).start (turned x θ₁ θ₂).leave p t =
        ((start rnd fcos fsin f P x + t' • leave rnd fcos fsin f P x).u - ((turned x θ₁ θ₂).start + t • (turned x θ₁ θ₂).leave).u) * (((H : ℝ) - 1) / p.height) := by
      unfold RoundedLanding.row
      ring
    rw [e, abs_mul, abs_of_nonneg q0]
    exact (add_le_add (mul_le_mul_of_nonneg_right cu q0) le_rfl).trans (sh m.height.1 hH)

end
end Artist.RoundedMotors
