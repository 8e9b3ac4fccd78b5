import Verif.Proofs.Kinematics
import Verif.Props.Actuators
/-!
# C24, C25, C26: forward kinematics, inverse kinematics, alignment
-/
namespace Artist
open Matrix Real Transforms Kinematics Intersect

/-! ### C24 -/

theorem offset_eq : orientationOffset = rotE (π / 2) := by
  have hn : ∀ v : Fin 3 → ℝ, v ⬝ᵥ v = 1 → normalizeEps (1 / 10 ^ 12) v = v := by
    intro v hv
    have : norm3 v = 1 := by rw [norm3, hv, sqrt_one]
    rw [normalizeEps_of_le (by rw [this]; norm_num), this, inv_one, one_smul]
  have h1 : normalizeEps (1 / 10 ^ 12) ![up 0, up 1, up 2] = ![0, 0, 1] := by
    rw [hn] <;> simp [up, dotProduct, Fin.sum_univ_three]
  have h2 : normalizeEps (1 / 10 ^ 12) ![south 0, south 1, south 2] = ![0, -1, 0] := by
    rw [hn] <;> simp [south, dotProduct, Fin.sum_univ_three]
  have h3 : normalizeEps (1 / 10 ^ 12) (crossProduct ![0, 0, 1] ![0, -1, 0]) = ![1, 0, 0] := by
    have : crossProduct ![0, 0, 1] ![0, -1, 0] = (![1, 0, 0] : Fin 3 → ℝ) := by
      simp [cross_apply]
    rw [this, hn]; simp [dotProduct, Fin.sum_univ_three]
  have h4 : decomposeRotations ![up 0, up 1, up 2] ![south 0, south 1, south 2] = ![π / 2, 0, 0] := by
    simp only [decomposeRotations, h1, h2, h3]
    have : (![0, 0, 1] : Fin 3 → ℝ) ⬝ᵥ ![0, -1, 0] = 0 := by simp [dotProduct, Fin.sum_univ_three]
    rw [this, Actuators.clamp]
    simp
  have r0 : rotN 0 = 1 := by
    ext i j; fin_cases i <;> fin_cases j <;> simp [rotN, one_apply]
  have r1 : rotU 0 = 1 := by
    ext i j; fin_cases i <;> fin_cases j <;> simp [rotU, one_apply]
  simp only [orientationOffset, h4]
  change rotE (π / 2) * rotN 0 * rotU 0 = _
  rw [r0, r1, Matrix.mul_one, Matrix.mul_one]

/-- C24: for all motor positions, deviations, positions and actuators of whatever kind the orientation is a rigid motion, with and
without the initial offset. -/
theorem C24_rigid (h : Heliostat) (m : ℝ × ℝ) : Rigid (h.forward m) ∧ Rigid (h.motorToOrientation m) := by
  refine ⟨rigid_forward h _ _, (rigid_forward h _ _).mul ?_⟩
  rw [offset_eq]; exact rigid_rotE _

/-- C24: so distances and angles between surface points are the same before and after alignment, points stay points and directions
directions, and normals keep their angles to each other. -/
theorem C24_preserves (h : Heliostat) (m : ℝ × ℝ) :
    (∀ v, (h.motorToOrientation m *ᵥ v) 3 = v 3) ∧
    (∀ p q, p 3 = 1 → q 3 = 1 →
      length3 (h.motorToOrientation m *ᵥ p - h.motorToOrientation m *ᵥ q) = length3 (p - q)) ∧
    (∀ o p q, o 3 = 1 → p 3 = 1 → q 3 = 1 →
      inner3 (h.motorToOrientation m *ᵥ p - h.motorToOrientation m *ᵥ o) (h.motorToOrientation m *ᵥ q - h.motorToOrientation m *ᵥ o) =
        inner3 (p - o) (q - o)) ∧
    (∀ v w, v 3 = 0 → w 3 = 0 →
      inner3 (h.motorToOrientation m *ᵥ v) (h.motorToOrientation m *ᵥ w) = inner3 v w) := by
  have hr := (C24_rigid h m).2
  exact ⟨hr.homogeneous, fun p q hp hq => hr.distance p q (hp.trans hq.symm),
    fun o p q ho hp hq => hr.angle o p q (hp.trans ho.symm) (hq.trans ho.symm), hr.inner_dir⟩

/-- C24: the normal of a surface sampled flat on the ground (up) becomes what the kinematics calls the concentrator normal. -/
theorem C24_surface_normal (h : Heliostat) (m : ℝ × ℝ) :
    h.motorToOrientation m *ᵥ ![0, 0, 1, 0] = h.forward m *ᵥ ![0, -1, 0, 0] := by
  rw [Heliostat.motorToOrientation, offset_eq, ← mulVec_mulVec]
  congr 1
  ext i; fin_cases i <;> simp [rotE, mulVec, dotProduct, Fin.sum_univ_four]

/-- C24: without deviations, the heliostat at angles zero stands at its position and faces south. -/
theorem C24_reference (h : Heliostat) (ht : h.translation = 0) (hr : h.rotation = 0) (m : ℝ × ℝ)
    (h1 : h.actuator1.toAngle m.1 = 0) (h2 : h.actuator2.toAngle m.2 = 0) :
    h.forward m = transl (h.position 0) (h.position 1) (h.position 2) := by
  have r0 : rotN 0 = 1 := by ext i j; fin_cases i <;> fin_cases j <;> simp [rotN, one_apply]
  have r1 : rotU 0 = 1 := by ext i j; fin_cases i <;> fin_cases j <;> simp [rotU, one_apply]
  have r2 : rotE 0 = 1 := by ext i j; fin_cases i <;> fin_cases j <;> simp [rotE, one_apply]
  have r3 : transl 0 0 0 = 1 := by ext i j; fin_cases i <;> fin_cases j <;> simp [transl, one_apply]
  simp [Heliostat.forward, Heliostat.anglesToOrientation, ht, hr, h1, h2, r0, r1, r2, r3]

/-! ### C25 -/

/-- A unit direction. -/
def UnitDirection (n : Fin 4 → ℝ) : Prop := n 3 = 0 ∧ length3 n = 1

/-- A normal that some joint angles produce. -/
def Reachable (h : Heliostat) (n : Fin 4 → ℝ) : Prop := ∃ a b, h.anglesToOrientation a b *ᵥ ![0, -1, 0, 0] = n

theorem length3_sq (v : Fin 4 → ℝ) : length3 v ^ 2 = v 0 ^ 2 + v 1 ^ 2 + v 2 ^ 2 := by
  rw [length3, Real.sq_sqrt (by positivity)]

theorem reachable_bound (h : Heliostat) (n : Fin 4 → ℝ) (hr : Reachable h n) :
    UnitDirection n ∧ |(h.deviation1ᵀ *ᵥ n) 0| ≤ |cos (h.rotation 3)| := by
  obtain ⟨a0, b0, hab⟩ := hr
  change h.anglesToOrientation a0 b0 *ᵥ south = n at hab
  have hs3 : south 3 = 0 := by simp [south]
  refine ⟨⟨?_, ?_⟩, ?_⟩
  · rw [← hab, (rigid_forward h a0 b0).homogeneous, hs3]
  · rw [← hab, (rigid_forward h a0 b0).length_dir _ hs3]; simp [length3, south]
  · have hn'v : h.deviation1ᵀ *ᵥ n = rotE a0 *ᵥ vOf h b0 := by
      rw [← hab, normal_of_angles, transpose_cancel' (orth_dev1 h)]
    have hn0 : (h.deviation1ᵀ *ᵥ n) 0 = cos (h.rotation 3) * sin b0 := by
      rw [hn'v, ← vOf_e]; simp [rotE, mulVec, dotProduct, Fin.sum_univ_four]
    rw [hn0, abs_mul]
    exact mul_le_of_le_one_right (abs_nonneg _) (abs_sin_le_one _)

/-- Any second joint angle that gets the component along the first axis right up to `ε`. -/
theorem reach_of_component (h : Heliostat) (ε : ℝ) (hε : 0 ≤ ε) (n : Fin 4 → ℝ) (hn : UnitDirection n) (b : ℝ)
    (hb : |vOf h b 0 - (h.deviation1ᵀ *ᵥ n) 0| ≤ ε) :
    length3 (h.anglesToOrientation (h.firstAngle (h.deviation1ᵀ *ᵥ n) b) b *ᵥ south - n) ^ 2 ≤ 2 * ε + ε ^ 2 := by
  set n' := h.deviation1ᵀ *ᵥ n with hn'
  have hrig : Rigid h.deviation1 := (rigid_rotN _).mul (rigid_rotU _)
  have hnn : h.deviation1 *ᵥ n' = n := transpose_cancel (orth_dev1 h) n
  have hn3 : n' 3 = 0 := by rw [← hrig.homogeneous n', hnn]; exact hn.1
  have hnu : n' 0 ^ 2 + n' 1 ^ 2 + n' 2 ^ 2 = 1 := by
    rw [← length3_sq, ← hrig.length_dir _ hn3, hnn, hn.2, one_pow]
  obtain ⟨w0, w3, w12, wd⟩ := firstAngle_spec h n' b
  rw [normal_of_angles]
  set w := rotE (h.firstAngle n' b) *ᵥ vOf h b with hw
  have hd : length3 (h.deviation1 *ᵥ w - n) = length3 (w - n') := by
    conv_lhs => rw [← hnn]
    exact hrig.distance w n' (w3.trans hn3.symm)
  rw [hd, length3_sq]
  simp only [Pi.sub_apply]
  have hvu := vOf_unit h b
  refine close_of_halfplane hε (by linarith) (by rw [w0, w12]; linarith) rfl ?_ ?_
  · rw [wd, w12]
  · rw [w0]; exact hb

/-- Both branches, at the level of joint angles. -/
theorem angles_reach (h : Heliostat) (ε : ℝ) (hε : 0 ≤ ε) (hε1 : ε ≤ 1) (hp : 0 < |cos (h.rotation 3)| + ε)
    (n : Fin 4 → ℝ) (hr : Reachable h n) :
    let s := h.jointAngles ε n
    length3 (h.anglesToOrientation s.1.1 s.1.2 *ᵥ south - n) ^ 2 ≤ 2 * ε + ε ^ 2 ∧
    length3 (h.anglesToOrientation s.2.1 s.2.2 *ᵥ south - n) ^ 2 ≤ 2 * ε + ε ^ 2 := by
  intro s
  obtain ⟨hu, hc⟩ := reachable_bound h n hr
  set n' := h.deviation1ᵀ *ᵥ n with hn'
  obtain ⟨e1, e2⟩ := dev2_entries h
  have hden : √((h.deviation2 0 0) ^ 2 + (h.deviation2 0 1) ^ 2) = |cos (h.rotation 3)| := by
    rw [e1, e2]; simp [Real.sqrt_sq_eq_abs]
  obtain ⟨k1, k2, k3⟩ := clamp_near (abs_nonneg _) (abs_cos_le_one _) hc hε hε1 hp
  set ρ := Actuators.clamp (n' 0 / (|cos (h.rotation 3)| + ε)) (-1 + ε) (1 - ε) with hρ
  obtain ⟨b1, b2⟩ := arcsin_branch h k2 k3
  have hs : s = ((h.firstAngle n' (Heliostat.wrap (arcsin ρ - atan2 (-(h.deviation2 0 1)) (h.deviation2 0 0))),
        Heliostat.wrap (arcsin ρ - atan2 (-(h.deviation2 0 1)) (h.deviation2 0 0))),
      (h.firstAngle n' (Heliostat.wrap (π - arcsin ρ - atan2 (-(h.deviation2 0 1)) (h.deviation2 0 0))),
        Heliostat.wrap (π - arcsin ρ - atan2 (-(h.deviation2 0 1)) (h.deviation2 0 0)))) := by
    simp only [s, Heliostat.jointAngles, hden, ← hn', ← hρ]
  rw [hs]
  exact ⟨reach_of_component h ε hε n hu _ (by rw [b1]; exact k1), reach_of_component h ε hε n hu _ (by rw [b2]; exact k1)⟩

theorem eq_of_length3_zero {x n : Fin 4 → ℝ} (hx : x 3 = n 3) (h : length3 (x - n) ^ 2 ≤ 0) : x = n := by
  rw [length3_sq] at h
  simp only [Pi.sub_apply] at h
  have q0 := sq_nonneg (x 0 - n 0)
  have q1 := sq_nonneg (x 1 - n 1)
  have q2 := sq_nonneg (x 2 - n 2)
  have r0 : x 0 - n 0 = 0 := pow_eq_zero_iff (two_ne_zero) |>.1 (by nlinarith)
  have r1 : x 1 - n 1 = 0 := pow_eq_zero_iff (two_ne_zero) |>.1 (by nlinarith)
  have r2 : x 2 - n 2 = 0 := pow_eq_zero_iff (two_ne_zero) |>.1 (by nlinarith)
  ext i
  fin_cases i
  · exact sub_eq_zero.1 r0
  · exact sub_eq_zero.1 r1
  · exact sub_eq_zero.1 r2
  · exact hx

/-- C25: for every reachable unit normal, both solutions of the inverse kinematics produce that normal up to the epsilon of the
code: the squared distance is at most `2 ε + ε²`, and the normal is met exactly if `ε = 0`. (`ε = 0` needs a second joint axis
that is not parallel to the first one, else the code divides by zero.) -/
theorem C25_both_branches (h : Heliostat) (ε : ℝ) (hε : 0 ≤ ε) (hε1 : ε ≤ 1) (hp : cos (h.rotation 3) ≠ 0 ∨ 0 < ε)
    (n : Fin 4 → ℝ) (hr : Reachable h n) (s : ℝ × ℝ) (hs : s = (h.jointAngles ε n).1 ∨ s = (h.jointAngles ε n).2) :
    length3 (h.anglesToOrientation s.1 s.2 *ᵥ ![0, -1, 0, 0] - n) ≤ √(2 * ε + ε ^ 2) ∧
    (ε = 0 → h.anglesToOrientation s.1 s.2 *ᵥ ![0, -1, 0, 0] = n) := by
  have hp' : 0 < |cos (h.rotation 3)| + ε := by
    rcases hp with hp | hp
    · have := abs_pos.2 hp; linarith
    · have := abs_nonneg (cos (h.rotation 3)); linarith
  obtain ⟨r1, r2⟩ := angles_reach h ε hε hε1 hp' n hr
  have key : length3 (h.anglesToOrientation s.1 s.2 *ᵥ ![0, -1, 0, 0] - n) ^ 2 ≤ 2 * ε + ε ^ 2 := by
    rcases hs with hs | hs <;> rw [hs]
    · exact r1
    · exact r2
  refine ⟨Real.le_sqrt_of_sq_le key, ?_⟩
  intro h0
  refine eq_of_length3_zero ?_ (by rw [h0] at key; simpa using key)
  rw [(rigid_forward h s.1 s.2).homogeneous, (reachable_bound h n hr).1.1]; simp

/-- C25: the joint angles computed lie in (-π, π]. -/
theorem C25_angle_range (h : Heliostat) (ε : ℝ) (n : Fin 4 → ℝ) (s : ℝ × ℝ)
    (hs : s = (h.jointAngles ε n).1 ∨ s = (h.jointAngles ε n).2) : (-π < s.1 ∧ s.1 ≤ π) ∧ (-π < s.2 ∧ s.2 ≤ π) := by
  rcases hs with rfl | rfl <;> exact ⟨wrap_mem _, wrap_mem _⟩

/-- C25: driving the motors to the positions of the inverse kinematics makes the heliostat's normal the requested one (up to
epsilon), provided the actuators can realise the joint angles chosen, as proved in C27. -/
theorem C25_motors (h : Heliostat) (ε : ℝ) (hε : 0 ≤ ε) (hε1 : ε ≤ 1) (hp : cos (h.rotation 3) ≠ 0 ∨ 0 < ε)
    (n : Fin 4 → ℝ) (hr : Reachable h n)
    (hact : ∀ s, s = (h.jointAngles ε n).1 ∨ s = (h.jointAngles ε n).2 →
      h.actuator1.toAngle (h.actuator1.toMotor s.1) = s.1 ∧ h.actuator2.toAngle (h.actuator2.toMotor s.2) = s.2) :
    length3 (h.forward (h.inverse ε n).1 *ᵥ ![0, -1, 0, 0] - n) ≤ √(2 * ε + ε ^ 2) ∧
    (ε = 0 → h.forward (h.inverse ε n).1 *ᵥ ![0, -1, 0, 0] = n) := by
  have : ∃ s, (s = (h.jointAngles ε n).1 ∨ s = (h.jointAngles ε n).2) ∧ (h.inverse ε n).1 = h.motors s := by
    by_cases hl : h.InLimits (h.motors (h.jointAngles ε n).1)
    · exact ⟨_, Or.inl rfl, by simp [Heliostat.inverse, hl]⟩
    · exact ⟨_, Or.inr rfl, by simp [Heliostat.inverse, hl]⟩
  obtain ⟨s, hs, hm⟩ := this
  have hf : h.forward (h.inverse ε n).1 = h.anglesToOrientation s.1 s.2 := by
    rw [hm, Heliostat.forward, Heliostat.motors]; simp only [(hact s hs).1, (hact s hs).2]
  rw [hf]
  exact C25_both_branches h ε hε hε1 hp n hr s hs

/-- C25: with ideal actuators there is nothing left to assume. -/
theorem C25_ideal (h : Heliostat) (a₁ a₂ : Actuators.Ideal) (h1 : h.actuator1 = a₁.actuator) (h2 : h.actuator2 = a₂.actuator)
    (ε : ℝ) (hε : 0 < ε) (hε1 : ε ≤ 1) (n : Fin 4 → ℝ) (hr : Reachable h n) :
    length3 (h.forward (h.inverse ε n).1 *ᵥ ![0, -1, 0, 0] - n) ≤ √(2 * ε + ε ^ 2) :=
  (C25_motors h ε hε.le hε1 (Or.inr hε) n hr (fun s _ => by rw [h1, h2]; exact ⟨rfl, rfl⟩)).1

/-- C25: which normals are reachable: exactly the unit directions whose component along the first joint axis does not exceed
the cosine of the north tilt of the second joint. -/
theorem C25_reachable_iff (h : Heliostat) (n : Fin 4 → ℝ) :
    Reachable h n ↔ UnitDirection n ∧ |((rotN (h.rotation 0) * rotU (h.rotation 1))ᵀ *ᵥ n) 0| ≤ |cos (h.rotation 3)| := by
  constructor
  · exact reachable_bound h n
  · rintro ⟨hu, hc⟩
    change |(h.deviation1ᵀ *ᵥ n) 0| ≤ _ at hc
    set b := arcsin ((h.deviation1ᵀ *ᵥ n) 0 / cos (h.rotation 3)) with hb
    have hv : vOf h b 0 = (h.deviation1ᵀ *ᵥ n) 0 := by
      rw [vOf_e, hb]
      by_cases h0 : cos (h.rotation 3) = 0
      · rw [h0, abs_zero] at hc
        rw [h0, zero_mul]; exact (abs_nonpos_iff.1 hc).symm
      · have hq : |(h.deviation1ᵀ *ᵥ n) 0 / cos (h.rotation 3)| ≤ 1 := by
          rw [abs_div, div_le_one (abs_pos.2 h0)]; exact hc
        rw [sin_arcsin (abs_le.1 hq).1 (abs_le.1 hq).2]; field_simp
    have := reach_of_component h 0 le_rfl n hu b (by rw [hv]; simp)
    refine ⟨_, b, eq_of_length3_zero ?_ (by simpa [south] using this)⟩
    rw [(rigid_forward h _ b).homogeneous, hu.1]; simp

/-- C25: the motor positions returned are inside the limits whenever one of the two solutions is; the first one is preferred, and
the warning is given exactly if neither is inside. -/
theorem C25_limits (h : Heliostat) (ε : ℝ) (n : Fin 4 → ℝ) :
    let s := h.jointAngles ε n
    (h.InLimits (h.motors s.1) → (h.inverse ε n).1 = h.motors s.1) ∧
    (h.InLimits (h.motors s.1) ∨ h.InLimits (h.motors s.2) → h.InLimits (h.inverse ε n).1) ∧
    ((h.inverse ε n).2 = true ↔ ¬ h.InLimits (h.inverse ε n).1) := by
  intro s
  by_cases h1 : h.InLimits (h.motors s.1)
  · simp [Heliostat.inverse, s, h1] at *
  · simp [Heliostat.inverse, s, h1] at *

/-- An undisturbed heliostat with ideal actuators reaches every unit direction. -/
noncomputable def heliostatExample : Heliostat :=
  { position := ![10, 20, 30, 1], translation := 0, rotation := 0,
    actuator1 := (Actuators.Ideal.mk (-4) 4).actuator, actuator2 := (Actuators.Ideal.mk (-4) 4).actuator }

theorem heliostatExample_reachable (n : Fin 4 → ℝ) (hn : UnitDirection n) : Reachable heliostatExample n := by
  have r0 : rotN 0 = 1 := by ext i j; fin_cases i <;> fin_cases j <;> simp [rotN, one_apply]
  have r1 : rotU 0 = 1 := by ext i j; fin_cases i <;> fin_cases j <;> simp [rotU, one_apply]
  rw [C25_reachable_iff]
  refine ⟨hn, ?_⟩
  have h2 := hn.2
  have : length3 n ^ 2 = 1 := by rw [h2, one_pow]
  rw [length3_sq] at this
  simp [heliostatExample, r0, r1]
  rw [← sq_le_one_iff_abs_le_one]
  nlinarith [sq_nonneg (n 1), sq_nonneg (n 2)]

example : length3 (heliostatExample.forward (heliostatExample.inverse (1 / 10 ^ 8) ![3 / 5, 0, 4 / 5, 0]).1 *ᵥ ![0, -1, 0, 0] -
    ![3 / 5, 0, 4 / 5, 0]) ≤ √(2 * (1 / 10 ^ 8) + (1 / 10 ^ 8) ^ 2) := by
  refine C25_ideal heliostatExample _ _ rfl rfl _ (by norm_num) (by norm_num) _ (heliostatExample_reachable _ ⟨by simp, ?_⟩)
  simp [length3]; norm_num

/-! ### C26 -/

theorem loop_spec {k : Nat} (t : Task k) (minEps : ℝ) (n : Nat) (last : Option (Fin k → ℝ)) (m : Fin k → ℝ × ℝ) :
    ∃ j ≤ n, (t.loop minEps n last m).1 = t.orientations (t.next^[j] m) ∧
      ((t.loop minEps n last m).2 = t.next^[j] m ∨ (j = n ∧ (t.loop minEps n last m).2 = t.next^[n + 1] m)) := by
  induction n generalizing last m with
  | zero =>
    rw [Task.loop]
    split_ifs
    · exact ⟨0, le_rfl, rfl, Or.inl rfl⟩
    · exact ⟨0, le_rfl, rfl, Or.inr ⟨rfl, rfl⟩⟩
  | succ n ih =>
    rw [Task.loop]
    split_ifs
    · exact ⟨0, Nat.zero_le _, rfl, Or.inl rfl⟩
    · obtain ⟨j, hj, h1, h2⟩ := ih (some (t.losses m)) (t.next m)
      refine ⟨j + 1, by omega, h1, ?_⟩
      rcases h2 with h2 | ⟨h2, h3⟩
      · exact Or.inl h2
      · exact Or.inr ⟨by omega, h3⟩

/-- The motor positions before iteration `j`: the motors start at zero and every iteration moves them to where the inverse kinematics
wants them for the normal desired at the current orientation. -/
noncomputable def iterate {k : Nat} (t : Task k) (j : Nat) : Fin k → ℝ × ℝ := t.next^[j] (fun _ => (0, 0))

/-- C26: exactly what alignment returns and stores: the orientation of some iteration, and the motor positions of that iteration
or, only if all iterations were used up, of the following one. -/
theorem C26_result {k : Nat} (t : Task k) (n : Nat) (minEps : ℝ) (o : Fin k → Mat) (m : Fin k → ℝ × ℝ)
    (h : t.align n minEps = .ok (o, m)) :
    ∃ j < n, (j = 0 → n = 1) ∧ (∀ i, o i = (t.heliostat i).motorToOrientation (iterate t j i)) ∧
      (m = iterate t j ∨ (j + 1 = n ∧ m = iterate t n)) := by
  cases n with
  | zero => simp [Task.align] at h
  | succ n =>
    have : ∃ j ≤ n, (j = 0 → n = 0) ∧ (t.loop minEps n none (fun _ => (0, 0))).1 = t.orientations (t.next^[j] (fun _ => (0, 0))) ∧
        ((t.loop minEps n none (fun _ => (0, 0))).2 = t.next^[j] (fun _ => (0, 0)) ∨
          (j = n ∧ (t.loop minEps n none (fun _ => (0, 0))).2 = t.next^[n + 1] (fun _ => (0, 0)))) := by
      cases n with
      | zero =>
        obtain ⟨j, hj, h1, h2⟩ := loop_spec t minEps 0 none (fun _ => (0, 0))
        exact ⟨j, hj, fun _ => rfl, h1, h2⟩
      | succ n =>
        obtain ⟨j, hj, h1, h2⟩ := loop_spec t minEps n (some (t.losses (fun _ => (0, 0)))) (t.next (fun _ => (0, 0)))
        rw [Task.loop, if_neg (by simp)]
        refine ⟨j + 1, by omega, by omega, h1, ?_⟩
        rcases h2 with h2 | ⟨h2, h3⟩
        · exact Or.inl h2
        · exact Or.inr ⟨by omega, h3⟩
    obtain ⟨j, hj, hj0, h1, h2⟩ := this
    simp only [Task.align, Except.ok.injEq, Prod.mk.injEq] at h
    obtain ⟨ho, hm⟩ := h
    refine ⟨j, by omega, by omega, ?_, ?_⟩
    · intro i; rw [← ho, h1]; rfl
    · rw [← hm]
      rcases h2 with h2 | ⟨h2, h3⟩
      · exact Or.inl h2
      · exact Or.inr ⟨by omega, h3⟩

theorem loop_converged {k : Nat} (t : Task k) (minEps : ℝ) (n : Nat) (last : Option (Fin k → ℝ)) (m : Fin k → ℝ × ℝ)
    (h : (∃ l, last = some l ∧ ∀ i, |l i - t.losses m i| ≤ minEps) ∨
      ∃ j < n, ∀ i, |t.losses (t.next^[j] m) i - t.losses (t.next^[j + 1] m) i| ≤ minEps) :
    (t.loop minEps n last m).1 = t.orientations (t.loop minEps n last m).2 := by
  induction n generalizing last m with
  | zero =>
    rcases h with h | ⟨j, hj, _⟩
    · rw [Task.loop]; simp only [if_pos h]
    · omega
  | succ n ih =>
    rw [Task.loop]
    split_ifs with hl
    · rfl
    · rcases h with h | ⟨j, hj, hd⟩
      · exact absurd h hl
      · apply ih
        cases j with
        | zero => exact Or.inl ⟨_, rfl, hd⟩
        | succ j => exact Or.inr ⟨j, by omega, hd⟩

/-- C26 (partial): if the losses of all heliostats settle (change by at most `min_eps`) within the allowed iterations, the stored motor
positions reproduce the returned orientations.  Missing: the case that they do not settle, where the claim is false
(`C26_mismatch`). -/
theorem C26_converged_partial {k : Nat} (t : Task k) (n : Nat) (minEps : ℝ) (o : Fin k → Mat) (m : Fin k → ℝ × ℝ)
    (h : t.align n minEps = .ok (o, m))
    (hc : ∃ j, j + 1 < n ∧ ∀ i, |t.losses (iterate t j) i - t.losses (iterate t (j + 1)) i| ≤ minEps) (i : Fin k) :
    o i = (t.heliostat i).motorToOrientation (m i) := by
  cases n with
  | zero => simp [Task.align] at h
  | succ n =>
    obtain ⟨j, hj, hd⟩ := hc
    have := loop_converged t minEps n none (fun _ => (0, 0)) (Or.inr ⟨j, by omega, hd⟩)
    simp only [Task.align, Except.ok.injEq, Prod.mk.injEq] at h
    obtain ⟨ho, hm⟩ := h
    rw [← ho, ← hm, this]; rfl

/-- Heliostats whose concentrator origin does not move with the joints. -/
def FixedOrigin (h : Heliostat) : Prop := ∀ j : Fin 9, 3 ≤ j.val → h.translation j = 0

theorem origin_fixed (h : Heliostat) (hf : FixedOrigin h) (a b a' b' : ℝ) :
    h.anglesToOrientation a b *ᵥ origin = h.anglesToOrientation a' b' *ᵥ origin := by
  have t0 : transl 0 0 0 = 1 := by ext i j; fin_cases i <;> fin_cases j <;> simp [transl, one_apply]
  have hE : ∀ x, rotE x *ᵥ origin = origin := by
    intro x; ext i; fin_cases i <;> simp [rotE, origin, mulVec, dotProduct, Fin.sum_univ_four]
  have hN : ∀ x, rotN x *ᵥ origin = origin := by
    intro x; ext i; fin_cases i <;> simp [rotN, origin, mulVec, dotProduct, Fin.sum_univ_four]
  have hU : ∀ x, rotU x *ᵥ origin = origin := by
    intro x; ext i; fin_cases i <;> simp [rotU, origin, mulVec, dotProduct, Fin.sum_univ_four]
  have e3 := hf 3 (by decide)
  have e4 := hf 4 (by decide)
  have e5 := hf 5 (by decide)
  have e6 := hf 6 (by decide)
  have e7 := hf 7 (by decide)
  have e8 := hf 8 (by decide)
  simp only [Heliostat.anglesToOrientation, e3, e4, e5, e6, e7, e8, t0, one_mul, Matrix.mul_one, ← mulVec_mulVec, hE, hN, hU]

theorem next_const {k : Nat} (t : Task k) (hf : ∀ i, FixedOrigin (t.heliostat i)) (m m' : Fin k → ℝ × ℝ) : t.next m = t.next m' := by
  funext i
  have : t.desired m i = t.desired m' i := by
    simp only [Task.desired, Heliostat.desiredNormal, Task.orientations, Heliostat.forward]
    rw [origin_fixed (t.heliostat i) (hf i) _ _ ((t.heliostat i).actuator1.toAngle (m' i).1)
      ((t.heliostat i).actuator2.toAngle (m' i).2)]
  rw [Task.next, Task.next, this]

/-- C26: for heliostats without translations behind the first joint, two iterations are enough for the stored motor positions
to reproduce the returned orientations, whatever the tolerance. -/
theorem C26_fixed_origin {k : Nat} (t : Task k) (hf : ∀ i, FixedOrigin (t.heliostat i)) (n : Nat) (hn : 2 ≤ n) (minEps : ℝ)
    (o : Fin k → Mat) (m : Fin k → ℝ × ℝ) (h : t.align n minEps = .ok (o, m)) (i : Fin k) :
    o i = (t.heliostat i).motorToOrientation (m i) := by
  obtain ⟨j, hj, _, ho, hm⟩ := C26_result t n minEps o m h
  rcases hm with hm | ⟨hj', hm⟩
  · rw [hm]; exact ho i
  · rw [ho i, hm]
    have : iterate t j = iterate t n := by
      obtain ⟨j', rfl⟩ : ∃ j', j = j' + 1 := ⟨j - 1, by omega⟩
      rw [← hj', iterate, iterate, Function.iterate_succ_apply', Function.iterate_succ_apply']
      exact next_const t hf _ _
    rw [this]

/-- C26: without iterations there is no result but an `UnboundLocalError`. -/
theorem C26_no_iterations {k : Nat} (t : Task k) (minEps : ℝ) : t.align 0 minEps = .error .unboundLocal := rfl

end Artist
