import Verif.Props.Kinematics
import Mathlib.Analysis.Real.Pi.Bounds
/-!
# C26 (counterexample with the default parameters) and C56: alignment reflects the sun onto the aim point
-/
namespace Artist
open Matrix Real Transforms Kinematics Intersect

/-! ### C26: motor positions and orientations that do not match -/

/-- A heliostat at the origin whose mirror centre is one metre in front of the joints. -/
noncomputable def offsetHeliostat : Heliostat :=
  { position := ![0, 0, 0, 1], translation := ![0, 0, 0, 0, 0, 0, 0, -1, 0], rotation := 0,
    actuator1 := (Actuators.Ideal.mk (-4) 4).actuator, actuator2 := (Actuators.Ideal.mk (-4) 4).actuator }

/-- The sun straight above, the aim point one metre north of the heliostat. -/
noncomputable def offsetTask : Task 1 :=
  { heliostat := fun _ => offsetHeliostat, incident := fun _ => ![0, 0, -1, 0], aim := fun _ => ![0, 1, 0, 1] }

theorem offset_forward (m : ℝ × ℝ) : offsetHeliostat.forward m = rotE m.1 * rotU m.2 * transl 0 (-1) 0 := by
  have r0 : rotN 0 = 1 := by ext i j; fin_cases i <;> fin_cases j <;> simp [rotN, one_apply]
  have r1 : rotU 0 = 1 := by ext i j; fin_cases i <;> fin_cases j <;> simp [rotU, one_apply]
  have r2 : rotE 0 = 1 := by ext i j; fin_cases i <;> fin_cases j <;> simp [rotE, one_apply]
  have r3 : transl 0 0 0 = 1 := by ext i j; fin_cases i <;> fin_cases j <;> simp [transl, one_apply]
  simp [Heliostat.forward, Heliostat.anglesToOrientation, offsetHeliostat, Actuators.Ideal.actuator, Actuators.Ideal.toAngle, r0, r1, r2]
  have e3 : (![0, 0, 0, 0, 0, 0, 0, -1, 0] : Fin 9 → ℝ) 3 = 0 := rfl
  have e4 : (![0, 0, 0, 0, 0, 0, 0, -1, 0] : Fin 9 → ℝ) 4 = 0 := rfl
  have e5 : (![0, 0, 0, 0, 0, 0, 0, -1, 0] : Fin 9 → ℝ) 5 = 0 := rfl
  have e6 : (![0, 0, 0, 0, 0, 0, 0, -1, 0] : Fin 9 → ℝ) 6 = 0 := rfl
  have e7 : (![0, 0, 0, 0, 0, 0, 0, -1, 0] : Fin 9 → ℝ) 7 = -1 := rfl
  have e8 : (![0, 0, 0, 0, 0, 0, 0, -1, 0] : Fin 9 → ℝ) 8 = 0 := rfl
  simp [e3, e4, e5, e6, e7, e8, r3]

/-- The mirror stands in the plane north-up at angle `ν`. -/
def At (m : ℝ × ℝ) (ν : ℝ) : Prop :=
  offsetHeliostat.forward m *ᵥ south = ![0, cos ν, sin ν, 0] ∧ offsetHeliostat.forward m *ᵥ origin = ![0, cos ν, sin ν, 1]

theorem at_of_normal {m : ℝ × ℝ} {ν : ℝ} (h : offsetHeliostat.forward m *ᵥ south = ![0, cos ν, sin ν, 0]) : At m ν := by
  refine ⟨h, ?_⟩
  have h1 : transl 0 (-1) 0 *ᵥ origin = transl 0 (-1) 0 *ᵥ south + origin := by
    ext i; fin_cases i <;> simp [transl, origin, south, mulVec, dotProduct, Fin.sum_univ_four]
  have h2 : (rotE m.1 * rotU m.2) *ᵥ origin = origin := by
    ext i; fin_cases i <;> simp [rotE, rotU, origin, mulVec, dotProduct, Fin.sum_univ_four, mul_apply]
  rw [offset_forward, ← mulVec_mulVec, h1, mulVec_add, h2, mulVec_mulVec, ← offset_forward, h]
  ext i; fin_cases i <;> simp [origin]

theorem normalize_scaled {eps c : ℝ} {v : Fin 3 → ℝ} (hc : eps ≤ c) (hc0 : 0 < c) (hv : v ⬝ᵥ v = 1) :
    normalizeEps eps (c • v) = v := by
  have hn : norm3 v = 1 := by rw [norm3, hv, sqrt_one]
  have : norm3 (c • v) = c := by rw [norm3_smul c hc0.le, hn, mul_one]
  rw [normalizeEps_of_le (by rw [this]; exact hc), this, smul_smul, inv_mul_cancel₀ hc0.ne', one_smul]

theorem at_desired {M : Mat} {ν : ℝ} (h : M *ᵥ origin = ![0, cos ν, sin ν, 1]) (h0 : π / 64 ≤ ν) (h1 : ν ≤ π) :
    Heliostat.desiredNormal ![0, 0, -1, 0] ![0, 1, 0, 1] M = ![0, cos (ν / 4), sin (ν / 4), 0] := by
  have hpi := pi_pos
  have s2 : (1 : ℝ) / 64 ≤ sin (ν / 2) := by
    have := mul_le_sin (x := ν / 2) (by linarith) (by linarith)
    have : 2 / π * (ν / 2) ≥ 1 / 64 := by
      rw [ge_iff_le, div_mul_eq_mul_div, le_div_iff₀ hpi]; linarith
    linarith
  have s4 : (1 : ℝ) / 128 ≤ sin (ν / 4) := by
    have := mul_le_sin (x := ν / 4) (by linarith) (by linarith)
    have : 2 / π * (ν / 4) ≥ 1 / 128 := by
      rw [ge_iff_le, div_mul_eq_mul_div, le_div_iff₀ hpi]; linarith
    linarith
  have ea : cos ν = 1 - 2 * sin (ν / 2) ^ 2 := by
    have := cos_two_mul (ν / 2)
    have h2 := sin_sq_add_cos_sq (ν / 2)
    rw [show 2 * (ν / 2) = ν by ring] at this; linarith
  have eb : sin ν = 2 * sin (ν / 2) * cos (ν / 2) := by
    have := sin_two_mul (ν / 2)
    rwa [show 2 * (ν / 2) = ν by ring] at this
  have ec : cos (ν / 2) = 1 - 2 * sin (ν / 4) ^ 2 := by
    have := cos_two_mul (ν / 4)
    have h2 := sin_sq_add_cos_sq (ν / 4)
    rw [show 2 * (ν / 4) = ν / 2 by ring] at this; linarith
  have ed : sin (ν / 2) = 2 * sin (ν / 4) * cos (ν / 4) := by
    have := sin_two_mul (ν / 4)
    rwa [show 2 * (ν / 4) = ν / 2 by ring] at this
  have hr : normalizeEps (1 / 10 ^ 8) ![(![0, 1, 0, 1] : Fin 4 → ℝ) 0 - (M *ᵥ origin) 0,
      (![0, 1, 0, 1] : Fin 4 → ℝ) 1 - (M *ᵥ origin) 1, (![0, 1, 0, 1] : Fin 4 → ℝ) 2 - (M *ᵥ origin) 2] =
      ![0, sin (ν / 2), -cos (ν / 2)] := by
    rw [← normalize_scaled (eps := 1 / 10 ^ 8) (c := 2 * sin (ν / 2)) (v := ![0, sin (ν / 2), -cos (ν / 2)])
      (by norm_num; linarith) (by linarith)
      (by simp [dotProduct, Fin.sum_univ_three]; nlinarith [sin_sq_add_cos_sq (ν / 2)])]
    congr 1
    rw [h]
    ext i; fin_cases i
    · simp
    · simp; rw [ea]; ring
    · simp; rw [eb]
  have hd : normalizeEps (1 / 10 ^ 8) ![0, sin (ν / 2), 1 - cos (ν / 2)] = ![0, cos (ν / 4), sin (ν / 4)] := by
    rw [← normalize_scaled (eps := 1 / 10 ^ 8) (c := 2 * sin (ν / 4)) (v := ![0, cos (ν / 4), sin (ν / 4)])
      (by norm_num; linarith) (by linarith)
      (by simp [dotProduct, Fin.sum_univ_three]; nlinarith [sin_sq_add_cos_sq (ν / 4)])]
    congr 1
    ext i; fin_cases i
    · simp
    · simp; rw [ed]
    · simp; rw [ec]; ring
  simp only [Heliostat.desiredNormal]
  rw [hr]
  have : (![-(![0, 0, -1, 0] : Fin 4 → ℝ) 0 + (![0, sin (ν / 2), -cos (ν / 2)] : Fin 3 → ℝ) 0,
      -(![0, 0, -1, 0] : Fin 4 → ℝ) 1 + (![0, sin (ν / 2), -cos (ν / 2)] : Fin 3 → ℝ) 1,
      -(![0, 0, -1, 0] : Fin 4 → ℝ) 2 + (![0, sin (ν / 2), -cos (ν / 2)] : Fin 3 → ℝ) 2] : Fin 3 → ℝ) =
      ![0, sin (ν / 2), 1 - cos (ν / 2)] := by
    ext i; fin_cases i <;> simp <;> ring
  rw [this, hd]
  ext i; fin_cases i <;> simp

theorem at_inverse (μ : ℝ) : At (offsetHeliostat.inverse (1 / 10 ^ 8) ![0, cos μ, sin μ, 0]).1 μ := by
  apply at_of_normal
  set d : Fin 4 → ℝ := ![0, cos μ, sin μ, 0] with hd
  have r0 : rotN 0 = 1 := by ext i j; fin_cases i <;> fin_cases j <;> simp [rotN, one_apply]
  have r1 : rotU 0 = 1 := by ext i j; fin_cases i <;> fin_cases j <;> simp [rotU, one_apply]
  have hdev : offsetHeliostat.deviation1 = 1 := by simp [Heliostat.deviation1, offsetHeliostat, r0, r1]
  have hn' : offsetHeliostat.deviation1ᵀ *ᵥ d = d := by rw [hdev]; simp
  have hd0 : d 0 = 0 := rfl
  have hu : UnitDirection d := by
    refine ⟨rfl, ?_⟩
    have : length3 d ^ 2 = 1 := by rw [length3_sq]; simp [hd]
    have h0 : 0 ≤ length3 d := Real.sqrt_nonneg _
    nlinarith
  set s := offsetHeliostat.jointAngles (1 / 10 ^ 8) d with hs
  have hlim : offsetHeliostat.InLimits (offsetHeliostat.motors s.1) := by
    have := C25_angle_range offsetHeliostat (1 / 10 ^ 8) d s.1 (Or.inl rfl)
    have hpi := pi_lt_four
    simp only [Heliostat.InLimits, Heliostat.motors, offsetHeliostat, Actuators.Ideal.actuator, Actuators.Ideal.toMotor]
    refine ⟨⟨?_, ?_⟩, ⟨?_, ?_⟩⟩ <;> linarith [this.1.1, this.1.2, this.2.1, this.2.2]
  have hinv : (offsetHeliostat.inverse (1 / 10 ^ 8) d).1 = offsetHeliostat.motors s.1 := (C25_limits _ _ _).1 hlim
  rw [hinv]
  have hf : offsetHeliostat.forward (offsetHeliostat.motors s.1) = offsetHeliostat.anglesToOrientation s.1.1 s.1.2 := rfl
  rw [hf]
  have hρ : Actuators.clamp ((offsetHeliostat.deviation1ᵀ *ᵥ d) 0 /
      (√((offsetHeliostat.deviation2 0 0) ^ 2 + (offsetHeliostat.deviation2 0 1) ^ 2) + 1 / 10 ^ 8)) (-1 + 1 / 10 ^ 8) (1 - 1 / 10 ^ 8) = 0 := by
    rw [hn', hd0, zero_div]; exact clamp_of_mem (by norm_num) (by norm_num)
  have hs2 : s.1.2 = Heliostat.wrap (arcsin 0 - atan2 (-(offsetHeliostat.deviation2 0 1)) (offsetHeliostat.deviation2 0 0)) := by
    simp only [hs, Heliostat.jointAngles, hρ]
  have hs1 : s.1.1 = offsetHeliostat.firstAngle (offsetHeliostat.deviation1ᵀ *ᵥ d) s.1.2 := rfl
  have hv : vOf offsetHeliostat s.1.2 0 = 0 := by
    rw [hs2, (arcsin_branch offsetHeliostat (ρ := 0) (by norm_num) (by norm_num)).1, mul_zero]
  have := reach_of_component offsetHeliostat 0 le_rfl d hu s.1.2 (by rw [hv, hn', hd0]; simp)
  rw [← hs1] at this
  exact eq_of_length3_zero (by rw [(rigid_forward _ _ _).homogeneous]; rfl) (by simpa using this)

theorem at_next {m : Fin 1 → ℝ × ℝ} {ν : ℝ} (h : At (m 0) ν) (h0 : π / 64 ≤ ν) (h1 : ν ≤ π) :
    At (offsetTask.next m 0) (ν / 4) ∧ offsetTask.desired m 0 = ![0, cos (ν / 4), sin (ν / 4), 0] := by
  have hd : offsetTask.desired m 0 = ![0, cos (ν / 4), sin (ν / 4), 0] := at_desired h.2 h0 h1
  refine ⟨?_, hd⟩
  rw [Task.next, hd]
  exact at_inverse (ν / 4)

theorem at_loss {m : Fin 1 → ℝ × ℝ} {ν : ℝ} (h : At (m 0) ν) (h0 : π / 64 ≤ ν) (h1 : ν ≤ π) :
    offsetTask.losses m 0 = (|cos (ν / 4) - cos ν| + |sin (ν / 4) - sin ν|) / 4 := by
  have hd := (at_next h h0 h1).2
  rw [Task.losses, Heliostat.loss, hd]
  have : offsetTask.orientations m 0 *ᵥ south = ![0, cos ν, sin ν, 0] := h.1
  rw [this]; simp

theorem offset_iterates : At (iterate offsetTask 0 0) π ∧ At (iterate offsetTask 1 0) (π / 4) ∧ At (iterate offsetTask 2 0) (π / 16) ∧
    At (iterate offsetTask 3 0) (π / 64) ∧ At (iterate offsetTask 4 0) (π / 256) := by
  have hpi := pi_pos
  have a0 : At (iterate offsetTask 0 0) π := by
    apply at_of_normal
    rw [offset_forward]
    ext i; fin_cases i <;>
      simp [iterate, rotE, rotU, transl, south, mulVec, dotProduct, Fin.sum_univ_four, mul_apply]
  have a1 : At (iterate offsetTask 1 0) (π / 4) := (at_next a0 (by linarith) le_rfl).1
  have a2 : At (iterate offsetTask 2 0) (π / 16) := by
    have := (at_next a1 (by linarith) (by linarith)).1
    rw [div_div] at this; norm_num at this
    rw [iterate, Function.iterate_succ_apply']; exact this
  have a3 : At (iterate offsetTask 3 0) (π / 64) := by
    have := (at_next a2 (by linarith) (by linarith)).1
    rw [div_div] at this; norm_num at this
    rw [iterate, Function.iterate_succ_apply']; exact this
  have a4 : At (iterate offsetTask 4 0) (π / 256) := by
    have := (at_next a3 (by linarith) (by linarith)).1
    rw [div_div] at this; norm_num at this
    rw [iterate, Function.iterate_succ_apply']; exact this
  exact ⟨a0, a1, a2, a3, a4⟩

theorem offset_losses :
    1 / 10 ^ 4 < |offsetTask.losses (iterate offsetTask 0) 0 - offsetTask.losses (iterate offsetTask 1) 0| ∧
    1 / 10 ^ 4 < |offsetTask.losses (iterate offsetTask 1) 0 - offsetTask.losses (iterate offsetTask 2) 0| ∧
    1 / 10 ^ 4 < |offsetTask.losses (iterate offsetTask 2) 0 - offsetTask.losses (iterate offsetTask 3) 0| := by
  have hpi := pi_pos
  have hpi3 := pi_gt_three
  have hpi4 := pi_lt_d2
  obtain ⟨a0, a1, a2, a3, _⟩ := offset_iterates
  have l0 := at_loss a0 (by linarith) le_rfl
  have l1 := at_loss a1 (by linarith) (by linarith)
  have l2 := at_loss a2 (by linarith) (by linarith)
  have l3 := at_loss a3 (by linarith) (by linarith)
  rw [show π / 4 / 4 = π / 16 by ring] at l1
  rw [show π / 16 / 4 = π / 64 by ring] at l2
  rw [show π / 64 / 4 = π / 256 by ring] at l3
  have hc : ∀ x y, 0 ≤ x → x ≤ y → y ≤ π → cos y ≤ cos x := fun x y h0 h1 h2 =>
    cos_le_cos_of_nonneg_of_le_pi h0 h2 h1
  have hs : ∀ x y, 0 ≤ x → x ≤ y → y ≤ π / 2 → sin x ≤ sin y := fun x y h0 h1 h2 =>
    sin_le_sin_of_le_of_le_pi_div_two (by linarith) h2 h1
  have c01 := hc (π / 4) π (by linarith) (by linarith) le_rfl
  have c12 := hc (π / 16) (π / 4) (by linarith) (by linarith) (by linarith)
  have c23 := hc (π / 64) (π / 16) (by linarith) (by linarith) (by linarith)
  have c34 := hc (π / 256) (π / 64) (by linarith) (by linarith) (by linarith)
  have s12 := hs (π / 16) (π / 4) (by linarith) (by linarith) (by linarith)
  have s23 := hs (π / 64) (π / 16) (by linarith) (by linarith) (by linarith)
  have s34 := hs (π / 256) (π / 64) (by linarith) (by linarith) (by linarith)
  have sp : 0 ≤ sin (π / 256) := sin_nonneg_of_nonneg_of_le_pi (by linarith) (by linarith)
  have e1 : cos (π / 4) = sin (π / 4) := by rw [cos_pi_div_four, sin_pi_div_four]
  have e1' : (7 : ℝ) / 10 ≤ sin (π / 4) := by
    rw [sin_pi_div_four]
    have : (1.4 : ℝ) ≤ √2 := by apply Real.le_sqrt_of_sq_le; norm_num
    linarith
  rw [abs_of_nonneg (by linarith [cos_pi]), cos_pi, sin_pi, abs_of_nonneg (by linarith)] at l0
  rw [abs_of_nonneg (by linarith), abs_of_nonpos (by linarith)] at l1
  rw [abs_of_nonneg (by linarith), abs_of_nonpos (by linarith)] at l2
  rw [abs_of_nonneg (by linarith), abs_of_nonpos (by linarith)] at l3
  have b2 : sin (π / 16) ≤ π / 16 := sin_le (by linarith)
  have b3 : sin (π / 64) ≤ π / 64 := sin_le (by linarith)
  have b2' : 1 - (π / 16) ^ 2 / 2 ≤ cos (π / 16) := one_sub_sq_div_two_le_cos
  have b3' : 1 - (π / 64) ^ 2 / 2 ≤ cos (π / 64) := one_sub_sq_div_two_le_cos
  have b2'' : 1 / 8 ≤ sin (π / 16) := by
    have := mul_le_sin (x := π / 16) (by linarith) (by linarith)
    rw [show 2 / π * (π / 16) = 1 / 8 by field_simp; norm_num] at this
    exact this
  have q2 : (π / 16) ^ 2 ≤ 4 / 100 := by nlinarith
  have q3 : (π / 64) ^ 2 ≤ 25 / 10000 := by nlinarith
  have m2 := cos_le_one (π / 16)
  have m3 := cos_le_one (π / 64)
  have m4 := cos_le_one (π / 256)
  refine ⟨?_, ?_, ?_⟩
  · rw [l0, l1]; refine lt_of_lt_of_le ?_ (le_abs_self _); linarith
  · rw [l1, l2]; refine lt_of_lt_of_le ?_ (le_abs_self _); linarith
  · rw [l2, l3]; refine lt_of_lt_of_le ?_ (le_abs_self _); linarith

/-- C26, refuted with the default parameters (4 iterations, tolerance 1e-4): if the iteration does not settle, the stored motor positions
are one step ahead and belong to another orientation than the one returned. -/
theorem C26_mismatch : ∃ o m, offsetTask.align 4 (1 / 10 ^ 4) = .ok (o, m) ∧
    o 0 ≠ (offsetTask.heliostat 0).motorToOrientation (m 0) := by
  obtain ⟨h1, h2, h3⟩ := offset_losses
  obtain ⟨_, _, _, a3, a4⟩ := offset_iterates
  have hloop : offsetTask.loop (1 / 10 ^ 4) 3 none (fun _ => (0, 0)) =
      (offsetTask.orientations (iterate offsetTask 3), iterate offsetTask 4) := by
    have key : ∀ j, 1 / 10 ^ 4 < |offsetTask.losses (iterate offsetTask j) 0 - offsetTask.losses (iterate offsetTask (j + 1)) 0| →
        ¬ ∃ l, some (offsetTask.losses (iterate offsetTask j)) = some l ∧
          ∀ i, |l i - offsetTask.losses (iterate offsetTask (j + 1)) i| ≤ 1 / 10 ^ 4 := by
      rintro j hj ⟨l, hl, hle⟩
      cases hl
      exact absurd (hle 0) (not_le.2 hj)
    have n1 : offsetTask.next (fun _ => (0, 0)) = iterate offsetTask 1 := rfl
    have n0 : (fun _ => (0, 0)) = iterate offsetTask 0 := rfl
    have n2 : offsetTask.next (iterate offsetTask 1) = iterate offsetTask 2 := by
      rw [iterate, iterate, ← Function.iterate_succ_apply' offsetTask.next]
    have n3 : offsetTask.next (iterate offsetTask 2) = iterate offsetTask 3 := by
      rw [iterate, iterate, ← Function.iterate_succ_apply' offsetTask.next]
    have n4 : offsetTask.next (iterate offsetTask 3) = iterate offsetTask 4 := by
      rw [iterate, iterate, ← Function.iterate_succ_apply' offsetTask.next]
    rw [Task.loop, if_neg (by simp)]
    rw [n1, n0, Task.loop, if_neg (key 0 h1)]
    rw [n2, Task.loop, if_neg (key 1 h2)]
    rw [n3, Task.loop, if_neg (key 2 h3)]
    rw [n4]
  refine ⟨_, _, by rw [Task.align, hloop], ?_⟩
  intro heq
  have hpi := pi_pos
  have hv := congrArg (fun M : Mat => M *ᵥ ![0, 0, 1, 0]) heq
  simp only at hv
  have e1 : (offsetTask.orientations (iterate offsetTask 3) 0 * orientationOffset) *ᵥ ![0, 0, 1, 0] = ![0, cos (π / 64), sin (π / 64), 0] :=
    (C24_surface_normal offsetHeliostat (iterate offsetTask 3 0)).trans a3.1
  have e2 : (offsetTask.heliostat 0).motorToOrientation (iterate offsetTask 4 0) *ᵥ ![0, 0, 1, 0] =
      ![0, cos (π / 256), sin (π / 256), 0] :=
    (C24_surface_normal offsetHeliostat (iterate offsetTask 4 0)).trans a4.1
  rw [e1, e2] at hv
  have : sin (π / 64) = sin (π / 256) := congrFun hv 2
  have hlt : sin (π / 256) < sin (π / 64) := sin_lt_sin_of_lt_of_le_pi_div_two (by linarith) (by linarith) (by linarith)
  exact absurd this hlt.ne'

/-! ### C56: alignment reflects the sun onto the aim point -/

theorem inner3_comm (a b : Fin 4 → ℝ) : inner3 a b = inner3 b a := by simp only [inner3]; ring

theorem abs_comp_le_length3 (v : Fin 4 → ℝ) : |v 0| ≤ length3 v ∧ |v 1| ≤ length3 v ∧ |v 2| ≤ length3 v := by
  refine ⟨?_, ?_, ?_⟩ <;> rw [length3] <;> apply Real.abs_le_sqrt <;>
    nlinarith [sq_nonneg (v 0), sq_nonneg (v 1), sq_nonneg (v 2)]

theorem inner3_le (a b : Fin 4 → ℝ) : |inner3 a b| ≤ length3 a * length3 b := by
  rw [length3, length3, ← Real.sqrt_mul (by positivity)]
  apply Real.abs_le_sqrt
  simp only [inner3]
  nlinarith [sq_nonneg (a 0 * b 1 - a 1 * b 0), sq_nonneg (a 0 * b 2 - a 2 * b 0), sq_nonneg (a 1 * b 2 - a 2 * b 1)]

theorem length3_add_le (a b : Fin 4 → ℝ) : length3 (a + b) ≤ length3 a + length3 b := by
  have ha : 0 ≤ length3 a := Real.sqrt_nonneg _
  have hb : 0 ≤ length3 b := Real.sqrt_nonneg _
  apply Real.sqrt_le_iff.2
  refine ⟨by positivity, ?_⟩
  have h1 := length3_sq a
  have h2 := length3_sq b
  have h3 := (abs_le.1 (inner3_le a b)).2
  simp only [inner3] at h3
  simp only [Pi.add_apply]
  nlinarith

theorem length3_smul (c : ℝ) (a : Fin 4 → ℝ) : length3 (c • a) = |c| * length3 a := by
  rw [length3, length3, ← Real.sqrt_sq_eq_abs, ← Real.sqrt_mul (by positivity)]
  congr 1; simp only [Pi.smul_apply, smul_eq_mul]; ring

/-- Reflecting a unit direction at two nearby unit normals gives nearby directions. -/
theorem reflect_close (i x d : Fin 4 → ℝ) (hi : UnitDirection i) (hx : UnitDirection x) (hd : UnitDirection d) :
    length3 (reflect i x - reflect i d) ≤ 4 * length3 (x - d) := by
  have hdot : ∀ n : Fin 4 → ℝ, n 3 = 0 → i ⬝ᵥ n = inner3 i n := by
    intro n hn; simp [dotProduct, Fin.sum_univ_four, inner3, hn]
  have e : reflect i x - reflect i d = (-(2 * inner3 i x)) • (x - d) + (-(2 * inner3 i (x - d))) • d := by
    rw [reflect, reflect, hdot x hx.1, hdot d hd.1]
    ext j; simp [inner3]; ring
  rw [e]
  refine (length3_add_le _ _).trans ?_
  rw [length3_smul, length3_smul, hd.2, mul_one, abs_neg, abs_neg, abs_mul, abs_mul]
  have h1 := inner3_le i x
  have h2 := inner3_le i (x - d)
  rw [hi.2, one_mul] at h1 h2
  rw [hx.2] at h1
  have h0 : 0 ≤ length3 (x - d) := Real.sqrt_nonneg _
  rw [abs_of_pos (by norm_num : (0:ℝ) < 2)]
  nlinarith

/-- The unit direction from the mirror centre of an orientation to the aim point. -/
noncomputable def toAim (aim : Fin 4 → ℝ) (M : Mat) : Fin 4 → ℝ :=
  let v : Fin 4 → ℝ := ![aim 0 - (M *ᵥ ![0, 0, 0, 1]) 0, aim 1 - (M *ᵥ ![0, 0, 0, 1]) 1, aim 2 - (M *ᵥ ![0, 0, 0, 1]) 2, 0]
  (length3 v)⁻¹ • v

theorem normalizeEps_length {eps : ℝ} {v : Fin 3 → ℝ} (h : eps ≤ norm3 v) :
    normalizeEps eps v = ((length3 ![v 0, v 1, v 2, 0])⁻¹) • v := by
  rw [normalizeEps_of_le h]; congr 2
  rw [norm3, length3]; congr 1; simp [dotProduct, Fin.sum_univ_three]; ring

/-- The desired normal is the bisector: a unit vector at which the incident direction is reflected to the aim point. -/
theorem desired_reflects (i aim : Fin 4 → ℝ) (M : Mat) (hi : UnitDirection i)
    (hfar : 1 / 10 ^ 8 ≤ length3 (![aim 0 - (M *ᵥ ![0, 0, 0, 1]) 0, aim 1 - (M *ᵥ ![0, 0, 0, 1]) 1, aim 2 - (M *ᵥ ![0, 0, 0, 1]) 2, 0]))
    (hback : 1 / 10 ^ 8 ≤ length3 (toAim aim M - i)) :
    UnitDirection (Heliostat.desiredNormal i aim M) ∧
    reflect i (Heliostat.desiredNormal i aim M) = toAim aim M := by
  set r := toAim aim M with hr
  have hr3 : r 3 = 0 := by simp [hr, toAim]
  set v : Fin 4 → ℝ := ![aim 0 - (M *ᵥ ![0, 0, 0, 1]) 0, aim 1 - (M *ᵥ ![0, 0, 0, 1]) 1, aim 2 - (M *ᵥ ![0, 0, 0, 1]) 2, 0] with hv
  have hv0 : 0 < length3 v := lt_of_lt_of_le (by norm_num) hfar
  have hrv : r = (length3 v)⁻¹ • v := rfl
  have hr1 : length3 r = 1 := by
    rw [hrv, length3_smul, abs_of_pos (inv_pos.2 hv0), inv_mul_cancel₀ hv0.ne']
  set w := r - i with hw
  have hw3 : w 3 = 0 := by simp [hw, hr3, hi.1]
  have hw0 : 0 < length3 w := lt_of_lt_of_le (by norm_num) hback
  have hn3 : ∀ x : Fin 4 → ℝ, norm3 ![x 0, x 1, x 2] = length3 x := by
    intro x; rw [norm3, length3]; congr 1; simp [dotProduct, Fin.sum_univ_three]; ring
  have hdes : Heliostat.desiredNormal i aim M = (length3 w)⁻¹ • w := by
    have e1 : normalizeEps (1 / 10 ^ 8) ![aim 0 - (M *ᵥ origin) 0, aim 1 - (M *ᵥ origin) 1, aim 2 - (M *ᵥ origin) 2] =
        ![r 0, r 1, r 2] := by
      rw [show (![aim 0 - (M *ᵥ origin) 0, aim 1 - (M *ᵥ origin) 1, aim 2 - (M *ᵥ origin) 2] : Fin 3 → ℝ) = ![v 0, v 1, v 2] from rfl,
        normalizeEps_of_le (by rw [hn3]; exact hfar), hn3, hrv]
      ext j; fin_cases j <;> simp
    have e2 : normalizeEps (1 / 10 ^ 8) ![-i 0 + r 0, -i 1 + r 1, -i 2 + r 2] =
        (length3 w)⁻¹ • ![w 0, w 1, w 2] := by
      have : (![-i 0 + r 0, -i 1 + r 1, -i 2 + r 2] : Fin 3 → ℝ) = ![w 0, w 1, w 2] := by
        ext j; fin_cases j <;> simp [hw] <;> ring
      rw [this, normalizeEps_of_le (by rw [hn3]; exact hback), hn3]
    simp only [Heliostat.desiredNormal, e1]
    simp only [cons_val_zero, cons_val_one, cons_val_two, head_cons, tail_cons]
    rw [e2]
    ext j; fin_cases j <;> simp [hw3]
  have hu : UnitDirection (Heliostat.desiredNormal i aim M) := by
    rw [hdes]
    refine ⟨by simp [hw3], ?_⟩
    rw [length3_smul, abs_of_pos (inv_pos.2 hw0), inv_mul_cancel₀ hw0.ne']
  refine ⟨hu, ?_⟩
  rw [hdes, reflect]
  have hii : inner3 i i = 1 := by
    have := length3_sq i; rw [hi.2] at this; simp only [inner3]; linarith
  have hrr : inner3 r r = 1 := by
    have := length3_sq r; rw [hr1] at this; simp only [inner3]; linarith
  have hL : length3 w ^ 2 = 2 - 2 * inner3 i r := by
    rw [length3_sq]; simp only [inner3] at *; simp only [hw, Pi.sub_apply]; linarith
  have hdot : i ⬝ᵥ ((length3 w)⁻¹ • w) = (length3 w)⁻¹ * (inner3 i r - 1) := by
    rw [dotProduct_smul, smul_eq_mul]; congr 1
    simp only [dotProduct, Fin.sum_univ_four, hw3]
    simp only [inner3] at *; simp only [hw, Pi.sub_apply]; linarith
  rw [hdot, smul_smul]
  have : 2 * ((length3 w)⁻¹ * (inner3 i r - 1)) * (length3 w)⁻¹ = -1 := by
    field_simp; linarith
  rw [this, hw]; ext j; simp

/-- C56: however the iteration ended, the ray reflected at the returned orientation misses the direction to the aim point by no more
than sixteen times the loss the code computes for that orientation. -/
theorem C56_loss_bounds_error (h : Heliostat) (m : ℝ × ℝ) (i aim : Fin 4 → ℝ) (hi : UnitDirection i)
    (hfar : 1 / 10 ^ 8 ≤ length3 (![aim 0 - (h.forward m *ᵥ ![0, 0, 0, 1]) 0, aim 1 - (h.forward m *ᵥ ![0, 0, 0, 1]) 1,
      aim 2 - (h.forward m *ᵥ ![0, 0, 0, 1]) 2, 0]))
    (hback : 1 / 10 ^ 8 ≤ length3 (toAim aim (h.forward m) - i)) :
    length3 (reflect i (h.motorToOrientation m *ᵥ ![0, 0, 1, 0]) - toAim aim (h.forward m)) ≤
      16 * Heliostat.loss (Heliostat.desiredNormal i aim (h.forward m)) (h.forward m) := by
  obtain ⟨hu, hrefl⟩ := desired_reflects i aim (h.forward m) hi hfar hback
  rw [C24_surface_normal, ← hrefl]
  set d := Heliostat.desiredNormal i aim (h.forward m)
  have hx : UnitDirection (h.forward m *ᵥ ![0, -1, 0, 0]) := by
    have hr := rigid_forward h (h.actuator1.toAngle m.1) (h.actuator2.toAngle m.2)
    refine ⟨(hr.homogeneous _).trans (by simp), (hr.length_dir _ (by simp)).trans (by simp [length3])⟩
  refine (reflect_close i _ d hi hx hu).trans ?_
  have : length3 (h.forward m *ᵥ ![0, -1, 0, 0] - d) ≤ 4 * Heliostat.loss d (h.forward m) := by
    rw [Heliostat.loss]
    change _ ≤ 4 * ((|d 0 - (h.forward m *ᵥ ![0, -1, 0, 0]) 0| + |d 1 - (h.forward m *ᵥ ![0, -1, 0, 0]) 1| + |d 2 - (h.forward m *ᵥ ![0, -1, 0, 0]) 2| + |d 3 - (h.forward m *ᵥ ![0, -1, 0, 0]) 3|) / 4)
    generalize h.forward m *ᵥ ![0, -1, 0, 0] = x
    rw [length3]
    apply Real.sqrt_le_iff.2
    refine ⟨by positivity, ?_⟩
    simp only [Pi.sub_apply]
    rw [← sq_abs (x 0 - d 0), ← sq_abs (x 1 - d 1), ← sq_abs (x 2 - d 2), abs_sub_comm (x 0), abs_sub_comm (x 1), abs_sub_comm (x 2)]
    have := abs_nonneg (d 0 - x 0)
    have := abs_nonneg (d 1 - x 1)
    have := abs_nonneg (d 2 - x 2)
    have := abs_nonneg (d 3 - x 3)
    rw [mul_div_cancel₀ _ (by norm_num : (4:ℝ) ≠ 0)]
    have hp : ∀ a b c e : ℝ, 0 ≤ a → 0 ≤ b → 0 ≤ c → 0 ≤ e → a ^ 2 + b ^ 2 + c ^ 2 ≤ (a + b + c + e) ^ 2 := by
      intro a b c e ha hb hc he
      have := mul_nonneg ha hb
      have := mul_nonneg ha hc
      have := mul_nonneg hb hc
      have := mul_nonneg ha he
      have := mul_nonneg hb he
      have := mul_nonneg hc he
      nlinarith [sq_nonneg e]
    apply hp <;> assumption
  linarith

/-- C56: aligned with at least two iterations, a heliostat whose mirror centre does not move with its joints reflects the incident
direction from its mirror centre to the aim point, up to the epsilon of the inverse kinematics (1e-8, so about 5.7e-4 here), for all
positions, aim points, sun directions, tilts and neighbours, as long as the bisecting normal is reachable and the actuators can
realise the angles. -/
theorem C56_reflects_to_aim {k : Nat} (t : Task k) (hf : ∀ i, FixedOrigin (t.heliostat i)) (n : Nat) (hn : 2 ≤ n) (minEps : ℝ)
    (o : Fin k → Mat) (m : Fin k → ℝ × ℝ) (h : t.align n minEps = .ok (o, m)) (i : Fin k)
    (hi : UnitDirection (t.incident i))
    (hfar : 1 / 10 ^ 8 ≤ length3 (![t.aim i 0 - (o i *ᵥ ![0, 0, 0, 1]) 0, t.aim i 1 - (o i *ᵥ ![0, 0, 0, 1]) 1,
      t.aim i 2 - (o i *ᵥ ![0, 0, 0, 1]) 2, 0]))
    (hback : 1 / 10 ^ 8 ≤ length3 (toAim (t.aim i) (o i) - t.incident i))
    (hreach : Reachable (t.heliostat i) (Heliostat.desiredNormal (t.incident i) (t.aim i) (o i)))
    (hact : ∀ s, (s = ((t.heliostat i).jointAngles (1 / 10 ^ 8) (Heliostat.desiredNormal (t.incident i) (t.aim i) (o i))).1 ∨
        s = ((t.heliostat i).jointAngles (1 / 10 ^ 8) (Heliostat.desiredNormal (t.incident i) (t.aim i) (o i))).2) →
      (t.heliostat i).actuator1.toAngle ((t.heliostat i).actuator1.toMotor s.1) = s.1 ∧
      (t.heliostat i).actuator2.toAngle ((t.heliostat i).actuator2.toMotor s.2) = s.2) :
    length3 (reflect (t.incident i) (o i *ᵥ ![0, 0, 1, 0]) - toAim (t.aim i) (o i)) ≤ 4 * √(2 * (1 / 10 ^ 8) + (1 / 10 ^ 8) ^ 2) := by
  obtain ⟨j, hj, hj0, ho, _⟩ := C26_result t n minEps o m h
  have hj1 : j ≠ 0 := fun h0 => by have := hj0 h0; omega
  obtain ⟨j', rfl⟩ := Nat.exists_eq_succ_of_ne_zero hj1
  obtain ⟨hu, hrefl⟩ := desired_reflects (t.incident i) (t.aim i) (o i) hi hfar hback
  set d := Heliostat.desiredNormal (t.incident i) (t.aim i) (o i) with hd
  have horig : ∀ M : Mat, (M * orientationOffset) *ᵥ origin = M *ᵥ origin := by
    intro M
    rw [offset_eq, ← mulVec_mulVec]; congr 1
    ext i; fin_cases i <;> simp [rotE, origin, mulVec, dotProduct, Fin.sum_univ_four]
  have hdes : t.desired (iterate t j') i = d := by
    rw [hd, ho i]
    simp only [Task.desired, Heliostat.desiredNormal, Heliostat.motorToOrientation, horig, Task.orientations, Heliostat.forward]
    rw [origin_fixed (t.heliostat i) (hf i) _ _ ((t.heliostat i).actuator1.toAngle (iterate t (j' + 1) i).1)
      ((t.heliostat i).actuator2.toAngle (iterate t (j' + 1) i).2)]
  have hit : iterate t (j' + 1) i = ((t.heliostat i).inverse (1 / 10 ^ 8) d).1 := by
    rw [iterate, Function.iterate_succ_apply', ← iterate, Task.next, hdes]
  have hc := (C25_motors (t.heliostat i) (1 / 10 ^ 8) (by norm_num) (by norm_num) (Or.inr (by norm_num)) d hreach hact).1
  rw [ho i, C24_surface_normal, ← ho i, ← hrefl, hit]
  refine (reflect_close _ _ d hi ?_ hu).trans (by linarith)
  have hr := (C24_rigid (t.heliostat i) ((t.heliostat i).inverse (1 / 10 ^ 8) d).1).1
  exact ⟨(hr.homogeneous _).trans (by simp), (hr.length_dir _ (by simp)).trans (by simp [length3])⟩

/-- The undisturbed heliostat at (10, 20, 30), sun overhead, aim point 50 m south of it. -/
noncomputable def taskExample : Task 1 := Task.mk (fun _ : Fin 1 => heliostatExample) (fun _ => ![0, 0, -1, 0]) (fun _ => ![10, -30, 30, 1])

/-- Its alignment meets the hypotheses of C56. -/
theorem taskExample_aligned : ∃ o m, taskExample.align 4 (1 / 10 ^ 4) = .ok (o, m) ∧ o 0 *ᵥ ![0, 0, 0, 1] = ![10, 20, 30, 1] ∧
    toAim (taskExample.aim 0) (o 0) = ![0, -1, 0, 0] ∧ UnitDirection (taskExample.incident 0) ∧
    length3 (![taskExample.aim 0 0 - (o 0 *ᵥ ![0, 0, 0, 1]) 0, taskExample.aim 0 1 - (o 0 *ᵥ ![0, 0, 0, 1]) 1,
      taskExample.aim 0 2 - (o 0 *ᵥ ![0, 0, 0, 1]) 2, 0]) = 50 ∧
    1 / 10 ^ 8 ≤ length3 (toAim (taskExample.aim 0) (o 0) - taskExample.incident 0) ∧
    Reachable (taskExample.heliostat 0) (Heliostat.desiredNormal (taskExample.incident 0) (taskExample.aim 0) (o 0)) := by
  set t := taskExample with ht
  have hfix : ∀ i, FixedOrigin (t.heliostat i) := fun _ _ _ => rfl
  cases hal : t.align 4 (1 / 10 ^ 4) with
  | error e => simp [Task.align] at hal
  | ok om =>
    obtain ⟨o, m⟩ := om
    refine ⟨o, m, rfl, ?_⟩
    obtain ⟨j, _, _, ho, _⟩ := C26_result t 4 _ o m hal
    have horig : o 0 *ᵥ ![0, 0, 0, 1] = ![10, 20, 30, 1] := by
      have e0 : o 0 *ᵥ origin = heliostatExample.anglesToOrientation 0 0 *ᵥ origin := by
        rw [ho 0]
        rw [Heliostat.motorToOrientation, offset_eq, ← mulVec_mulVec]
        have : rotE (π / 2) *ᵥ origin = origin := by
          ext i; fin_cases i <;> simp [rotE, origin, mulVec, dotProduct, Fin.sum_univ_four]
        rw [this]
        exact origin_fixed heliostatExample (hfix 0) _ _ 0 0
      have e1 := C24_reference heliostatExample rfl rfl (0, 0) rfl rfl
      change heliostatExample.anglesToOrientation 0 0 = _ at e1
      rw [e1] at e0
      refine e0.trans ?_
      ext i; fin_cases i <;> simp [transl, origin, heliostatExample, mulVec, dotProduct, Fin.sum_univ_four]
    have hv : length3 ![0, -50, 0, 0] = 50 := by
      rw [length3, show (![0, -50, 0, 0] : Fin 4 → ℝ) 0 ^ 2 + (![0, -50, 0, 0] : Fin 4 → ℝ) 1 ^ 2 + (![0, -50, 0, 0] : Fin 4 → ℝ) 2 ^ 2 = 50 ^ 2 by
        simp]
      exact Real.sqrt_sq (by norm_num)
    have hvec : (![t.aim 0 0 - (o 0 *ᵥ ![0, 0, 0, 1]) 0, t.aim 0 1 - (o 0 *ᵥ ![0, 0, 0, 1]) 1,
        t.aim 0 2 - (o 0 *ᵥ ![0, 0, 0, 1]) 2, 0] : Fin 4 → ℝ) = ![0, -50, 0, 0] := by
      rw [horig]; ext i; fin_cases i <;> simp [t, taskExample]; norm_num
    have hto : toAim (t.aim 0) (o 0) = ![0, -1, 0, 0] := by
      simp only [toAim, hvec, hv]; ext i; fin_cases i <;> simp
    have hi : UnitDirection (t.incident 0) := ⟨by simp [t, taskExample], by simp [t, taskExample, length3]⟩
    have hfar : 1 / 10 ^ 8 ≤ length3 (![t.aim 0 0 - (o 0 *ᵥ ![0, 0, 0, 1]) 0, t.aim 0 1 - (o 0 *ᵥ ![0, 0, 0, 1]) 1,
        t.aim 0 2 - (o 0 *ᵥ ![0, 0, 0, 1]) 2, 0]) := by rw [hvec, hv]; norm_num
    have hback : 1 / 10 ^ 8 ≤ length3 (toAim (t.aim 0) (o 0) - t.incident 0) := by
      rw [hto]
      have := (abs_comp_le_length3 (![0, -1, 0, 0] - t.incident 0)).2.1
      refine le_trans ?_ this; simp [t, taskExample]; norm_num
    exact ⟨horig, hto, hi, by rw [hvec, hv], hback, heliostatExample_reachable _ (desired_reflects _ _ _ hi hfar hback).1⟩

/-- The hypotheses of C56 can be met. -/
example : ∃ o m, taskExample.align 4 (1 / 10 ^ 4) = .ok (o, m) ∧
    length3 (reflect ![0, 0, -1, 0] (o 0 *ᵥ ![0, 0, 1, 0]) - ![0, -1, 0, 0]) ≤ 4 * √(2 * (1 / 10 ^ 8) + (1 / 10 ^ 8) ^ 2) := by
  obtain ⟨o, m, h, -, hto, hi, hlen, hback, hreach⟩ := taskExample_aligned
  refine ⟨o, m, h, ?_⟩
  have := C56_reflects_to_aim taskExample (fun _ _ _ => rfl) 4 (by norm_num) _ o m h 0 hi (by rw [hlen]; norm_num) hback hreach (fun s _ => ⟨rfl, rfl⟩)
  rw [hto] at this
  exact this

end Artist
