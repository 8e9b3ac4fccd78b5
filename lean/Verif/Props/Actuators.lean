import Verif.Model.Actuators
import Mathlib.Tactic.Ring
import Mathlib.Tactic.FieldSimp
import Mathlib.Tactic.Positivity
import Mathlib.Tactic.Linarith
/-!
# C27: linear and ideal actuators
-/
namespace Artist
open Real Actuators

theorem physical_pos (x : ℝ) : 0 < Linear.physical x := by
  have : 0 ≤ softplus 100 x := by
    rw [softplus]; split_ifs with h
    · nlinarith
    · apply div_nonneg (Real.log_nonneg _) (by norm_num)
      have := Real.exp_pos (100 * x); linarith
  have h : (0 : ℝ) < eps := by norm_num [eps]
  unfold Linear.physical; linarith

theorem clamp_of_mem {x lo hi : ℝ} (h1 : lo ≤ x) (h2 : x ≤ hi) : clamp x lo hi = x := by
  rw [clamp, max_eq_left h1, min_eq_left h2]

theorem clamp_mono {x y : ℝ} (lo hi : ℝ) (h : x ≤ y) : clamp x lo hi ≤ clamp y lo hi :=
  min_le_min_right _ (max_le_max_right _ h)

/-- C27: the geometry used is strictly positive, whatever values are stored. -/
theorem C27_parameters_positive (a : Linear) :
    0 < a.increment ∧ 0 < a.offset ∧ 0 < a.pivotRadius ∧ 0 < a.initialStroke :=
  ⟨physical_pos _, physical_pos _, physical_pos _, physical_pos _⟩

/-- A stroke length inside the mechanical limits: not limited by the triangle of offset, pivot radius and stroke (by a margin of
1e-6 m in the stroke and of 1e-6 in the cosine of the angle between offset and pivot radius, as in the code). -/
structure StrokeOk (offset pivotRadius s : ℝ) : Prop where
  lower : |offset - pivotRadius| + 1 / 10 ^ 6 ≤ s
  upper : s ≤ offset + pivotRadius - 1 / 10 ^ 6
  cosLower : (offset - pivotRadius) ^ 2 + 2 * offset * pivotRadius * (1 / 10 ^ 6) ≤ s ^ 2
  cosUpper : s ^ 2 ≤ (offset + pivotRadius) ^ 2 - 2 * offset * pivotRadius * (1 / 10 ^ 6)

theorem StrokeOk.cos_mem {o r s : ℝ} (h : StrokeOk o r s) (ho : 0 < o) (hr : 0 < r) :
    -1 + 1 / 10 ^ 6 ≤ (o ^ 2 + r ^ 2 - s ^ 2) / (2 * o * r) ∧ (o ^ 2 + r ^ 2 - s ^ 2) / (2 * o * r) ≤ 1 - 1 / 10 ^ 6 := by
  have h0 : 0 < 2 * o * r := by positivity
  rw [le_div_iff₀ h0, div_le_iff₀ h0]
  have := h.cosLower
  have := h.cosUpper
  constructor <;> nlinarith

theorem absoluteAngle_ok (a : Linear) (m : ℝ)
    (h : StrokeOk a.offset a.pivotRadius (m / a.increment + a.initialStroke)) :
    a.absoluteAngle m = arccos ((a.offset ^ 2 + a.pivotRadius ^ 2 - (m / a.increment + a.initialStroke) ^ 2) /
      (2 * a.offset * a.pivotRadius)) := by
  obtain ⟨_, ho, hr, _⟩ := C27_parameters_positive a
  have hs : a.clampStroke (m / a.increment + a.initialStroke) = m / a.increment + a.initialStroke :=
    clamp_of_mem (by simpa [eps] using h.lower) (by simpa [eps] using h.upper)
  obtain ⟨h1, h2⟩ := h.cos_mem ho hr
  simp only [Linear.absoluteAngle, hs]
  rw [clamp_of_mem h1 h2]

/-- C27: motor position → joint angle → motor position is the identity while the stroke is inside the limits, for clockwise (1) and
counter-clockwise (0) actuators. -/
theorem C27_motor_round_trip (a : Linear) (hc : a.clockwise = 1 ∨ a.clockwise = 0) (m : ℝ)
    (h : StrokeOk a.offset a.pivotRadius (m / a.increment + a.initialStroke)) :
    a.toMotor (a.toAngle m) = m := by
  obtain ⟨hi, ho, hr, hs0⟩ := C27_parameters_positive a
  obtain ⟨h1, h2⟩ := h.cos_mem ho hr
  have hα := absoluteAngle_ok a m h
  have hd : a.absoluteAngle 0 - (if a.clockwise = 1 then a.toAngle m - a.initialAngle else a.initialAngle - a.toAngle m) =
      a.absoluteAngle m := by
    rcases hc with hc | hc <;> simp [Linear.toAngle, hc]
  simp only [Linear.toMotor, hd]
  rw [hα, cos_arccos (by linarith) (by linarith), clamp_of_mem h1 h2]
  have hden : 2 * a.offset * a.pivotRadius ≠ 0 := by positivity
  have hsq : a.offset ^ 2 + a.pivotRadius ^ 2 - 2 * a.offset * a.pivotRadius *
      ((a.offset ^ 2 + a.pivotRadius ^ 2 - (m / a.increment + a.initialStroke) ^ 2) / (2 * a.offset * a.pivotRadius)) =
      (m / a.increment + a.initialStroke) ^ 2 := by
    rw [mul_div_cancel₀ _ hden]; ring
  have hsn : 0 ≤ m / a.increment + a.initialStroke := by
    have := h.lower
    have := abs_nonneg (a.offset - a.pivotRadius)
    have : (0 : ℝ) < 1 / 10 ^ 6 := by norm_num
    linarith
  rw [hsq, Real.sqrt_sq hsn]
  have hs : a.clampStroke (m / a.increment + a.initialStroke) = m / a.increment + a.initialStroke :=
    clamp_of_mem (by simpa [eps] using h.lower) (by simpa [eps] using h.upper)
  rw [hs]; field_simp; ring

/-- The angle between offset and pivot radius that belongs to a joint angle, and the stroke that produces it (law of cosines). -/
noncomputable def legAngle (a : Linear) (angle : ℝ) : ℝ :=
  a.absoluteAngle 0 - (if a.clockwise = 1 then angle - a.initialAngle else a.initialAngle - angle)

/-- C27: joint angle → motor position → joint angle is the identity while the angle between the legs is between 0 and π and the
stroke it needs is inside the limits. -/
theorem C27_angle_round_trip (a : Linear) (hc : a.clockwise = 1 ∨ a.clockwise = 0) (angle : ℝ)
    (h0 : 0 ≤ legAngle a angle) (hπ : legAngle a angle ≤ π)
    (h : StrokeOk a.offset a.pivotRadius
      √(a.offset ^ 2 + a.pivotRadius ^ 2 - 2 * a.offset * a.pivotRadius * cos (legAngle a angle))) :
    a.toAngle (a.toMotor angle) = angle := by
  obtain ⟨hi, ho, hr, hs0⟩ := C27_parameters_positive a
  set s := √(a.offset ^ 2 + a.pivotRadius ^ 2 - 2 * a.offset * a.pivotRadius * cos (legAngle a angle)) with hs
  have hrad : s ^ 2 = a.offset ^ 2 + a.pivotRadius ^ 2 - 2 * a.offset * a.pivotRadius * cos (legAngle a angle) := by
    rw [hs, Real.sq_sqrt]
    nlinarith [cos_le_one (legAngle a angle), sq_nonneg (a.offset - a.pivotRadius), mul_pos ho hr]
  have hden : 2 * a.offset * a.pivotRadius ≠ 0 := by positivity
  have hcos : (a.offset ^ 2 + a.pivotRadius ^ 2 - s ^ 2) / (2 * a.offset * a.pivotRadius) = cos (legAngle a angle) := by
    rw [hrad]; field_simp; ring
  obtain ⟨h1, h2⟩ := h.cos_mem ho hr
  rw [hcos] at h1 h2
  have hm : a.toMotor angle = (s - a.initialStroke) * a.increment := by
    have : a.clampStroke s = s := clamp_of_mem (by simpa [eps] using h.lower) (by simpa [eps] using h.upper)
    simp only [Linear.toMotor]
    rw [← legAngle, clamp_of_mem h1 h2, ← hs, this]
  have hst : (s - a.initialStroke) * a.increment / a.increment + a.initialStroke = s := by field_simp; ring
  have hα : a.absoluteAngle (a.toMotor angle) = legAngle a angle := by
    rw [hm, absoluteAngle_ok a _ (by rw [hst]; exact h), hst, hcos, arccos_cos h0 hπ]
  simp only [Linear.toAngle, hα]
  rcases hc with hc | hc <;> simp [legAngle, hc]

/-- C27: whatever the motor position, the joint angle stays within π of the initial angle. -/
theorem C27_angle_bounded (a : Linear) (m : ℝ) : |a.toAngle m - a.initialAngle| ≤ π := by
  have h1 := arccos_nonneg
  have h2 := arccos_le_pi
  have hd : |a.absoluteAngle 0 - a.absoluteAngle m| ≤ π := by
    rw [abs_le]
    constructor
    · have := h1 (clamp ((a.offset ^ 2 + a.pivotRadius ^ 2 - (a.clampStroke (0 / a.increment + a.initialStroke)) ^ 2) /
        (2 * a.offset * a.pivotRadius)) (-1 + 1 / 10 ^ 6) (1 - 1 / 10 ^ 6))
      have := h2 (clamp ((a.offset ^ 2 + a.pivotRadius ^ 2 - (a.clampStroke (m / a.increment + a.initialStroke)) ^ 2) /
        (2 * a.offset * a.pivotRadius)) (-1 + 1 / 10 ^ 6) (1 - 1 / 10 ^ 6))
      simp only [Linear.absoluteAngle]; linarith
    · have := h2 (clamp ((a.offset ^ 2 + a.pivotRadius ^ 2 - (a.clampStroke (0 / a.increment + a.initialStroke)) ^ 2) /
        (2 * a.offset * a.pivotRadius)) (-1 + 1 / 10 ^ 6) (1 - 1 / 10 ^ 6))
      have := h1 (clamp ((a.offset ^ 2 + a.pivotRadius ^ 2 - (a.clampStroke (m / a.increment + a.initialStroke)) ^ 2) /
        (2 * a.offset * a.pivotRadius)) (-1 + 1 / 10 ^ 6) (1 - 1 / 10 ^ 6))
      simp only [Linear.absoluteAngle]; linarith
  have : a.toAngle m - a.initialAngle = (a.absoluteAngle 0 - a.absoluteAngle m) *
      ((if a.clockwise = 1 then 1 else 0) - (if a.clockwise = 0 then 1 else 0)) := by
    simp only [Linear.toAngle]; ring
  rw [this, abs_mul]
  have h3 : |((if a.clockwise = 1 then 1 else 0) - (if a.clockwise = 0 then 1 else 0) : ℝ)| ≤ 1 := by
    split_ifs <;> norm_num
  calc _ ≤ |a.absoluteAngle 0 - a.absoluteAngle m| * 1 := mul_le_mul_of_nonneg_left h3 (abs_nonneg _)
    _ ≤ π := by rw [mul_one]; exact hd

theorem absoluteAngle_mono (a : Linear) (hgeo : |a.offset - a.pivotRadius| + eps ≤ a.offset + a.pivotRadius - eps)
    {m m' : ℝ} (h : m ≤ m') : a.absoluteAngle m ≤ a.absoluteAngle m' := by
  obtain ⟨hi, ho, hr, hs0⟩ := C27_parameters_positive a
  simp only [Linear.absoluteAngle]
  apply Real.antitone_arccos
  apply clamp_mono
  apply div_le_div_of_nonneg_right _ (by positivity)
  have h1 : a.clampStroke (m / a.increment + a.initialStroke) ≤ a.clampStroke (m' / a.increment + a.initialStroke) := by
    apply clamp_mono
    have := div_le_div_of_nonneg_right h hi.le
    linarith
  have h2 : 0 ≤ a.clampStroke (m / a.increment + a.initialStroke) := by
    refine le_min (le_max_of_le_right ?_) ?_
    · have := abs_nonneg (a.offset - a.pivotRadius); have : (0:ℝ) ≤ eps := by norm_num [eps]
      linarith
    · have := abs_nonneg (a.offset - a.pivotRadius); have : (0:ℝ) ≤ eps := by norm_num [eps]
      linarith
  nlinarith

/-- C27: the joint angle is monotone in the motor position: falling for clockwise, rising for counter-clockwise actuators
(whenever the mechanical limits are not contradictory). -/
theorem C27_monotone (a : Linear)
    (hgeo : |a.offset - a.pivotRadius| + 1 / 10 ^ 6 ≤ a.offset + a.pivotRadius - 1 / 10 ^ 6) (m m' : ℝ) (h : m ≤ m') :
    (a.clockwise = 1 → a.toAngle m' ≤ a.toAngle m) ∧ (a.clockwise = 0 → a.toAngle m ≤ a.toAngle m') := by
  have := absoluteAngle_mono a hgeo h
  constructor <;> intro hc <;> simp only [Linear.toAngle, hc] <;> norm_num <;> linarith

/-- C27: inside the limits the motor position is determined by the angle, so the angle is strictly monotone there. -/
theorem C27_strict (a : Linear) (hc : a.clockwise = 1 ∨ a.clockwise = 0) (m m' : ℝ) (hmm : m < m')
    (hgeo : |a.offset - a.pivotRadius| + 1 / 10 ^ 6 ≤ a.offset + a.pivotRadius - 1 / 10 ^ 6)
    (h : StrokeOk a.offset a.pivotRadius (m / a.increment + a.initialStroke))
    (h' : StrokeOk a.offset a.pivotRadius (m' / a.increment + a.initialStroke)) :
    (a.clockwise = 1 → a.toAngle m' < a.toAngle m) ∧ (a.clockwise = 0 → a.toAngle m < a.toAngle m') := by
  have hne : a.toAngle m ≠ a.toAngle m' := by
    intro he
    have := C27_motor_round_trip a hc m h
    rw [he, C27_motor_round_trip a hc m' h'] at this
    exact hmm.ne' this
  obtain ⟨h1, h2⟩ := C27_monotone a hgeo m m' hmm.le
  exact ⟨fun hc => lt_of_le_of_ne (h1 hc) (Ne.symm hne), fun hc => lt_of_le_of_ne (h2 hc) hne⟩

/-- C27: at motor position zero the joint angle is the initial angle. -/
theorem C27_initial (a : Linear) : a.toAngle 0 = a.initialAngle := by
  simp [Linear.toAngle]

/-- C27: ideal actuators are the identity both ways. -/
theorem C27_ideal (a : Ideal) (x : ℝ) : a.toAngle x = x ∧ a.toMotor x = x := ⟨rfl, rfl⟩

/-- An actuator of the Jülich kind (metres and radians), to show that the hypotheses above can be met. -/
noncomputable def actuatorExample : Linear :=
  { clockwise := 1, minMotor := 0, maxMotor := 60000, rawIncrement := 154166 - 1 / 10 ^ 6, rawOffset := 4 / 10 - 1 / 10 ^ 6,
    rawPivotRadius := 3 / 10 - 1 / 10 ^ 6, initialAngle := 1, rawInitialStroke := 1 / 2 - 1 / 10 ^ 6 }

theorem actuatorExample_params : actuatorExample.increment = 154166 ∧ actuatorExample.offset = 4 / 10 ∧
    actuatorExample.pivotRadius = 3 / 10 ∧ actuatorExample.initialStroke = 1 / 2 := by
  refine ⟨?_, ?_, ?_, ?_⟩
  · rw [Linear.increment, Linear.physical, softplus, if_pos] <;> norm_num [actuatorExample, eps]
  · rw [Linear.offset, Linear.physical, softplus, if_pos] <;> norm_num [actuatorExample, eps]
  · rw [Linear.pivotRadius, Linear.physical, softplus, if_pos] <;> norm_num [actuatorExample, eps]
  · rw [Linear.initialStroke, Linear.physical, softplus, if_pos] <;> norm_num [actuatorExample, eps]

theorem actuatorExample_ok (m : ℝ) (h0 : 0 ≤ m) (h1 : m ≤ 15000) :
    StrokeOk actuatorExample.offset actuatorExample.pivotRadius (m / actuatorExample.increment + actuatorExample.initialStroke) := by
  obtain ⟨e1, e2, e3, e4⟩ := actuatorExample_params
  rw [e1, e2, e3, e4]
  have hl : 0 ≤ m / 154166 := by positivity
  have hu : m / 154166 ≤ 1 / 10 := by rw [div_le_iff₀ (by norm_num)]; linarith
  refine ⟨?_, ?_, ?_, ?_⟩
  · rw [abs_of_pos (by norm_num)]; norm_num; linarith
  · norm_num; linarith
  · norm_num; nlinarith
  · norm_num; nlinarith

example : actuatorExample.toMotor (actuatorExample.toAngle 12345) = 12345 :=
  C27_motor_round_trip _ (Or.inl rfl) _ (actuatorExample_ok _ (by norm_num) (by norm_num))

example : actuatorExample.toAngle 12345 < actuatorExample.toAngle 12 :=
  (C27_strict actuatorExample (Or.inl rfl) 12 12345 (by norm_num)
    (by obtain ⟨_, e2, e3, _⟩ := actuatorExample_params; rw [e2, e3, abs_of_pos (by norm_num)]; norm_num)
    (actuatorExample_ok _ (by norm_num) (by norm_num)) (actuatorExample_ok _ (by norm_num) (by norm_num))).1 rfl

/-- The angle round trip applies for instance to every angle reached from a motor position inside the limits. -/
example : actuatorExample.toAngle (actuatorExample.toMotor (actuatorExample.toAngle 12345)) = actuatorExample.toAngle 12345 := by
  have hok := actuatorExample_ok 12345 (by norm_num) (by norm_num)
  obtain ⟨hi, ho, hr, _⟩ := C27_parameters_positive actuatorExample
  have hα := absoluteAngle_ok _ _ hok
  have hleg : legAngle actuatorExample (actuatorExample.toAngle 12345) = actuatorExample.absoluteAngle 12345 := by
    simp [legAngle, Linear.toAngle, actuatorExample]
  obtain ⟨h1, h2⟩ := hok.cos_mem ho hr
  refine C27_angle_round_trip _ (Or.inl rfl) _ ?_ ?_ ?_
  · rw [hleg, hα]; exact arccos_nonneg _
  · rw [hleg, hα]; exact arccos_le_pi _
  · rw [hleg, hα, cos_arccos (by linarith) (by linarith), mul_div_cancel₀ _ (by positivity), sub_sub_cancel,
      Real.sqrt_sq]
    · exact hok
    · obtain ⟨_, _, _, h4⟩ := C27_parameters_positive actuatorExample
      positivity

end Artist
