import Verif.Proofs.RoundedMotors
/-! C136: floating point arithmetic from the motor positions to the target. -/
namespace Artist.RoundedMotors
open Artist Transforms Kinematics Actuators Intersect RoundedRay RoundedKinematics RoundedLanding RoundedChain Matrix Rounded

/-- C136: the ray that the others are compared with comes from the orientation that the heliostat has, in exact arithmetic, with its motors at `m`. -/
theorem C136_pose (a₁ a₂ : Linear) (m : ℝ × ℝ) (x : Ray) (h₁ : x.heliostat.actuator1 = a₁.actuator) (h₂ : x.heliostat.actuator2 = a₂.actuator) :
    (driven a₁ a₂ m x).start = RoundedChain.enu (x.heliostat.motorToOrientation m *ᵥ x.point) ∧
    (driven a₁ a₂ m x).leave = Flux.direction x.incident (x.heliostat.motorToOrientation m *ᵥ x.normal) x.e x.u := by
  have mo : x.heliostat.motorToOrientation m = x.heliostat.anglesToOrientation (a₁.toAngle m.1) (a₂.toAngle m.2) * orientationOffset := by
    unfold Heliostat.motorToOrientation Heliostat.forward
    rw [h₁, h₂]
    rfl
  rw [mo]
  exact ⟨rfl, rfl⟩

section
variable {rnd fsoft facos : ℝ → ℝ} {u η : ℝ} {M : Nat} {fcos fsin : ℝ → ℝ} {f : Fin 3 → ℝ} {P : RoundedChain.Plans} {x : Ray} {R ρ s r κ t D : ℝ} {p : Plane ℝ} {a₁ a₂ : Linear} {m : ℝ × ℝ}

/-- C136: a ray that is followed from the motor positions of its heliostat to the target in floating point arithmetic lands where it does in exact arithmetic, up to an explicit distance; `D` is by how much the
joint angles are wrong (see `C132_joint`). -/
theorem C136_lands (A : Arithmetic rnd u η M) (hM : 1 ≤ M) (hP : P.Complete)
    (hx : (turned x (RoundedActuator.toAngle rnd fsoft facos a₁ m.1) (RoundedActuator.toAngle rnd fsoft facos a₂ m.2)).Regular (u + η) R ρ s fcos fsin f)
    (hD : |RoundedActuator.toAngle rnd fsoft facos a₁ m.1 - a₁.toAngle m.1| + |RoundedActuator.toAngle rnd fsoft facos a₂ m.2 - a₂.toAngle m.2| ≤ D) (y : Ray) (hy : y = driven a₁ a₂ m x)
    (ma : Arrives (units (u + η) D) R ρ s r κ p t y) (W H : Nat) (hW : 2 ≤ W) (hH : 2 ≤ H) (on : Inside (units (u + η) D) R ρ s r κ W H p t y) (l : Landing ℝ)
    (hl : l = landing rnd fsoft facos fcos fsin f P a₁ a₂ m x W H p) :
    |l.e - ((W : ℝ) - 1 - column W y.start y.leave p t)| ≤ pixels (units (u + η) D) R ρ s r κ p.width W ∧ |l.u - RoundedLanding.row H y.start y.leave p t| ≤ pixels (units (u + η) D) R ρ s r κ p.height H ∧
    |l.intensity - x.magnitude * -V3.dot y.leave p.normal| ≤ 3860 * units (u + η) D := by
  set θ₁ := RoundedActuator.toAngle rnd fsoft facos a₁ m.1 with e₁
  set θ₂ := RoundedActuator.toAngle rnd fsoft facos a₂ m.2 with e₂
  have hy' : y = turned (turned x θ₁ θ₂) (a₁.toAngle m.1) (a₂.toAngle m.2) := hy
  have D0 : 0 ≤ D := (add_nonneg (abs_nonneg _) (abs_nonneg _)).trans hD
  have un : u + η ≤ units (u + η) D := by unfold units; linarith
  rw [hy'] at ma
  obtain ⟨t', me, hc, hr, hn⟩ := moved A hM hP hx hD ma hW hH
  rw [← hy'] at hc hr hn
  have mag : 0 ≤ x.magnitude ∧ x.magnitude ≤ 1 := hx.magnitude
  obtain ⟨⟨c1, c2⟩, r1, r2⟩ := on
  have hc' := abs_le.1 (le_sub_iff_add_le.2 hc)
  have hr' := abs_le.1 (le_sub_iff_add_le.2 hr)
  obtain ⟨g1, g2, _, g4⟩ := C126_lands A P.angle P.distance W H hW hH _ _ t' _ _ p me ⟨⟨by linarith, by linarith⟩, by linarith, by linarith⟩ x.magnitude mag
  have hl' : l = linePlane rnd P.angle P.distance W H (start rnd fcos fsin f P (turned x θ₁ θ₂)) (leave rnd fcos fsin f P (turned x θ₁ θ₂)) x.magnitude p := hl
  rw [← hl'] at g1 g2 g4
  refine ⟨?_, ?_, ?_⟩
  · refine (abs_sub_le _ _ _).trans ((add_le_add g1 (le_of_eq ?_)).trans ((add_comm _ _).trans_le hc))
    rw [sub_sub_sub_cancel_left, abs_sub_comm]
  · exact (abs_sub_le _ _ _).trans ((add_le_add g2 le_rfl).trans ((add_comm _ _).trans_le hr))
  · refine (abs_sub_le _ _ _).trans ((add_le_add g4 (d := 3838 * units (u + η) D) ?_).trans (by linarith))
    rw [← mul_sub, abs_mul, abs_of_nonneg mag.1, show -V3.dot (leave rnd fcos fsin f P (turned x θ₁ θ₂)) p.normal - -V3.dot y.leave p.normal =
      -(V3.dot (leave rnd fcos fsin f P (turned x θ₁ θ₂)) p.normal - V3.dot y.leave p.normal) by ring, abs_neg]
    exact (mul_le_of_le_one_left (abs_nonneg _) mag.2).trans hn

/-- C136: a ray that passes beside the target carries nothing in floating point arithmetic either. -/
theorem C136_misses (A : Arithmetic rnd u η M) (hM : 1 ≤ M) (hP : P.Complete)
    (hx : (turned x (RoundedActuator.toAngle rnd fsoft facos a₁ m.1) (RoundedActuator.toAngle rnd fsoft facos a₂ m.2)).Regular (u + η) R ρ s fcos fsin f)
    (hD : |RoundedActuator.toAngle rnd fsoft facos a₁ m.1 - a₁.toAngle m.1| + |RoundedActuator.toAngle rnd fsoft facos a₂ m.2 - a₂.toAngle m.2| ≤ D) (y : Ray) (hy : y = driven a₁ a₂ m x)
    (ma : Arrives (units (u + η) D) R ρ s r κ p t y) (W H : Nat) (hW : 2 ≤ W) (hH : 2 ≤ H) (off : Outside (units (u + η) D) R ρ s r κ W H p t y) :
    (landing rnd fsoft facos fcos fsin f P a₁ a₂ m x W H p).intensity = 0 := by
  set θ₁ := RoundedActuator.toAngle rnd fsoft facos a₁ m.1 with e₁
  set θ₂ := RoundedActuator.toAngle rnd fsoft facos a₂ m.2 with e₂
  have hy' : y = turned (turned x θ₁ θ₂) (a₁.toAngle m.1) (a₂.toAngle m.2) := hy
  rw [hy'] at ma
  obtain ⟨t', me, hc, hr, _⟩ := moved A hM hP hx hD ma hW hH
  rw [← hy'] at hc hr
  have hc' := abs_le.1 (le_sub_iff_add_le.2 hc)
  have hr' := abs_le.1 (le_sub_iff_add_le.2 hr)
  refine C126_misses A P.angle P.distance W H hW hH _ _ t' _ _ p me ?_ x.magnitude
  rcases off with h | h | h | h
  · exact .inl (by linarith)
  · exact .inr (.inl (by linarith))
  · exact .inr (.inr (.inl (by linarith)))
  · exact .inr (.inr (.inr (by linarith)))

end

/-- C136 in float32: a heliostat within 200 m of the origin with two steady actuators, a target of 8 m and 256 pixels that is met at 60 degrees or less.  Everything computed, the ray lands within twelve pixels,
38 cm, of where the motor positions send it. -/
theorem C136_float32 (P : RoundedChain.Plans) (hP : P.Complete) (fsoft facos fcos fsin : ℝ → ℝ) (B : RoundedActuator.Library (1 / 2 ^ 24 + 10 ^ 6 * (2 ^ (-149 : Int) / 2)) fsoft facos) (f : Fin 3 → ℝ)
    (a₁ a₂ : Linear) (m : ℝ × ℝ) (s₁ : Steady a₁ m.1) (s₂ : Steady a₂ m.2) (x : Ray) (p : Plane ℝ) (t : ℝ)
    (hx : (turned x (RoundedActuator.toAngle float32 fsoft facos a₁ m.1) (RoundedActuator.toAngle float32 fsoft facos a₂ m.2)).Regular (1 / 2 ^ 24 + 2 ^ (-149 : Int) / 2) 200 1 5 fcos fsin f)
    (y : Ray) (hy : y = driven a₁ a₂ m x) (ma : Arrives (units (1 / 2 ^ 24 + 2 ^ (-149 : Int) / 2) (8 / 10 ^ 5)) 200 1 5 200 (1 / 2) p t y) (hp : p.width = 8 ∧ p.height = 8)
    (c1 : 12 < column 256 y.start y.leave p t ∧ column 256 y.start y.leave p t < 243) (r1 : 12 < RoundedLanding.row 256 y.start y.leave p t ∧ RoundedLanding.row 256 y.start y.leave p t < 243)
    (l : Landing ℝ) (hl : l = landing float32 fsoft facos fcos fsin f P a₁ a₂ m x 256 256 p) :
    |l.e - (255 - column 256 y.start y.leave p t)| < 12 ∧ |l.u - RoundedLanding.row 256 y.start y.leave p t| < 12 ∧ |l.intensity - x.magnitude * -V3.dot y.leave p.normal| < 6 / 10 ^ 4 := by
  have j₁ := RoundedActuator.C132_float32 fsoft facos a₁ m.1 B s₁.offset s₁.pivot s₁.initial s₁.motor s₁.angle s₁.moved s₁.rest
  have j₂ := RoundedActuator.C132_float32 fsoft facos a₂ m.2 B s₂.offset s₂.pivot s₂.initial s₂.motor s₂.angle s₂.moved s₂.rest
  have s : pixels (units (1 / 2 ^ 24 + 2 ^ (-149 : Int) / 2) (8 / 10 ^ 5)) 200 1 5 200 (1 / 2) 8 256 < 12 := by
    unfold pixels reach units
    norm_num
  have h := C136_lands C103_float32 (by norm_num) hP hx (D := 8 / 10 ^ 5) (by linarith) y hy ma 256 256 (by norm_num) (by norm_num) (by
    unfold Inside
    rw [hp.1, hp.2]
    push_cast
    exact ⟨⟨by linarith, by linarith⟩, by linarith, by linarith⟩) l hl
  rw [hp.1, hp.2] at h
  obtain ⟨h1, h2, h4⟩ := h
  refine ⟨?_, h2.trans_lt s, h4.trans_lt (by unfold units; norm_num)⟩
  have := h1.trans_lt s
  push_cast at this
  rw [show (256 : ℝ) - 1 - column 256 y.start y.leave p t = 255 - column 256 y.start y.leave p t by ring] at this
  exact this

/-- an actuator with sides of 34 cm, 3000 steps of 150000 per metre away from rest -/
theorem steady_sample (i : ℝ) (hi : |i| ≤ 7) : Steady ⟨1, 0, 60000, 150000, 34 / 100, 34 / 100, i, 34 / 100⟩ 3000 := by
  set a : Linear := ⟨1, 0, 60000, 150000, 34 / 100, 34 / 100, i, 34 / 100⟩ with ha
  have so : a.offset = 34 / 100 + 1 / 10 ^ 6 := by simp only [a, Linear.offset, Linear.physical, softplus, eps]; norm_num
  have sr : a.pivotRadius = 34 / 100 + 1 / 10 ^ 6 := by simp only [a, Linear.pivotRadius, Linear.physical, softplus, eps]; norm_num
  have ss : a.initialStroke = 34 / 100 + 1 / 10 ^ 6 := by simp only [a, Linear.initialStroke, Linear.physical, softplus, eps]; norm_num
  have si : a.increment = 150000 + 1 / 10 ^ 6 := by simp only [a, Linear.increment, Linear.physical, softplus, eps]; norm_num
  have key : ∀ m : ℝ, 0 ≤ m → m ≤ 3000 → 1 / 2 ≤ Real.sin (a.absoluteAngle m) := by
    intro m m0 m1
    have d0 : 0 ≤ m / a.increment := by rw [si]; positivity
    have d1 : m / a.increment ≤ 2 / 100 := by rw [si, div_le_iff₀ (by norm_num)]; linarith
    have st : a.clampStroke (m / a.increment + a.initialStroke) = m / a.increment + a.initialStroke := by
      unfold Linear.clampStroke clamp
      rw [so, sr, ss, sub_self, abs_zero, max_eq_left, min_eq_left]
      · unfold eps; linarith
      · unfold eps; linarith
    unfold Linear.absoluteAngle
    simp only
    rw [Real.sin_arccos, st]
    generalize m / a.increment = d at *
    rw [so, sr, ss]
    refine Real.le_sqrt_of_sq_le ?_
    have b : ∀ x : ℝ, |x| ≤ 8 / 10 → (1 / 2 : ℝ) ^ 2 ≤ 1 - clamp x (-1 + 1 / 10 ^ 6) (1 - 1 / 10 ^ 6) ^ 2 := by
      intro x hx
      rw [abs_le] at hx
      unfold clamp
      rw [max_eq_left (by linarith [show (-1 + 1 / 10 ^ 6 : ℝ) ≤ -(8 / 10) by norm_num]), min_eq_left (by linarith [show (8 / 10 : ℝ) ≤ 1 - 1 / 10 ^ 6 by norm_num])]
      nlinarith
    refine b _ ?_
    rw [abs_div, div_le_iff₀ (by norm_num), abs_of_pos (a := 2 * (34 / 100 + 1 / 10 ^ 6) * (34 / 100 + 1 / 10 ^ 6)) (by norm_num), abs_le]
    constructor <;> nlinarith
  refine ⟨?_, ?_, ?_, ?_, hi, key 3000 (by norm_num) le_rfl, key 0 le_rfl (by norm_num)⟩
  · rw [so]; norm_num
  · rw [sr]; norm_num
  · rw [ss]; norm_num
  · rw [si]; norm_num [abs_of_pos]

/-- two such actuators, which are mounted such that the mirror, 90 m north of the target, faces south when they have been driven that far -/
theorem sample_driven (o : Order) : ∃ (P : RoundedChain.Plans) (fsoft facos fcos fsin : ℝ → ℝ) (f : Fin 3 → ℝ) (a₁ a₂ : Linear) (m : ℝ × ℝ) (x : Ray) (p : Plane ℝ) (t : ℝ), P.Complete ∧
    RoundedActuator.Library (1 / 2 ^ 24 + 10 ^ 6 * (2 ^ (-149 : Int) / 2)) fsoft facos ∧ Steady a₁ m.1 ∧ Steady a₂ m.2 ∧ m.1 ≠ 0 ∧ m.2 ≠ 0 ∧ x.heliostat.actuator1 = a₁.actuator ∧ x.heliostat.actuator2 = a₂.actuator ∧
    (turned x (RoundedActuator.toAngle float32 fsoft facos a₁ m.1) (RoundedActuator.toAngle float32 fsoft facos a₂ m.2)).Regular (1 / 2 ^ 24 + 2 ^ (-149 : Int) / 2) 200 1 5 fcos fsin f ∧
    Arrives (units (1 / 2 ^ 24 + 2 ^ (-149 : Int) / 2) (8 / 10 ^ 5)) 200 1 5 200 (1 / 2) p t (driven a₁ a₂ m x) ∧ (p.width = 8 ∧ p.height = 8) ∧
    (12 < column 256 (driven a₁ a₂ m x).start (driven a₁ a₂ m x).leave p t ∧ column 256 (driven a₁ a₂ m x).start (driven a₁ a₂ m x).leave p t < 243) ∧
    12 < RoundedLanding.row 256 (driven a₁ a₂ m x).start (driven a₁ a₂ m x).leave p t ∧ RoundedLanding.row 256 (driven a₁ a₂ m x).start (driven a₁ a₂ m x).leave p t < 243 := by
  have e0 : (0 : ℝ) ≤ 1 / 2 ^ 24 + 10 ^ 6 * (2 ^ (-149 : Int) / 2) := by positivity
  let b : Linear := ⟨1, 0, 60000, 150000, 34 / 100, 34 / 100, 0, 34 / 100⟩
  let i : ℝ := b.absoluteAngle 3000 - b.absoluteAngle 0
  have hi : |i| ≤ 7 := by
    have p := Real.pi_lt_d2
    have := Real.pi_pos
    have q0 : 0 ≤ b.absoluteAngle 3000 := Real.arccos_nonneg _
    have q1 : b.absoluteAngle 3000 ≤ Real.pi := Real.arccos_le_pi _
    have q2 : 0 ≤ b.absoluteAngle 0 := Real.arccos_nonneg _
    have q3 : b.absoluteAngle 0 ≤ Real.pi := Real.arccos_le_pi _
    exact abs_le.2 ⟨by simp only [i]; linarith, by simp only [i]; linarith⟩
  let a : Linear := ⟨1, 0, 60000, 150000, 34 / 100, 34 / 100, i, 34 / 100⟩
  have z : a.toAngle 3000 = 0 := by
    have e1 : a.absoluteAngle 3000 = b.absoluteAngle 3000 := rfl
    have e2 : a.absoluteAngle 0 = b.absoluteAngle 0 := rfl
    simp only [Linear.toAngle, e1, e2]
    simp [a, i]
  obtain ⟨P, fcos, fsin, f, x, p, t, hP, h₁, h₂, hx, ⟨ma, sz, _⟩, hp, _, _, F, ⟨f1, f2⟩, c1, c2, r1, r2⟩ := sample_ray a.actuator a.actuator o
  have dx : driven a a (3000, 3000) x = x := by
    unfold driven turned
    simp only [z]
    rw [← f1]
    nth_rw 2 [f1]
    rw [← f2]
  refine ⟨P, softplus 100, Real.arccos, fcos, fsin, f, a, a, (3000, 3000), x, p, t, hP, ⟨fun y => ?_, fun y _ _ => ?_⟩, steady_sample i hi, steady_sample i hi, by norm_num, by norm_num, h₁, h₂,
    { hx with angles := { hx.angles with joints := ⟨F _, F _⟩ } }, ?_, hp, ?_⟩
  · rw [sub_self, abs_zero]
    have := RoundedActuator.softplus_nonneg y
    positivity
  · rw [sub_self, abs_zero]
    linarith
  · rw [dx]
    exact ⟨{ ma with small := by unfold units; norm_num }, sz, by unfold units; norm_num⟩
  · rw [dx]
    exact ⟨⟨c1, c2⟩, r1, r2⟩

end Artist.RoundedMotors
