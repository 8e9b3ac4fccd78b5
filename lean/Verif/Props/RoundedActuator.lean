import Verif.Proofs.RoundedActuator
import Verif.Props.RoundedKinematics
/-! C132: floating point arithmetic from the motor positions to the joint angles and the mirror. -/
namespace Artist.RoundedActuator
open Artist Actuators Rounded Pointing Transforms Kinematics RoundedRay Matrix

section
variable {rnd fsoft facos : ℝ → ℝ} {u η L : ℝ} {M : Nat} {a : Linear} {m : ℝ}

/-- C132: where the sine of the angle between offset and pivot radius is at least `σ`, the computed angle is right up to `156 / σ` losses and four units. -/
theorem C132_absolute (A : Arithmetic rnd u η M) (hM : 1 ≤ M) (B : Library (u + 10 ^ 6 * η) fsoft facos) (S : Sized (u + 10 ^ 6 * η) L a m) (σ : ℝ) (hσ : 0 < σ)
    (h : σ ≤ Real.sin (a.absoluteAngle m)) (hs : 416 * loss (u + 10 ^ 6 * η) L a ≤ σ ^ 2) :
    |absoluteAngle rnd fsoft facos a m - a.absoluteAngle m| ≤ 156 * loss (u + 10 ^ 6 * η) L a / σ + 4 * (u + 10 ^ 6 * η) := by
  have C := cosine_close A rfl B S
  obtain ⟨l, r⟩ := cosine_range (fsoft := fsoft) (a := a) (m := m) A hM
  have k := B.arccos _ l r
  have ha := Real.arccos_nonneg (cosine rnd fsoft a m)
  have hb := Real.arccos_le_pi (cosine rnd fsoft a m)
  have hc := Real.cos_arccos l r
  have t0 : 0 ≤ a.absoluteAngle m := Real.arccos_nonneg _
  have t1 : a.absoluteAngle m ≤ Real.pi := Real.arccos_le_pi _
  unfold absoluteAngle
  generalize loss (u + 10 ^ 6 * η) L a = g at *
  have big : 2 / 3 * σ ≤ Real.sin (Real.arccos (cosine rnd fsoft a m)) := by
    have s0 : 0 ≤ Real.sin (Real.arccos (cosine rnd fsoft a m)) := Real.sin_nonneg_of_nonneg_of_le_pi ha hb
    refine (pow_le_pow_iff_left₀ (by linarith) s0 two_ne_zero).1 ?_
    have e1 := Real.sin_sq_add_cos_sq (Real.arccos (cosine rnd fsoft a m))
    have e2 := Real.sin_sq_add_cos_sq (a.absoluteAngle m)
    rw [hc] at e1
    have e3 : σ ^ 2 ≤ Real.sin (a.absoluteAngle m) ^ 2 := pow_le_pow_left₀ hσ.le h 2
    have e4 : |cosine rnd fsoft a m ^ 2 - Real.cos (a.absoluteAngle m) ^ 2| ≤ 208 * g := by
      have e : cosine rnd fsoft a m ^ 2 - Real.cos (a.absoluteAngle m) ^ 2 = (cosine rnd fsoft a m - Real.cos (a.absoluteAngle m)) * (cosine rnd fsoft a m + Real.cos (a.absoluteAngle m)) := by ring
      rw [e, abs_mul]
      have : |cosine rnd fsoft a m + Real.cos (a.absoluteAngle m)| ≤ 2 := abs_le.2 ⟨by linarith [Real.neg_one_le_cos (a.absoluteAngle m)], by linarith [Real.cos_le_one (a.absoluteAngle m)]⟩
      have := mul_le_mul C this (abs_nonneg _) ((abs_nonneg _).trans C)
      linarith
    have e5 := (abs_le.1 e4).2
    nlinarith
  have w := angle_of_cos' (s := 2 / 3 * σ) (by linarith) ha hb t0 t1 big (by linarith)
  rw [hc] at w
  have w2 : |Real.arccos (cosine rnd fsoft a m) - a.absoluteAngle m| ≤ 156 * g / σ := by
    rw [le_div_iff₀ hσ]
    linarith
  have := abs_sub_le (facos (cosine rnd fsoft a m)) (Real.arccos (cosine rnd fsoft a m)) (a.absoluteAngle m)
  linarith

/-- C132: everywhere, also where actuator and pivot radius are in line, half of the digits remain. -/
theorem C132_absolute_anywhere (A : Arithmetic rnd u η M) (hM : 1 ≤ M) (B : Library (u + 10 ^ 6 * η) fsoft facos) (S : Sized (u + 10 ^ 6 * η) L a m) :
    |absoluteAngle rnd fsoft facos a m - a.absoluteAngle m| ≤ Real.pi * √(52 * loss (u + 10 ^ 6 * η) L a) + 4 * (u + 10 ^ 6 * η) := by
  have C := cosine_close A rfl B S
  obtain ⟨l, r⟩ := cosine_range (fsoft := fsoft) (a := a) (m := m) A hM
  have k := B.arccos _ l r
  have ha := Real.arccos_nonneg (cosine rnd fsoft a m)
  have hb := Real.arccos_le_pi (cosine rnd fsoft a m)
  have hc := Real.cos_arccos l r
  have t0 : 0 ≤ a.absoluteAngle m := Real.arccos_nonneg _
  have t1 : a.absoluteAngle m ≤ Real.pi := Real.arccos_le_pi _
  have p := Real.pi_pos
  have w : 2 * (|Real.arccos (cosine rnd fsoft a m) - a.absoluteAngle m| / Real.pi) ^ 2 ≤ 104 * loss (u + 10 ^ 6 * η) L a := by
    refine le_trans ?_ C
    rcases le_total (Real.arccos (cosine rnd fsoft a m)) (a.absoluteAngle m) with h | h
    · have := angle_of_cos_any ha t1 h
      rw [hc] at this
      rw [abs_sub_comm, abs_of_nonneg (by linarith)]
      exact this.trans (le_abs_self _)
    · have := angle_of_cos_any t0 hb h
      rw [hc] at this
      rw [abs_of_nonneg (by linarith), abs_sub_comm]
      exact this.trans (le_abs_self _)
  have w2 : |Real.arccos (cosine rnd fsoft a m) - a.absoluteAngle m| / Real.pi ≤ √(52 * loss (u + 10 ^ 6 * η) L a) := Real.le_sqrt_of_sq_le (by linarith)
  rw [div_le_iff₀ p] at w2
  unfold absoluteAngle
  have := abs_sub_le (facos (cosine rnd fsoft a m)) (Real.arccos (cosine rnd fsoft a m)) (a.absoluteAngle m)
  linarith

/-- C132: the joint angle, which is relative to the one of a motor at rest. -/
theorem C132_joint (A : Arithmetic rnd u η M) (hM : 1 ≤ M) (B : Library (u + 10 ^ 6 * η) fsoft facos) (S : Sized (u + 10 ^ 6 * η) L a m) (σ : ℝ) (hσ : 0 < σ)
    (h : σ ≤ Real.sin (a.absoluteAngle m)) (h0 : σ ≤ Real.sin (a.absoluteAngle 0)) (hs : 416 * loss (u + 10 ^ 6 * η) L a ≤ σ ^ 2) :
    |toAngle rnd fsoft facos a m - a.toAngle m| ≤ 312 * loss (u + 10 ^ 6 * η) L a / σ + (18 + 3 * |a.initialAngle|) * (u + 10 ^ 6 * η) := by
  have S0 : Sized (u + 10 ^ 6 * η) L a 0 := ⟨S.size, S.offset, S.pivot, S.initial, by rw [zero_div, abs_zero]; linarith [S.size, show (0 : ℝ) ≤ 1 / 1000 by norm_num], S.small⟩
  have k1 := C132_absolute A hM B S σ hσ h hs
  have k0 := C132_absolute A hM B S0 σ hσ h0 hs
  have ε0 : 0 ≤ u + 10 ^ 6 * η := by have := A.u_nonneg; have := A.η_nonneg; positivity
  have ε1 := (S.facts ε0).1
  have near : ∀ x, ∃ t, 0 ≤ t ∧ t ≤ Real.pi ∧ |absoluteAngle rnd fsoft facos a x - t| ≤ 4 * (u + 10 ^ 6 * η) := fun x =>
    have cr := cosine_range (fsoft := fsoft) (a := a) (m := x) A hM
    ⟨Real.arccos (cosine rnd fsoft a x), Real.arccos_nonneg _, Real.arccos_le_pi _, B.arccos _ cr.1 cr.2⟩
  obtain ⟨t, t0, t1, tt⟩ := near m
  obtain ⟨s, s0, s1, ss⟩ := near 0
  unfold toAngle Linear.toAngle
  simp only
  generalize absoluteAngle rnd fsoft facos a m = x at *
  generalize absoluteAngle rnd fsoft facos a 0 = y at *
  generalize a.absoluteAngle m = x₀ at *
  generalize a.absoluteAngle 0 = y₀ at *
  have pi4 := Real.pi_lt_d2
  have dsize : |y - x| ≤ 32 / 10 := by
    rw [abs_le] at tt ss ⊢
    constructor <;> linarith
  have r1 := rle A rfl dsize (by norm_num)
  have d : |rnd (y - x) - (y₀ - x₀)| ≤ 312 * loss (u + 10 ^ 6 * η) L a / σ + (8 + 32 / 10) * (u + 10 ^ 6 * η) := by
    have e1 : |(y - x) - (y₀ - x₀)| ≤ |y - y₀| + |x - x₀| := by rw [sub_sub_sub_comm]; exact abs_sub _ _
    have e2 := abs_sub_le (rnd (y - x)) (y - x) (y₀ - x₀)
    have e3 : 312 * loss (u + 10 ^ 6 * η) L a / σ = 156 * loss (u + 10 ^ 6 * η) L a / σ + 156 * loss (u + 10 ^ 6 * η) L a / σ := by ring
    linarith
  have rsize : |rnd (y - x)| ≤ 33 / 10 := by
    have := abs_sub_abs_le_abs_sub (rnd (y - x)) (y - x)
    linarith
  have idem : rnd (rnd (y - x)) = rnd (y - x) := A.idem _
  have z : rnd 0 = 0 := by simpa using A.nat 0 (by omega)
  have l0 : 0 ≤ 312 * loss (u + 10 ^ 6 * η) L a / σ := by
    have := (abs_nonneg _).trans (cosine_close A rfl B S)
    exact div_nonneg (by linarith) hσ.le
  have i0 := abs_nonneg a.initialAngle
  have iε := mul_nonneg ε0 i0
  have ri := rle A rfl (x := a.initialAngle) (K := |a.initialAngle| + 1 / 10) (by linarith) (by linarith [show (1 : ℝ) / 10 ^ 6 ≤ 1 / 10 by norm_num])
  have id2 : ∀ w, rnd (rnd w) = rnd w := A.idem
  generalize rnd (y - x) = δ at *
  by_cases c1 : a.clockwise = 1
  · have c0 : ¬ a.clockwise = 0 := by rw [c1]; norm_num
    rw [if_pos c1, if_neg c0, mul_one, mul_zero, mul_one, mul_zero, z, sub_zero, sub_zero, idem, id2]
    have q := rle A rfl (x := a.initialAngle + δ) (K := |a.initialAngle| + 33 / 10) ((abs_add_le _ _).trans (by linarith)) (by linarith [show (1 : ℝ) / 10 ^ 6 ≤ 33 / 10 by norm_num])
    have e := abs_sub_le (rnd (a.initialAngle + δ)) (a.initialAngle + δ) (a.initialAngle + (y₀ - x₀))
    rw [add_sub_add_left_eq_sub] at e
    nlinarith
  · rw [if_neg c1, mul_zero, mul_zero, z, add_zero]
    by_cases c0 : a.clockwise = 0
    · rw [if_pos c0, mul_one, mul_one, idem]
      have si : |rnd a.initialAngle| ≤ |a.initialAngle| * (1001 / 1000) + 1 / 10 := by
        have := abs_sub_abs_le_abs_sub (rnd a.initialAngle) a.initialAngle
        nlinarith
      have q := rle A rfl (x := rnd a.initialAngle - δ) (K := |a.initialAngle| * (1001 / 1000) + 35 / 10) ((abs_sub _ _).trans (by linarith)) (by linarith [show (1 : ℝ) / 10 ^ 6 ≤ 33 / 10 by norm_num])
      have e := abs_sub_le (rnd (rnd a.initialAngle - δ)) (rnd a.initialAngle - δ) (a.initialAngle - (y₀ - x₀))
      have e2 : |rnd a.initialAngle - δ - (a.initialAngle - (y₀ - x₀))| ≤ |rnd a.initialAngle - a.initialAngle| + |δ - (y₀ - x₀)| := by rw [sub_sub_sub_comm]; exact abs_sub _ _
      linarith
    · rw [if_neg c0, mul_zero, mul_zero, z, sub_zero, sub_zero, id2]
      nlinarith

/-- C132: from motor positions to the mirror, all computed, for linear actuators whose joint angles are right up to `e₁` and `e₂` (see `C132_joint`). -/
theorem C132_orientation {fcos fsin : ℝ → ℝ} {f : Fin 3 → ℝ} {P : Nat → RoundedKinematics.Plans} {h : Heliostat} {R ρ : ℝ} (A : Arithmetic rnd u η M) (hM : 1 ≤ M) (hP : RoundedKinematics.AllComplete P)
    (a₁ a₂ : Linear) (ha₁ : h.actuator1 = a₁.actuator) (ha₂ : h.actuator2 = a₂.actuator) (m : ℝ × ℝ) (S : RoundedKinematics.Sized (u + η) R ρ h)
    (T : RoundedKinematics.Angles (u + η) fcos fsin f h (toAngle rnd fsoft facos a₁ m.1) (toAngle rnd fsoft facos a₂ m.2)) (e₁ e₂ : ℝ)
    (h₁ : |toAngle rnd fsoft facos a₁ m.1 - a₁.toAngle m.1| ≤ e₁) (h₂ : |toAngle rnd fsoft facos a₂ m.2 - a₂.toAngle m.2| ≤ e₂) :
    (∀ x : Fin 4 → ℝ, x 3 = 0 → length3 (RoundedKinematics.orientation rnd fcos fsin P f h (toAngle rnd fsoft facos a₁ m.1) (toAngle rnd fsoft facos a₂ m.2) *ᵥ x - h.motorToOrientation m *ᵥ x) ≤
      (450 * (u + η) + e₁ + e₂) * length3 x) ∧
    length3 (RoundedKinematics.orientation rnd fcos fsin P f h (toAngle rnd fsoft facos a₁ m.1) (toAngle rnd fsoft facos a₂ m.2) *ᵥ ![0, 0, 0, 1] - h.motorToOrientation m *ᵥ ![0, 0, 0, 1]) ≤
      (75 * R + 777 * ρ + 250) * (u + η) + (2 * e₁ + e₂) * ρ := by
  obtain ⟨-, d, o⟩ := RoundedKinematics.C130_orientation A hM hP S T
  set θ₁ := toAngle rnd fsoft facos a₁ m.1
  set θ₂ := toAngle rnd fsoft facos a₂ m.2
  have mo : h.motorToOrientation m = h.anglesToOrientation (a₁.toAngle m.1) (a₂.toAngle m.2) * orientationOffset := by
    unfold Heliostat.motorToOrientation Heliostat.forward
    rw [ha₁, ha₂]
    rfl
  have turn : ∀ v : Fin 4 → ℝ, length3 ((h.anglesToOrientation θ₁ θ₂ * orientationOffset) *ᵥ v - h.motorToOrientation m *ᵥ v) ≤
      |θ₁ - a₁.toAngle m.1| * (length3 v + |v 3| * Converge.lever h) + |θ₂ - a₂.toAngle m.2| * (length3 v + |v 3| * Converge.concentrator h) := by
    intro v
    have := joints_close h θ₁ θ₂ (a₁.toAngle m.1) (a₂.toAngle m.2) (orientationOffset *ᵥ v)
    rw [offset_eq, rot_length _ (by simp [rotE]) (by simp [rotE]) (by simp [rotE]) (rigid_rotE _), (rigid_rotE _).homogeneous, ← offset_eq, mulVec_mulVec, mulVec_mulVec] at this
    rw [mo]
    exact this
  constructor
  · intro x hx
    have t := turn x
    rw [hx, abs_zero, zero_mul, zero_mul, add_zero] at t
    have k := Converge.length3_triangle (RoundedKinematics.orientation rnd fcos fsin P f h θ₁ θ₂ *ᵥ x) ((h.anglesToOrientation θ₁ θ₂ * orientationOffset) *ᵥ x) (h.motorToOrientation m *ᵥ x)
    have l := Converge.length3_nonneg x
    have t1 := mul_le_mul_of_nonneg_right h₁ l
    have t2 := mul_le_mul_of_nonneg_right h₂ l
    have := d x hx
    linarith
  · have t := turn ![0, 0, 0, 1]
    have z : length3 (![0, 0, 0, 1] : Fin 4 → ℝ) = 0 := by simp [length3]
    have z3 : (![0, 0, 0, 1] : Fin 4 → ℝ) 3 = 1 := by simp
    rw [z, z3, abs_one, one_mul, one_mul, zero_add, zero_add] at t
    have k := Converge.length3_triangle (RoundedKinematics.orientation rnd fcos fsin P f h θ₁ θ₂ *ᵥ ![0, 0, 0, 1]) ((h.anglesToOrientation θ₁ θ₂ * orientationOffset) *ᵥ ![0, 0, 0, 1]) (h.motorToOrientation m *ᵥ ![0, 0, 0, 1])
    have c1 : Converge.concentrator h ≤ ρ := S.concentrator
    have c2 : Converge.lever h ≤ 2 * ρ := by
      have : Converge.secondJoint h ≤ ρ := S.second
      unfold Converge.lever
      linarith
    have n1 : 0 ≤ Converge.concentrator h := Converge.length3_nonneg _
    have n2 : 0 ≤ Converge.lever h := add_nonneg (Converge.length3_nonneg _) n1
    have t1 := mul_le_mul h₁ c2 n2 ((abs_nonneg _).trans h₁)
    have t2 := mul_le_mul h₂ c1 n1 ((abs_nonneg _).trans h₂)
    linarith

end

/-- C132 in float32: an actuator with lengths of at most 40 cm, offset and pivot radius of 32 cm at least, which stays thirty degrees away from where it is in line with its pivot radius.  The joint angle is right
up to 0.04 mrad. -/
theorem C132_float32 (fsoft facos : ℝ → ℝ) (a : Linear) (m : ℝ) (B : Library (1 / 2 ^ 24 + 10 ^ 6 * (2 ^ (-149 : Int) / 2)) fsoft facos) (ho : 32 / 100 ≤ a.offset ∧ a.offset ≤ 2 / 5)
    (hr : 32 / 100 ≤ a.pivotRadius ∧ a.pivotRadius ≤ 2 / 5) (hs : a.initialStroke ≤ 2 / 5) (hm : |m / a.increment| ≤ 2 / 5) (hi : |a.initialAngle| ≤ 7)
    (h : 1 / 2 ≤ Real.sin (a.absoluteAngle m)) (h0 : 1 / 2 ≤ Real.sin (a.absoluteAngle 0)) : |toAngle float32 fsoft facos a m - a.toAngle m| < 4 / 10 ^ 5 := by
  have e : (1 / 2 ^ 24 + 10 ^ 6 * (2 ^ (-149 : Int) / 2) : ℝ) ≤ 60 / 10 ^ 9 := by norm_num
  have e0 : (0 : ℝ) ≤ 1 / 2 ^ 24 + 10 ^ 6 * (2 ^ (-149 : Int) / 2) := by positivity
  have p : 2048 / 10000 ≤ 2 * a.offset * a.pivotRadius := by nlinarith [ho.1, hr.1]
  have S : Sized (1 / 2 ^ 24 + 10 ^ 6 * (2 ^ (-149 : Int) / 2)) (2 / 5) a m := ⟨by norm_num, ho.2, hr.2, hs, hm, by linarith⟩
  have l : loss (1 / 2 ^ 24 + 10 ^ 6 * (2 ^ (-149 : Int) / 2)) (2 / 5) a ≤ 48 / 10 ^ 9 := by
    unfold loss
    rw [div_le_iff₀ (by linarith)]
    linarith
  have k := C132_joint C103_float32 (by norm_num) B S (1 / 2) (by norm_num) h h0 (by linarith)
  have w : (18 + 3 * |a.initialAngle|) * (1 / 2 ^ 24 + 10 ^ 6 * (2 ^ (-149 : Int) / 2)) ≤ 39 * (60 / 10 ^ 9) := mul_le_mul (by linarith) e e0 (by norm_num)
  have d : 312 * loss (1 / 2 ^ 24 + 10 ^ 6 * (2 ^ (-149 : Int) / 2)) (2 / 5) a / (1 / 2) = 624 * loss (1 / 2 ^ 24 + 10 ^ 6 * (2 ^ (-149 : Int) / 2)) (2 / 5) a := by ring
  rw [d] at k
  linarith

/-- an actuator with sides of 34 cm, at rest and 3000 steps of 150000 per metre later -/
example : ∃ (fsoft facos : ℝ → ℝ) (a : Linear) (m : ℝ), Library (1 / 2 ^ 24 + 10 ^ 6 * (2 ^ (-149 : Int) / 2)) fsoft facos ∧ (32 / 100 ≤ a.offset ∧ a.offset ≤ 2 / 5) ∧
    (32 / 100 ≤ a.pivotRadius ∧ a.pivotRadius ≤ 2 / 5) ∧ a.initialStroke ≤ 2 / 5 ∧ |m / a.increment| ≤ 2 / 5 ∧ |a.initialAngle| ≤ 7 ∧ 1 / 2 ≤ Real.sin (a.absoluteAngle m) ∧
    1 / 2 ≤ Real.sin (a.absoluteAngle 0) ∧ m ≠ 0 ∧ a.clockwise = 1 := by
  have e0 : (0 : ℝ) ≤ 1 / 2 ^ 24 + 10 ^ 6 * (2 ^ (-149 : Int) / 2) := by positivity
  let a : Linear := ⟨1, 0, 60000, 150000, 34 / 100, 34 / 100, 3 / 2, 34 / 100⟩
  have so : a.offset = 34 / 100 + 1 / 10 ^ 6 := by simp only [a, Linear.offset, Linear.physical, softplus, eps]; norm_num
  have sr : a.pivotRadius = 34 / 100 + 1 / 10 ^ 6 := by simp only [a, Linear.pivotRadius, Linear.physical, softplus, eps]; norm_num
  have ss : a.initialStroke = 34 / 100 + 1 / 10 ^ 6 := by simp only [a, Linear.initialStroke, Linear.physical, softplus, eps]; norm_num
  have si : a.increment = 150000 + 1 / 10 ^ 6 := by simp only [a, Linear.increment, Linear.physical, softplus, eps]; norm_num
  have key : ∀ m : ℝ, 0 ≤ m → m ≤ 3000 → 1 / 2 ≤ Real.sin (a.absoluteAngle m) := by
    intro m m0 m1
    have d0 : 0 ≤ m / a.increment := by rw [si]; positivity
    have d1 : m / a.increment ≤ 2 / 100 := by rw [si, div_le_iff₀ (by norm_num)]; linarith
    have st : a.clampStroke (m / a.increment + a.initialStroke) = m / a.increment + a.initialStroke := by
      unfold Linear.clampStroke clamp
      rw [so, sr, ss, sub_self, abs_zero, max_eq_left, min_eq_left]
      · unfold eps; linarith
      · unfold eps; linarith
    unfold Linear.absoluteAngle
    simp only
    rw [Real.sin_arccos, st]
    generalize m / a.increment = d at *
    rw [so, sr, ss]
    refine Real.le_sqrt_of_sq_le ?_
    have b : ∀ x : ℝ, |x| ≤ 8 / 10 → (1 / 2 : ℝ) ^ 2 ≤ 1 - clamp x (-1 + 1 / 10 ^ 6) (1 - 1 / 10 ^ 6) ^ 2 := by
      intro x hx
      rw [abs_le] at hx
      unfold clamp
      rw [max_eq_left (by linarith [show (-1 + 1 / 10 ^ 6 : ℝ) ≤ -(8 / 10) by norm_num]), min_eq_left (by linarith [show (8 / 10 : ℝ) ≤ 1 - 1 / 10 ^ 6 by norm_num])]
      nlinarith
    refine b _ ?_
    rw [abs_div, div_le_iff₀ (by norm_num), abs_of_pos (a := 2 * (34 / 100 + 1 / 10 ^ 6) * (34 / 100 + 1 / 10 ^ 6)) (by norm_num), abs_le]
    constructor <;> nlinarith
  refine ⟨softplus 100, Real.arccos, a, 3000, ⟨fun x => ?_, fun x _ _ => ?_⟩, ?_, ?_, ?_, ?_, ?_, key 3000 (by norm_num) le_rfl, key 0 le_rfl (by norm_num), by norm_num, rfl⟩
  · rw [sub_self, abs_zero]
    have := softplus_nonneg x
    positivity
  · rw [sub_self, abs_zero]
    linarith
  · rw [so]; norm_num
  · rw [sr]; norm_num
  · rw [ss]; norm_num
  · rw [si]; norm_num [abs_of_pos]
  · simp only [a]; norm_num [abs_of_pos]

end Artist.RoundedActuator
