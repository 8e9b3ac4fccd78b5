import Verif.Proofs.Converge
/-!
# C110: alignment of heliostats whose mirror centre moves with the joints

C26, C56 and C92 settle heliostats whose mirror centre stays where it is. In general every iteration of the alignment moves the mirror centre, and with it the
normal that is wanted. Here the iterations are shown to contract, and the error left when the alignment ends (iterations used up, or loss no longer changing) is
bounded.
-/
namespace Artist.Converge
open Artist Matrix Real Transforms Kinematics Intersect Flux Splat Bitmap Aiming

/-- C110: away from the axis of the first joint, the inverse kinematics meets a wanted normal up to `ε / √(1 - s²)`, much better than the `√(2 ε)` of C25. -/
theorem C110_inverse_sharp (h : Heliostat) (n : Fin 4 → ℝ) (s ε : ℝ) (hA : cos (h.rotation 3) ≠ 0) (hε : 0 < ε) (s0 : 0 ≤ s) (hs : s ≤ 1 - ε)
    (hn : UnitDirection n) (haway : |((rotN (h.rotation 0) * rotU (h.rotation 1))ᵀ *ᵥ n) 0| ≤ s * |cos (h.rotation 3)|)
    (hact : ∀ θ, θ = (h.jointAngles ε n).1 ∨ θ = (h.jointAngles ε n).2 →
      h.actuator1.toAngle (h.actuator1.toMotor θ.1) = θ.1 ∧ h.actuator2.toAngle (h.actuator2.toMotor θ.2) = θ.2) :
    length3 (h.forward (h.inverse ε n).1 *ᵥ ![0, -1, 0, 0] - n) ≤ ε / √(1 - s ^ 2) := by
  have : ∃ θ, (θ = (h.jointAngles ε n).1 ∨ θ = (h.jointAngles ε n).2) ∧ (h.inverse ε n).1 = h.motors θ := by
    by_cases hl : h.InLimits (h.motors (h.jointAngles ε n).1)
    · exact ⟨_, Or.inl rfl, by simp [Heliostat.inverse, hl]⟩
    · exact ⟨_, Or.inr rfl, by simp [Heliostat.inverse, hl]⟩
  obtain ⟨θ, hθ, hm⟩ := this
  have hf : h.forward (h.inverse ε n).1 = h.anglesToOrientation θ.1 θ.2 := by
    rw [hm, Heliostat.forward, Heliostat.motors]; simp only [(hact θ hθ).1, (hact θ hθ).2]
  rw [hf]
  exact solution_sharp h n hA hε s0 hs hn haway θ hθ

/-- C110: whatever the motors do, the mirror centre stays within twice the length of its arm. -/
theorem C110_lever (h : Heliostat) (m m' : ℝ × ℝ) : length3 (centre (h.motorToOrientation m) - centre (h.motorToOrientation m')) ≤ 2 * lever h := by
  rw [centre_offset, centre_offset]
  unfold Heliostat.forward
  rw [centre_distance]
  have := length3_add_le (arm h (h.actuator1.toAngle m.1) (h.actuator2.toAngle m.2)) (-arm h (h.actuator1.toAngle m'.1) (h.actuator2.toAngle m'.2))
  rw [← sub_eq_add_neg, length3_neg] at this
  linarith [arm_length h (h.actuator1.toAngle m.1) (h.actuator2.toAngle m.2), arm_length h (h.actuator1.toAngle m'.1) (h.actuator2.toAngle m'.2)]

/-- C110: one iteration is a contraction: it brings any two mirror centres closer by `factor`, which is the lever divided by the distance of the aim point, up to
constants of the geometry. -/
theorem C110_step (h : Heliostat) (incident aim : Fin 4 → ℝ) (far back s : ℝ) (R : Regular h incident aim far back s) (m m' : ℝ × ℝ) :
    length3 (centre (h.motorToOrientation (h.inverse (1 / 10 ^ 8) (wanted h incident aim m)).1) - centre (h.motorToOrientation (h.inverse (1 / 10 ^ 8) (wanted h incident aim m')).1)) ≤
      factor h far back s * length3 (centre (h.motorToOrientation m) - centre (h.motorToOrientation m')) := by
  simp only [centre_offset]
  refine (R.centre_close m m').trans ?_
  refine (mul_le_mul_of_nonneg_left (R.wanted_close m m') R.stretch0).trans (le_of_eq ?_)
  unfold factor; ring

/-- C110: an orientation reflects the sun to the aim point up to the movement of the mirror centre in the last iteration. -/
theorem C110_direction (h : Heliostat) (incident aim : Fin 4 → ℝ) (far back s : ℝ) (R : Regular h incident aim far back s) (m m' : ℝ × ℝ)
    (hm : m' = (h.inverse (1 / 10 ^ 8) (wanted h incident aim m)).1) :
    length3 (reflect incident (h.motorToOrientation m' *ᵥ ![0, 0, 1, 0]) - toAim aim (h.motorToOrientation m')) ≤
      length3 (centre (h.motorToOrientation m') - centre (h.motorToOrientation m)) / far + 4 * slack s := by
  rw [C24_surface_normal, toAim_offset, centre_offset, centre_offset]
  refine (length3_triangle _ (toAim aim (h.forward m)) _).trans ?_
  have a : length3 (reflect incident (h.forward m' *ᵥ ![0, -1, 0, 0]) - toAim aim (h.forward m)) ≤ 4 * slack s := by
    rw [← (R.wanted_spec m).2]
    refine (reflect_close incident _ _ R.unit (normal_direction h m') (R.wanted_spec m).1).trans ?_
    rw [hm]
    exact mul_le_mul_of_nonneg_left (R.normal_close m) (by norm_num)
  have b := toAim_close aim (h.forward m) (h.forward m') R.far0 (R.distant m) (R.distant m')
  rw [length3_sub_comm (centre (h.forward m))] at b
  linarith

/-- The mirror centre of heliostat `i` in iteration `j`. -/
noncomputable def centreOf {k : Nat} (t : Task k) (i : Fin k) (j : Nat) : Fin 4 → ℝ := centre ((t.heliostat i).motorToOrientation (iterate t j i))

/-- C110: so the mirror centre moves less and less, whatever the other heliostats of the batch do. -/
theorem C110_contraction {k : Nat} (t : Task k) (i : Fin k) (far back s : ℝ) (R : Regular (t.heliostat i) (t.incident i) (t.aim i) far back s) (j : Nat) :
    length3 (centreOf t i (j + 1) - centreOf t i j) ≤ factor (t.heliostat i) far back s ^ j * (2 * lever (t.heliostat i)) := by
  induction j with
  | zero => rw [pow_zero, one_mul]; exact C110_lever _ _ _
  | succ j ih =>
    have := C110_step _ _ _ _ _ _ R (iterate t (j + 1) i) (iterate t j i)
    rw [← iterate_succ, ← iterate_succ] at this
    refine this.trans ?_
    rw [pow_succ', mul_assoc]
    exact mul_le_mul_of_nonneg_left ih R.factor0

/-- C110: and if the factor is below one it settles. -/
theorem C110_settles {k : Nat} (t : Task k) (i : Fin k) (far back s : ℝ) (R : Regular (t.heliostat i) (t.incident i) (t.aim i) far back s)
    (hq : factor (t.heliostat i) far back s < 1) (j l : Nat) :
    length3 (centreOf t i (j + l) - centreOf t i j) ≤ factor (t.heliostat i) far back s ^ j * (2 * lever (t.heliostat i)) / (1 - factor (t.heliostat i) far back s) := by
  set q := factor (t.heliostat i) far back s with hqd
  have q0 : 0 ≤ q := R.factor0
  set b := 2 * lever (t.heliostat i) with hb
  have b0 : 0 ≤ b := mul_nonneg (by norm_num) (add_nonneg (length3_nonneg _) (length3_nonneg _))
  have step : length3 (centreOf t i (j + l) - centreOf t i j) ≤ (q ^ j * b - q ^ (j + l) * b) / (1 - q) := by
    induction l with
    | zero =>
      rw [add_zero, sub_self, sub_self, zero_div]
      simp [length3]
    | succ l ih =>
      refine (length3_triangle _ (centreOf t i (j + l)) _).trans ?_
      have c := C110_contraction t i far back s R (j + l)
      rw [← hqd, ← hb] at c
      have : (q ^ j * b - q ^ (j + (l + 1)) * b) / (1 - q) = q ^ (j + l) * b + (q ^ j * b - q ^ (j + l) * b) / (1 - q) := by
        have : 1 - q ≠ 0 := by linarith
        field_simp
        ring
      rw [this]
      exact add_le_add c ih
  refine step.trans (div_le_div_of_nonneg_right ?_ (by linarith))
  have : 0 ≤ q ^ (j + l) * b := by positivity
  linarith

/-- C110: at least two iterations leave an error of twice the lever over the distance at most, whatever tolerance and number of iterations are chosen; for the orientations
that are returned and for those that belong to the motor positions that are stored. -/
theorem C110_two_iterations {k : Nat} (t : Task k) (n : Nat) (hn : 2 ≤ n) (minEps : ℝ) (o : Fin k → Mat) (m : Fin k → ℝ × ℝ) (halign : t.align n minEps = .ok (o, m))
    (i : Fin k) (far back s : ℝ) (R : Regular (t.heliostat i) (t.incident i) (t.aim i) far back s) (M : Mat) (hM : M = o i ∨ M = (t.heliostat i).motorToOrientation (m i)) :
    length3 (reflect (t.incident i) (M *ᵥ ![0, 0, 1, 0]) - toAim (t.aim i) M) ≤ 2 * lever (t.heliostat i) / far + 4 * slack s := by
  have key : ∀ j, length3 (reflect (t.incident i) ((t.heliostat i).motorToOrientation (iterate t (j + 1) i) *ᵥ ![0, 0, 1, 0]) -
      toAim (t.aim i) ((t.heliostat i).motorToOrientation (iterate t (j + 1) i))) ≤ 2 * lever (t.heliostat i) / far + 4 * slack s := by
    intro j
    refine (C110_direction _ _ _ _ _ _ R (iterate t j i) _ (iterate_succ t j i)).trans ?_
    have := div_le_div_of_nonneg_right (C110_lever (t.heliostat i) (iterate t (j + 1) i) (iterate t j i)) R.far0.le
    linarith
  obtain ⟨j, hj, hj0, ho, hm⟩ := C26_result t n minEps o m halign
  obtain ⟨j', rfl⟩ : ∃ j', j = j' + 1 := Nat.exists_eq_succ_of_ne_zero (fun h0 => by have := hj0 h0; omega)
  rcases hM with rfl | rfl
  · rw [ho i]; exact key j'
  · rcases hm with rfl | ⟨hn', rfl⟩
    · exact key j'
    · rw [← hn']; exact key _

/-- C110: the loss in iteration `j + 1` measures how much the wanted normal changed. -/
theorem C110_loss {k : Nat} (t : Task k) (i : Fin k) (far back s : ℝ) (R : Regular (t.heliostat i) (t.incident i) (t.aim i) far back s) (j : Nat) :
    length3 (t.desired (iterate t (j + 1)) i - t.desired (iterate t j) i) - slack s ≤ 4 * t.losses (iterate t (j + 1)) i ∧
    2 * t.losses (iterate t (j + 1)) i ≤ length3 (t.desired (iterate t (j + 1)) i - t.desired (iterate t j) i) + slack s := by
  have hd : ∀ j, t.desired (iterate t j) i = wanted (t.heliostat i) (t.incident i) (t.aim i) (iterate t j i) := fun _ => rfl
  have hl : t.losses (iterate t (j + 1)) i = Heliostat.loss (t.desired (iterate t (j + 1)) i) ((t.heliostat i).forward (iterate t (j + 1) i)) := rfl
  obtain ⟨l1, l2⟩ := loss_bounds (t.desired (iterate t (j + 1)) i) ((t.heliostat i).forward (iterate t (j + 1) i)) (by
    rw [hd, (R.wanted_spec _).1.1, (normal_direction _ _).1])
  rw [← hl] at l1 l2
  have n := R.normal_close (iterate t j i)
  rw [← iterate_succ, ← hd] at n
  have t1 := length3_triangle (t.desired (iterate t (j + 1)) i) ((t.heliostat i).forward (iterate t (j + 1) i) *ᵥ ![0, -1, 0, 0]) (t.desired (iterate t j) i)
  have t2 := length3_triangle ((t.heliostat i).forward (iterate t (j + 1) i) *ᵥ ![0, -1, 0, 0]) (t.desired (iterate t j) i) (t.desired (iterate t (j + 1)) i)
  rw [length3_sub_comm (t.desired (iterate t (j + 1)) i) ((t.heliostat i).forward (iterate t (j + 1) i) *ᵥ ![0, -1, 0, 0])] at t1
  rw [length3_sub_comm (t.desired (iterate t j) i) (t.desired (iterate t (j + 1)) i)] at t2
  constructor <;> linarith

/-- What alignment with `n` iterations and tolerance `minEps` leaves: the larger one of the movement left after `n - 2` contractions and the movement that goes with a loss
that changes by `minEps`, seen from the aim point, and the epsilon of the inverse kinematics. -/
noncomputable def remainder (h : Heliostat) (far back s : ℝ) (n : Nat) (minEps : ℝ) : ℝ :=
  max (factor h far back s ^ (n - 2) * (2 * lever h)) (stretch h s * (4 * minEps + 3 * slack s) / (1 - 2 * factor h far back s)) / far + 4 * slack s

/-- C110: if the loss still changes by more than the tolerance in the first iteration (see `C110_start`), alignment leaves an error of `remainder` at most, whether it ends because the
iterations are used up or because the loss does not change any more. -/
theorem C110_converges {k : Nat} (t : Task k) (n : Nat) (hn : 2 ≤ n) (minEps : ℝ) (o : Fin k → Mat) (m : Fin k → ℝ × ℝ) (halign : t.align n minEps = .ok (o, m))
    (hfirst : ∃ i, minEps < |t.losses (iterate t 0) i - t.losses (iterate t 1) i|)
    (i : Fin k) (far back s : ℝ) (R : Regular (t.heliostat i) (t.incident i) (t.aim i) far back s) (hq : 2 * factor (t.heliostat i) far back s < 1)
    (M : Mat) (hM : M = o i ∨ M = (t.heliostat i).motorToOrientation (m i)) :
    length3 (reflect (t.incident i) (M *ᵥ ![0, 0, 1, 0]) - toAim (t.aim i) M) ≤ remainder (t.heliostat i) far back s n minEps := by
  have q0 := R.factor0
  have lev : 0 ≤ lever (t.heliostat i) := add_nonneg (length3_nonneg _) (length3_nonneg _)
  have key : ∀ j x, length3 (centreOf t i (j + 1) - centreOf t i j) ≤ x → length3 (reflect (t.incident i) ((t.heliostat i).motorToOrientation (iterate t (j + 1) i) *ᵥ ![0, 0, 1, 0]) -
      toAim (t.aim i) ((t.heliostat i).motorToOrientation (iterate t (j + 1) i))) ≤ x / far + 4 * slack s := by
    intro j x hx
    refine (C110_direction _ _ _ _ _ _ R (iterate t j i) _ (iterate_succ t j i)).trans ?_
    have := div_le_div_of_nonneg_right hx R.far0.le
    unfold centreOf at this
    linarith
  have up : ∀ x, (x ≤ factor (t.heliostat i) far back s ^ (n - 2) * (2 * lever (t.heliostat i)) ∨
      x ≤ stretch (t.heliostat i) s * (4 * minEps + 3 * slack s) / (1 - 2 * factor (t.heliostat i) far back s)) → x / far + 4 * slack s ≤ remainder (t.heliostat i) far back s n minEps := by
    intro x hx
    unfold remainder
    have := div_le_div_of_nonneg_right (le_max_iff.2 hx) R.far0.le
    linarith
  obtain ⟨j, hj, ho, hend⟩ := align_end t n minEps o m halign
  rcases hend with ⟨hjn, rfl⟩ | ⟨rfl, j', hj', hstop⟩
  · rcases hM with rfl | rfl
    · obtain ⟨j', rfl⟩ : ∃ j', j = j' + 1 := Nat.exists_eq_succ_of_ne_zero (by omega)
      rw [ho i]
      exact (key j' _ (C110_contraction t i far back s R j')).trans (up _ (Or.inl (le_of_eq (by rw [show n - 2 = j' by omega]))))
    · have hn' : (t.heliostat i).motorToOrientation (iterate t n i) = (t.heliostat i).motorToOrientation (iterate t (j + 1) i) := by rw [hjn]
      rw [hn']
      refine (key j _ (C110_contraction t i far back s R j)).trans (up _ (Or.inl ?_))
      refine mul_le_mul_of_nonneg_right (pow_le_pow_of_le_one q0 (by linarith) (by omega)) (by linarith)
  · have hMj : M = (t.heliostat i).motorToOrientation (iterate t j i) := by
      rcases hM with rfl | rfl
      · exact ho i
      · rfl
    rw [hMj, hj']
    obtain ⟨j'', rfl⟩ : ∃ j'', j' = j'' + 1 := by
      refine Nat.exists_eq_succ_of_ne_zero ?_
      rintro rfl
      obtain ⟨i', hi'⟩ := hfirst
      exact absurd (hstop i') (not_le.2 hi')
    refine (key (j'' + 1) _ ?_).trans (up _ (Or.inr le_rfl))
    have c : ∀ j, length3 (centreOf t i (j + 2) - centreOf t i (j + 1)) ≤ stretch (t.heliostat i) s * length3 (t.desired (iterate t (j + 1)) i - t.desired (iterate t j) i) := by
      intro j
      have := R.centre_close (iterate t (j + 1) i) (iterate t j i)
      rw [← iterate_succ, ← iterate_succ] at this
      unfold centreOf
      rw [centre_offset, centre_offset]
      exact this
    have w := R.wanted_close (iterate t (j'' + 2) i) (iterate t (j'' + 1) i)
    have c0 := c j''
    have l1 := (C110_loss t i far back s R j'').1
    have l2 := (C110_loss t i far back s R (j'' + 1)).2
    have st := (abs_le.1 (hstop i)).2
    set x := length3 (t.desired (iterate t (j'' + 1)) i - t.desired (iterate t j'') i) with hx
    have w' : length3 (t.desired (iterate t (j'' + 1 + 1)) i - t.desired (iterate t (j'' + 1)) i) ≤ factor (t.heliostat i) far back s * x := by
      refine w.trans ?_
      rw [div_le_iff₀ (mul_pos R.far0 R.back0)]
      unfold centreOf at c0
      rw [centre_offset, centre_offset] at c0
      refine c0.trans (le_of_eq ?_)
      have := R.far0.ne'
      have := R.back0.ne'
      unfold factor
      field_simp
    have hxx : x * (1 - 2 * factor (t.heliostat i) far back s) ≤ 4 * minEps + 3 * slack s := by nlinarith
    refine c0.trans ?_
    rw [mul_div_assoc]
    exact mul_le_mul_of_nonneg_left ((le_div_iff₀ (by linarith)).2 hxx) R.stretch0

/-- C110: a heliostat whose mirror is not yet aligned with its motors at zero does change its loss in the first iteration. -/
theorem C110_start {k : Nat} (t : Task k) (minEps : ℝ) (i : Fin k) (far back s : ℝ) (R : Regular (t.heliostat i) (t.incident i) (t.aim i) far back s)
    (hstart : minEps + lever (t.heliostat i) / (far * back) + slack s / 2 < t.losses (fun _ => (0, 0)) i) :
    minEps < |t.losses (iterate t 0) i - t.losses (iterate t 1) i| := by
  have l2 := (C110_loss t i far back s R 0).2
  have lv := C110_lever (t.heliostat i) (iterate t 1 i) (iterate t 0 i)
  rw [centre_offset, centre_offset] at lv
  have w := (R.wanted_close (iterate t 1 i) (iterate t 0 i)).trans (div_le_div_of_nonneg_right lv (mul_pos R.far0 R.back0).le)
  have e : length3 (t.desired (iterate t (0 + 1)) i - t.desired (iterate t 0) i) ≤ 2 * (lever (t.heliostat i) / (far * back)) := by
    refine w.trans (le_of_eq ?_); ring
  have : t.losses (iterate t 0) i = t.losses (fun _ => (0, 0)) i := rfl
  refine lt_of_lt_of_le ?_ (le_abs_self _)
  rw [this]
  rw [zero_add] at l2 e
  linarith

/-- C110, down to the focal spot: a heliostat with a moving mirror centre is aligned with its aim point on a planar target and traced with an ideal flat mirror and an undistorted sun;
then the focal spot of its bitmap is at the aim point up to the resolution of the bitmap and `distance * remainder / cos`. -/
theorem C110_focal_spot (eps : ℝ) (he : 0 < eps) (W H : Nat) (hW : 2 ≤ W) (hH : 2 ≤ H) (m ext refl : ℝ) (hm : 0 < m) (hext : ext < 1) (hrefl : 0 < refl)
    (p : Plane ℝ) (hw : 0 < p.width) (hh : 0 < p.height) (hn : V3.normSq p.normal = 1) (blocked : V3 ℝ × V3 ℝ → ℝ) (hfree : ∀ ray, blocked ray = 0)
    {l : Nat} (t : Task l) (n : Nat) (hn2 : 2 ≤ n) (minEps : ℝ) (o : Fin l → Mat) (motors : Fin l → ℝ × ℝ) (halign : t.align n minEps = .ok (o, motors))
    (hfirst : ∃ i, minEps < |t.losses (iterate t 0) i - t.losses (iterate t 1) i|)
    (i : Fin l) (far back s : ℝ) (R : Regular (t.heliostat i) (t.incident i) (t.aim i) far back s) (hq : 2 * factor (t.heliostat i) far back s < 1)
    (points : List (ℝ × ℝ)) (hpoints : points ≠ []) (hbal : Balanced points) (k : Nat) (hk : 0 < k)
    (honplane : V3.dot (vec (t.aim i) - p.center) p.normal = 0)
    (hland : ∀ ray ∈ raysOf (t.incident i) (flatMirror (o i) points) (unscattered k points.length), Lands p ray) :
    ∃ bitmap factors, traceSample W H m ext refl (.planar p) blocked (raysOf (t.incident i) (flatMirror (o i) points) (unscattered k points.length)) =
        .ok (bitmap, factors) ∧
      let c := -(V3.dot (vec (reflect (t.incident i) (o i *ᵥ ![0, 0, 1, 0]))) p.normal)
      0 < c ∧ power W H bitmap = k * points.length * (m * (1 - ext) * refl * c) ∧
      |(focalSpot eps W H p bitmap).e - t.aim i 0| ≤ pixelError eps p.width (power W H bitmap) W +
        slant (t.aim i) (o i) * remainder (t.heliostat i) far back s n minEps / c ∧
      |(focalSpot eps W H p bitmap).u - t.aim i 2| ≤ pixelError eps p.height (power W H bitmap) H +
        slant (t.aim i) (o i) * remainder (t.heliostat i) far back s n minEps / c := by
  obtain ⟨j, _, ho, _⟩ := align_end t n minEps o motors halign
  have hM : Rigid (o i) := by rw [ho i]; exact (C24_rigid (t.heliostat i) _).2
  have hs : 0 < slant (t.aim i) (o i) := by
    rw [ho i, slant_offset]; exact lt_of_lt_of_le R.far0 (R.distant _)
  exact C92_flat_mirror eps he W H hW hH m ext refl hm hext hrefl p hw hh hn blocked hfree (o i) hM (t.incident i) (t.aim i) R.unit points hpoints hbal k hk
    honplane hs _ (C110_converges t n hn2 minEps o motors halign hfirst i far back s R hq (o i) (Or.inl rfl)) hland

/-! ### An instance: the heliostat of `C26_mismatch`, whose mirror is carried by an arm of one metre, aiming 100 m to the south under a sun straight above -/

/-- The scene. -/
noncomputable def farTask : Task 1 := { heliostat := fun _ => offsetHeliostat, incident := fun _ => ![0, 0, -1, 0], aim := fun _ => ![0, -100, 0, 1] }

theorem far_centre (m : ℝ × ℝ) : offsetHeliostat.forward m *ᵥ ![0, 0, 0, 1] = ![sin m.2, -(cos m.1 * cos m.2), -(sin m.1 * cos m.2), 1] := by
  rw [offset_forward]
  ext i; fin_cases i <;> simp [rotE, rotU, transl, mulVec, dotProduct, Fin.sum_univ_four, mul_apply]

theorem far_lever : lever offsetHeliostat = 1 ∧ concentrator offsetHeliostat = 1 := by
  have e3 : (![0, 0, 0, 0, 0, 0, 0, -1, 0] : Fin 9 → ℝ) 3 = 0 := rfl
  have e4 : (![0, 0, 0, 0, 0, 0, 0, -1, 0] : Fin 9 → ℝ) 4 = 0 := rfl
  have e5 : (![0, 0, 0, 0, 0, 0, 0, -1, 0] : Fin 9 → ℝ) 5 = 0 := rfl
  have e6 : (![0, 0, 0, 0, 0, 0, 0, -1, 0] : Fin 9 → ℝ) 6 = 0 := rfl
  have e7 : (![0, 0, 0, 0, 0, 0, 0, -1, 0] : Fin 9 → ℝ) 7 = -1 := rfl
  have e8 : (![0, 0, 0, 0, 0, 0, 0, -1, 0] : Fin 9 → ℝ) 8 = 0 := rfl
  have c : concentrator offsetHeliostat = 1 := by
    unfold concentrator offsetHeliostat length3; simp [e6, e7, e8]
  have d : secondJoint offsetHeliostat = 0 := by
    unfold secondJoint offsetHeliostat length3; simp [e3, e4, e5]
  exact ⟨by rw [lever, c, d, zero_add], c⟩

theorem far_aim (m : ℝ × ℝ) : 99 ≤ slant ![0, -100, 0, 1] (offsetHeliostat.forward m) ∧ |toAim ![0, -100, 0, 1] (offsetHeliostat.forward m) 0| ≤ 1 / 99 ∧
    1 ≤ length3 (toAim ![0, -100, 0, 1] (offsetHeliostat.forward m) - ![0, 0, -1, 0]) := by
  set v : Fin 4 → ℝ := ![-sin m.2, -100 + cos m.1 * cos m.2, sin m.1 * cos m.2, 0] with hv
  have hs : slant ![0, -100, 0, 1] (offsetHeliostat.forward m) = length3 v := by
    unfold slant; rw [far_centre]; congr 1; ext i; fin_cases i <;> simp [hv]
  have ht : toAim ![0, -100, 0, 1] (offsetHeliostat.forward m) = (length3 v)⁻¹ • v := by
    unfold toAim; rw [far_centre]
    have : (![(![0, -100, 0, 1] : Fin 4 → ℝ) 0 - (![sin m.2, -(cos m.1 * cos m.2), -(sin m.1 * cos m.2), 1] : Fin 4 → ℝ) 0,
      (![0, -100, 0, 1] : Fin 4 → ℝ) 1 - (![sin m.2, -(cos m.1 * cos m.2), -(sin m.1 * cos m.2), 1] : Fin 4 → ℝ) 1,
      (![0, -100, 0, 1] : Fin 4 → ℝ) 2 - (![sin m.2, -(cos m.1 * cos m.2), -(sin m.1 * cos m.2), 1] : Fin 4 → ℝ) 2, 0] : Fin 4 → ℝ) = v := by
      ext i; fin_cases i <;> simp [hv]
    simp only [this]
  have le1 : ∀ x y : ℝ, |x| ≤ 1 → |y| ≤ 1 → |x * y| ≤ 1 := by
    intro x y hx hy
    rw [abs_mul]
    calc |x| * |y| ≤ 1 * 1 := mul_le_mul hx hy (abs_nonneg _) zero_le_one
      _ = 1 := one_mul 1
  have h1 := abs_le.1 (le1 _ _ (abs_cos_le_one m.1) (abs_cos_le_one m.2))
  have h2 := le1 _ _ (abs_sin_le_one m.1) (abs_cos_le_one m.2)
  have l : 99 ≤ length3 v := by
    have := (abs_comp_le_length3 v).2.1
    have e : v 1 = -100 + cos m.1 * cos m.2 := by simp [hv]
    rw [e] at this
    have := neg_abs_le (-100 + cos m.1 * cos m.2)
    linarith
  have l0 : 0 < length3 v := by linarith
  have small : ∀ x : ℝ, |x| ≤ 1 → |(length3 v)⁻¹ * x| ≤ 1 / 99 := by
    intro x hx
    rw [abs_mul, abs_of_pos (inv_pos.2 l0), inv_mul_eq_div, div_le_div_iff₀ l0 (by norm_num)]
    linarith
  refine ⟨by rw [hs]; exact l, ?_, ?_⟩
  · rw [ht]
    simpa [hv] using small (-sin m.2) (by rw [abs_neg]; exact abs_sin_le_one _)
  · have b := abs_le.1 (small _ h2)
    have u : ((length3 v)⁻¹ * v 0) ^ 2 + ((length3 v)⁻¹ * v 1) ^ 2 + ((length3 v)⁻¹ * v 2) ^ 2 = 1 := by
      have := length3_sq v
      rw [mul_pow, mul_pow, mul_pow, ← mul_add, ← mul_add, ← this, ← mul_pow, inv_mul_cancel₀ l0.ne', one_pow]
    have e2 : v 2 = sin m.1 * cos m.2 := by simp [hv]
    refine abs_le_of_sq_le_sq' ?_ (length3_nonneg _) |>.2
    rw [length3_sq, ht]
    simp only [Pi.sub_apply, Pi.smul_apply, smul_eq_mul, Matrix.cons_val]
    rw [← e2] at b
    nlinarith

theorem far_regular : Regular (farTask.heliostat 0) (farTask.incident 0) (farTask.aim 0) 99 1 (1 / 2) where
  unit := by constructor <;> simp [farTask, length3]
  far_pos := by norm_num
  back_pos := by norm_num
  s_pos := by norm_num
  s_lt := by norm_num
  axes := by simp [farTask, offsetHeliostat]
  distant m := (far_aim m).1
  facing m := (far_aim m).2.2
  away m := by
    have r0 : rotN 0 = 1 := by ext i j; fin_cases i <;> fin_cases j <;> simp [rotN, one_apply]
    have r1 : rotU 0 = 1 := by ext i j; fin_cases i <;> fin_cases j <;> simp [rotU, one_apply]
    obtain ⟨f, a, b⟩ := far_aim m
    have w : wanted (farTask.heliostat 0) (farTask.incident 0) (farTask.aim 0) m = (length3 (toAim ![0, -100, 0, 1] (offsetHeliostat.forward m) - ![0, 0, -1, 0]))⁻¹ •
        (toAim ![0, -100, 0, 1] (offsetHeliostat.forward m) - ![0, 0, -1, 0]) :=
      desired_eq _ _ _ (by simp [farTask]) (le_trans (by norm_num) f) (le_trans (by norm_num) b)
    rw [w]
    have hr : (farTask.heliostat 0).rotation = 0 := rfl
    simp only [hr, Pi.zero_apply, r0, r1, one_mul, transpose_one, one_mulVec, cos_zero, abs_one, mul_one, Pi.smul_apply, smul_eq_mul, Pi.sub_apply, Matrix.cons_val, sub_zero]
    rw [abs_mul, abs_of_nonneg (inv_nonneg.2 (length3_nonneg _))]
    calc _ ≤ 1 * (1 / 99) := mul_le_mul (inv_le_one_of_one_le₀ b) a (abs_nonneg _) zero_le_one
      _ ≤ 1 / 2 := by norm_num
  actuators m θ _ := ⟨rfl, rfl⟩
  branch := Or.inl fun m => by
    have r := C25_angle_range (farTask.heliostat 0) (1 / 10 ^ 8) (wanted (farTask.heliostat 0) (farTask.incident 0) (farTask.aim 0) m) _ (Or.inl rfl)
    have := pi_lt_four
    refine ⟨⟨?_, ?_⟩, ?_, ?_⟩
    · change (-4 : ℝ) ≤ _; exact le_trans (by linarith) r.1.1.le
    · change _ ≤ (4 : ℝ); exact le_trans r.1.2 this.le
    · change (-4 : ℝ) ≤ _; exact le_trans (by linarith) r.2.1.le
    · change _ ≤ (4 : ℝ); exact le_trans r.2.2 this.le

theorem far_constants : stretch (farTask.heliostat 0) (1 / 2) ≤ 4 ∧ factor (farTask.heliostat 0) 99 1 (1 / 2) ≤ 1 / 20 ∧ slack (1 / 2) ≤ 2 / 10 ^ 8 := by
  have k : (13 / 15 : ℝ) * (999 / 1000) ≤ √(1 - (1 / 2) ^ 2) := Real.le_sqrt_of_sq_le (by norm_num)
  have k0 : 0 < √(1 - (1 / 2 : ℝ) ^ 2) := lt_of_lt_of_le (by norm_num) k
  have i : 1 / √(1 - (1 / 2 : ℝ) ^ 2) ≤ 7 / 6 := by rw [div_le_div_iff₀ k0 (by norm_num)]; linarith
  have i0 : 0 ≤ 1 / √(1 - (1 / 2 : ℝ) ^ 2) := by positivity
  have st : stretch (farTask.heliostat 0) (1 / 2) ≤ 4 := by
    unfold stretch
    have l : lever (farTask.heliostat 0) = 1 := far_lever.1
    have c : concentrator (farTask.heliostat 0) = 1 := far_lever.2
    have r : (farTask.heliostat 0).rotation 3 = 0 := rfl
    rw [l, c, r, cos_zero, abs_one, one_mul, one_mul, add_div, ← one_div_mul_eq_div _ (1 / √_)]
    nlinarith
  refine ⟨st, ?_, ?_⟩
  · unfold factor; rw [div_le_iff₀ (by norm_num)]; linarith
  · unfold slack
    rw [div_le_iff₀ k0]
    linarith

/-- the heliostat is not aligned with its motors at zero -/
theorem far_start : 1 / 6 ≤ farTask.losses (fun _ => (0, 0)) 0 := by
  have hM : offsetHeliostat.forward (0, 0) *ᵥ ![0, 0, 0, 1] = ![0, -1, 0, 1] := by rw [far_centre]; simp
  have hN : offsetHeliostat.forward (0, 0) *ᵥ ![0, -1, 0, 0] = ![0, -1, 0, 0] := by
    rw [offset_forward]
    ext i; fin_cases i <;> simp [rotE, rotU, transl, mulVec, dotProduct, Fin.sum_univ_four, mul_apply]
  have tA : toAim ![0, -100, 0, 1] (offsetHeliostat.forward (0, 0)) = ![0, -1, 0, 0] := by
    unfold toAim
    rw [hM]
    have l99 : length3 ![0, -99, 0, 0] = 99 := by
      unfold length3; rw [show (99 : ℝ) = √(99 ^ 2) from (Real.sqrt_sq (by norm_num)).symm]; congr 1; simp
    have e : (![(![0, -100, 0, 1] : Fin 4 → ℝ) 0 - (![0, -1, 0, 1] : Fin 4 → ℝ) 0, (![0, -100, 0, 1] : Fin 4 → ℝ) 1 - (![0, -1, 0, 1] : Fin 4 → ℝ) 1,
        (![0, -100, 0, 1] : Fin 4 → ℝ) 2 - (![0, -1, 0, 1] : Fin 4 → ℝ) 2, 0] : Fin 4 → ℝ) = ![0, -99, 0, 0] := by
      ext i; fin_cases i <;> simp; norm_num
    simp only [e, l99]
    ext i; fin_cases i <;> simp
  have l2 : length3 ((![0, -1, 0, 0] : Fin 4 → ℝ) - ![0, 0, -1, 0]) = √2 := by
    unfold length3; congr 1; simp; norm_num
  obtain ⟨f, -, b⟩ := far_aim (0, 0)
  have d : farTask.desired (fun _ => (0, 0)) 0 = (√2)⁻¹ • ((![0, -1, 0, 0] : Fin 4 → ℝ) - ![0, 0, -1, 0]) := by
    have := desired_eq ![0, 0, -1, 0] ![0, -100, 0, 1] (offsetHeliostat.forward (0, 0)) (by simp) (le_trans (by norm_num) f) (le_trans (by norm_num) b)
    rw [tA, l2] at this
    exact this
  have dd : farTask.desired (fun _ => (0, 0)) 0 = ![0, -(√2)⁻¹, (√2)⁻¹, 0] := by
    rw [d]; ext i; fin_cases i <;> simp
  have hl := (loss_bounds (farTask.desired (fun _ => (0, 0)) 0) (offsetHeliostat.forward (0, 0)) (by rw [hN, dd]; simp)).1
  rw [hN, dd] at hl
  have c := (abs_comp_le_length3 ((![0, -1, 0, 0] : Fin 4 → ℝ) - ![0, -(√2)⁻¹, (√2)⁻¹, 0])).2.2
  have e : ((![0, -1, 0, 0] : Fin 4 → ℝ) - ![0, -(√2)⁻¹, (√2)⁻¹, 0]) 2 = -(√2)⁻¹ := by simp
  have q : (2 : ℝ) / 3 ≤ (√2)⁻¹ := by
    rw [← one_div, le_div_iff₀ (by positivity)]
    have : √2 ≤ (3 / 2 : ℝ) := Real.sqrt_le_iff.2 ⟨by norm_num, by norm_num⟩
    linarith
  rw [e, abs_neg, abs_of_nonneg (by positivity)] at c
  rw [← dd] at hl c
  have : farTask.losses (fun _ => (0, 0)) 0 = Heliostat.loss (farTask.desired (fun _ => (0, 0)) 0) (offsetHeliostat.forward (0, 0)) := rfl
  rw [this]
  linarith

/-- C110, instance: with the default settings of the code (four iterations, tolerance 1e-4) this heliostat, whose mirror moves by up to two metres, is aligned to 1e-4. -/
example : ∃ o m, farTask.align 4 (1 / 10 ^ 4) = .ok (o, m) ∧
    length3 (reflect (farTask.incident 0) (o 0 *ᵥ ![0, 0, 1, 0]) - toAim (farTask.aim 0) (o 0)) ≤ 1 / 10 ^ 4 := by
  obtain ⟨st, fa, sl⟩ := far_constants
  have R := far_regular
  have lv : lever (farTask.heliostat 0) = 1 := far_lever.1
  have f0 := R.factor0
  have s0 := R.slack0
  have hfirst : ∃ i, 1 / 10 ^ 4 < |farTask.losses (iterate farTask 0) i - farTask.losses (iterate farTask 1) i| := by
    refine ⟨0, C110_start farTask _ 0 99 1 (1 / 2) R ?_⟩
    rw [lv]
    have := far_start
    norm_num at *
    linarith
  refine ⟨_, _, rfl, (C110_converges farTask 4 (by norm_num) _ _ _ rfl hfirst 0 99 1 (1 / 2) R (by linarith) _ (Or.inl rfl)).trans ?_⟩
  unfold remainder
  rw [lv]
  have a : factor (farTask.heliostat 0) 99 1 (1 / 2) ^ (4 - 2) * (2 * 1) ≤ 1 / 200 := by
    have := mul_le_mul fa fa f0 (by norm_num)
    norm_num at *
    nlinarith
  have b : stretch (farTask.heliostat 0) (1 / 2) * (4 * (1 / 10 ^ 4) + 3 * slack (1 / 2)) / (1 - 2 * factor (farTask.heliostat 0) 99 1 (1 / 2)) ≤ 1 / 200 := by
    rw [div_le_iff₀ (by linarith)]
    have : stretch (farTask.heliostat 0) (1 / 2) * (4 * (1 / 10 ^ 4) + 3 * slack (1 / 2)) ≤ 4 * (5 / 10 ^ 4) :=
      mul_le_mul st (by linarith) (by positivity) (by norm_num)
    linarith
  have := div_le_div_of_nonneg_right (max_le a b) (by norm_num : (0 : ℝ) ≤ 99)
  linarith

end Artist.Converge
