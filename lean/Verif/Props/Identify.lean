import Mathlib.Analysis.Real.Pi.Bounds
import Verif.Proofs.Identify
import Verif.Spec.Identify
/-! Property C116: measured normals determine the kinematics up to one redundant pair of parameters. -/
namespace Artist.Kinematics
open Matrix Real Transforms Identify

theorem core {a d α₁ α₂ α₃ b β γ a' d' α₁' α₂' α₃' b' β' γ' : ℝ} (ha : |a| < π / 2) (hd : |d| < π / 2) (hb : |b| < π / 2)
    (ha' : |a'| < π / 2) (hd' : |d'| < π / 2) (hb' : |b'| < π / 2)
    (h12 : ¬ SameAngle α₁ α₂) (h32 : ¬ SameAngle α₃ α₂) (h13 : ¬ SameAngle α₁ α₃) (hn : ¬ (b = 0 ∧ cos β = 0)) (hg : sin (β - γ) ≠ 0)
    (e1 : normalOf a d α₁ b β = normalOf a' d' α₁' b' β') (e2 : normalOf a d α₂ b β = normalOf a' d' α₂' b' β')
    (e3 : normalOf a d α₃ b β = normalOf a' d' α₃' b' β') (e4 : normalOf a d α₁ b γ = normalOf a' d' α₁' b' γ') :
    a = a' ∧ d = d' ∧
    ((b = b' ∧ (SameAngle α₁ α₁' ∧ SameAngle α₂ α₂' ∧ SameAngle α₃ α₃') ∧ SameAngle β β' ∧ SameAngle γ γ') ∨
     (b' = -b ∧ (SameAngle α₁' (α₁ + π) ∧ SameAngle α₂' (α₂ + π) ∧ SameAngle α₃' (α₃ + π)) ∧ SameAngle β' (π - β) ∧ SameAngle γ' (π - γ))) := by
  have cb := tilt_cos hb
  have cb' := tilt_cos hb'
  have sβ := sin_sq_add_cos_sq β
  have hρ : (-cos β) ^ 2 + (sin b * sin β) ^ 2 ≠ 0 := by
    intro h0
    have c0 : cos β = 0 := by nlinarith [sq_nonneg (cos β), sq_nonneg (sin b * sin β)]
    have s0 : sin b * sin β = 0 := by nlinarith [sq_nonneg (cos β), sq_nonneg (sin b * sin β)]
    have s1 : sin β ≠ 0 := by intro h; rw [h, c0] at sβ; norm_num at sβ
    have : sin b = sin 0 := by rw [sin_zero]; exact (mul_eq_zero.1 s0).resolve_right s1
    exact hn ⟨tilt_eq hb (by simp; positivity) this, c0⟩
  have axis : sin d = sin d' ∧ cos d = cos d' ∧ cos a = cos a' ∧ sin a = sin a' := by
    refine same_axis (x := cos b * sin β) (y := -cos β) (z := sin b * sin β) (x' := cos b' * sin β') (α₁ := α₁) (α₂ := α₂) (α₃ := α₃)
      (tilt_cos ha) (tilt_cos hd) (tilt_cos ha') (tilt_cos hd') (half_ne h12) (half_ne h32) (half_ne h13) hρ ?_
    have key : ∀ α α', normalOf a d α b β = normalOf a' d' α' b' β' → 
      (cos a * (cos d * (cos b * sin β) - sin d * (cos α * -cos β - sin α * (sin b * sin β))) - sin a * (sin α * -cos β + cos α * (sin b * sin β))) * (cos a' * cos d') +
      (sin d * (cos b * sin β) + cos d * (cos α * -cos β - sin α * (sin b * sin β))) * sin d' +
      (sin a * (cos d * (cos b * sin β) - sin d * (cos α * -cos β - sin α * (sin b * sin β))) + cos a * (sin α * -cos β + cos α * (sin b * sin β))) * (sin a' * cos d') =
        cos b' * sin β' := by
      intro α α' e
      have f0 := congrFun e 0
      have f1 := congrFun e 1
      have f2 := congrFun e 2
      simp [normalOf] at f0 f1 f2
      have sa := sin_sq_add_cos_sq a'
      have sd := sin_sq_add_cos_sq d'
      linear_combination (cos a' * cos d') * f0 + sin d' * f1 + (sin a' * cos d') * f2 +
        cos d' * (cos d' * (cos b' * sin β') - sin d' * (-(cos α' * cos β') - sin α' * (sin b' * sin β'))) * sa + cos b' * sin β' * sd
    rintro α (rfl | rfl | rfl)
    · exact key _ _ e1
    · exact key _ _ e2
    · exact key _ _ e3
  have hda : d = d' := tilt_eq hd hd' axis.1
  have haa : a = a' := tilt_eq ha ha' axis.2.2.2
  subst hda; subst haa
  refine ⟨rfl, rfl, ?_⟩
  have un : ∀ α α' t t', normalOf a d α b t = normalOf a d α' b' t' → cos b * sin t = cos b' * sin t' ∧
      -cos t = cos (α' - α) * -cos t' - sin (α' - α) * (sin b' * sin t') ∧ sin b * sin t = sin (α' - α) * -cos t' + cos (α' - α) * (sin b' * sin t') := by
    intro α α' t t' e
    obtain ⟨u1, u2, u3⟩ := undo e
    exact ⟨u1, turned (by linear_combination u2) (by linear_combination u3)⟩
  obtain ⟨x1, y1, z1⟩ := un _ _ _ _ e1
  obtain ⟨-, y2, z2⟩ := un _ _ _ _ e2
  obtain ⟨-, y3, z3⟩ := un _ _ _ _ e3
  obtain ⟨x4, y4, z4⟩ := un _ _ _ _ e4
  obtain ⟨c, hc⟩ : ∃ c, c = α₁' - α₁ := ⟨_, rfl⟩
  rw [← hc] at y1 z1 y4 z4
  have sc := sin_sq_add_cos_sq c
  have sb := sin_sq_add_cos_sq b
  have sb' := sin_sq_add_cos_sq b'
  have hcos : cos (β - γ) = cos (β' - γ') := by
    rw [cos_sub, cos_sub]
    linear_combination -cos γ * y1 + (cos c * -cos β' - sin c * (sin b' * sin β')) * y4 + sin b * sin γ * z1 +
      (sin c * -cos β' + cos c * (sin b' * sin β')) * z4 + cos b * sin γ * x1 + cos b' * sin β' * x4 - sin β * sin γ * sb +
      sin β' * sin γ' * sb' + (cos β' * cos γ' + sin b' * sin β' * (sin b' * sin γ')) * sc
  have hs' : sin (β' - γ') ≠ 0 := by
    intro h0
    have q1 := sin_sq_add_cos_sq (β - γ)
    have q2 := sin_sq_add_cos_sq (β' - γ')
    rw [← hcos, h0] at q2
    exact hg (pow_eq_zero_iff two_ne_zero |>.1 (by linarith))
  obtain ⟨g1, g2⟩ := two_eq (p := sin β') (q := cos β') (p' := sin γ') (q' := cos γ')
    (g := cos b * cos c * sin b' - sin b * cos b') (k := -(cos b * sin c))
    (by linear_combination sin b * x1 - cos b * z1) (by linear_combination sin b * x4 - cos b * z4)
    (by rw [sin_sub] at hs'; intro h; apply hs'; linear_combination h)
  have s0 : sin c = 0 := by
    have : cos b * sin c = 0 := by linarith
    exact (mul_eq_zero.1 this).resolve_left cb.ne'
  have hc2 : cos c ^ 2 = 1 := by rw [s0] at sc; linarith
  rw [s0] at y1 z1 y4 z4
  have hρ' : (-cos β') ^ 2 + (sin b' * sin β') ^ 2 ≠ 0 := by
    intro h0
    apply hρ
    rw [y1, z1]
    linear_combination cos c ^ 2 * h0
  have t1 := fun ε (h1 : -cos β = ε * -cos β') (h2 : sin b * sin β = ε * (sin b' * sin β')) => turned_cos y2 z2 h1 h2 hρ'
  have t2 := fun ε (h1 : -cos β = ε * -cos β') (h2 : sin b * sin β = ε * (sin b' * sin β')) => turned_cos y3 z3 h1 h2 hρ'
  have sym : ∀ x y : ℝ, cos (y - x) = 1 → SameAngle x y := fun x y h => angle_eq (by rw [← cos_neg, neg_sub]; exact h)
  have flip : ∀ x y : ℝ, cos (y - x) = -1 → SameAngle y (x + π) := fun x y h => angle_eq (by
    rw [show y - (x + π) = (y - x) - π by ring, cos_sub_pi, h, neg_neg])
  have hsc : cos c = 1 ∨ cos c = -1 := by
    have : (cos c - 1) * (cos c + 1) = 0 := by linear_combination hc2
    rcases mul_eq_zero.1 this with h | h
    · left; linarith
    · right; linarith
  rcases hsc with h1 | h1
  · left
    rw [h1] at y1 z1 y4 z4 g1
    have hbb : b = b' := by
      have h0 : sin (b - b') = 0 := by rw [sin_sub]; linear_combination -g1
      obtain ⟨u1, u2⟩ := abs_lt.1 hb
      obtain ⟨v1, v2⟩ := abs_lt.1 hb'
      have := (sin_eq_zero_iff_of_lt_of_lt (by linarith) (by linarith)).1 h0
      linarith
    have q1 := t1 1 (by linarith) (by linarith)
    have q2 := t2 1 (by linarith) (by linarith)
    rw [← hbb] at x1 x4
    have w1 := mul_left_cancel₀ cb.ne' x1
    have w4 := mul_left_cancel₀ cb.ne' x4
    have sγ := sin_sq_add_cos_sq γ
    refine ⟨hbb, ⟨sym _ _ (by rw [← hc]; exact h1), sym _ _ q1, sym _ _ q2⟩, angle_eq ?_, angle_eq ?_⟩
    · rw [cos_sub, ← w1]; linear_combination sβ + cos β * y1
    · rw [cos_sub, ← w4]; linear_combination sγ + cos γ * y4
  · right
    rw [h1] at y1 z1 y4 z4 g1
    have hbb : b' = -b := by
      have h0 : sin (b + b') = 0 := by rw [sin_add]; linear_combination -g1
      obtain ⟨u1, u2⟩ := abs_lt.1 hb
      obtain ⟨v1, v2⟩ := abs_lt.1 hb'
      have := (sin_eq_zero_iff_of_lt_of_lt (by linarith) (by linarith)).1 h0
      linarith
    have q1 := t1 (-1) (by linarith) (by linarith)
    have q2 := t2 (-1) (by linarith) (by linarith)
    rw [hbb, cos_neg] at x1 x4
    have w1 := mul_left_cancel₀ cb.ne' x1
    have w4 := mul_left_cancel₀ cb.ne' x4
    have sγ := sin_sq_add_cos_sq γ
    refine ⟨hbb, ⟨flip _ _ (by rw [← hc]; exact h1), flip _ _ q1, flip _ _ q2⟩, angle_eq ?_, angle_eq ?_⟩
    · rw [cos_sub, cos_pi_sub, sin_pi_sub, ← w1]; linear_combination sβ + cos β * y1
    · rw [cos_sub, cos_pi_sub, sin_pi_sub, ← w4]; linear_combination sγ + cos γ * y4

/-- What four measured normals say about two candidates for the kinematics of a heliostat: tilts below a right angle, three positions
of the first motor at which the first joint has different angles, two positions of the second motor. -/
structure Agree (h h' : Heliostat) (p₁ p₂ p₃ q₁ q₂ : ℝ) : Prop where
  tilts : ∀ i, i ≠ 2 → |h.rotation i| < π / 2 ∧ |h'.rotation i| < π / 2
  first : ¬ SameAngle (h.actuator1.toAngle p₁) (h.actuator1.toAngle p₂) ∧ ¬ SameAngle (h.actuator1.toAngle p₃) (h.actuator1.toAngle p₂) ∧
    ¬ SameAngle (h.actuator1.toAngle p₁) (h.actuator1.toAngle p₃)
  second : sin (h.actuator2.toAngle q₁ - h.actuator2.toAngle q₂) ≠ 0
  across : ¬ (h.rotation 3 = 0 ∧ cos (h.actuator2.toAngle q₁) = 0)
  normals : ∀ m ∈ [(p₁, q₁), (p₂, q₁), (p₃, q₁), (p₁, q₂)],
    h.motorToOrientation m *ᵥ ![0, 0, 1, 0] = h'.motorToOrientation m *ᵥ ![0, 0, 1, 0]

/-- C116: **four normals determine the kinematics**: the tilts of the first axis, the tilt of the second axis about north, and, up to full
turns, the angle of the second joint and the *sum* of the angle of the first joint and the tilt of the second axis about east.  The only
other candidate is the one with the mirror turned over: both joints on the other side. -/
theorem C116_normals (h h' : Heliostat) (p₁ p₂ p₃ q₁ q₂ : ℝ) (ag : Agree h h' p₁ p₂ p₃ q₁ q₂) :
    h.rotation 0 = h'.rotation 0 ∧ h.rotation 1 = h'.rotation 1 ∧
    ((h.rotation 3 = h'.rotation 3 ∧
      (∀ p ∈ [p₁, p₂, p₃], SameAngle (h.actuator1.toAngle p + h.rotation 2) (h'.actuator1.toAngle p + h'.rotation 2)) ∧
      ∀ q ∈ [q₁, q₂], SameAngle (h.actuator2.toAngle q) (h'.actuator2.toAngle q)) ∨
     (h'.rotation 3 = -h.rotation 3 ∧
      (∀ p ∈ [p₁, p₂, p₃], SameAngle (h'.actuator1.toAngle p + h'.rotation 2) (h.actuator1.toAngle p + h.rotation 2 + π)) ∧
      ∀ q ∈ [q₁, q₂], SameAngle (h'.actuator2.toAngle q) (π - h.actuator2.toAngle q))) := by
  have shift : ∀ x y z, SameAngle (x + z) (y + z) → SameAngle x y := fun x y z ⟨k, hk⟩ => ⟨k, by linarith⟩
  have e := ag.normals
  simp only [normal_formula, List.mem_cons, List.not_mem_nil, or_false, forall_eq_or_imp, forall_eq] at e
  obtain ⟨e1, e2, e3, e4⟩ := e
  obtain ⟨f1, f2, f3⟩ := ag.first
  have := core (ag.tilts 0 (by decide)).1 (ag.tilts 1 (by decide)).1 (ag.tilts 3 (by decide)).1 (ag.tilts 0 (by decide)).2
    (ag.tilts 1 (by decide)).2 (ag.tilts 3 (by decide)).2 (fun h => f1 (shift _ _ _ h)) (fun h => f2 (shift _ _ _ h))
    (fun h => f3 (shift _ _ _ h)) ag.across ag.second e1 e2 e3 e4
  simp only [List.mem_cons, List.not_mem_nil, or_false, forall_eq_or_imp, forall_eq]
  exact this

/-- C116: if the second joint of both candidates stays within a right angle of its middle position, the candidate turned over is
excluded. -/
theorem C116_unique (h h' : Heliostat) (p₁ p₂ p₃ q₁ q₂ : ℝ) (ag : Agree h h' p₁ p₂ p₃ q₁ q₂)
    (hq : |h.actuator2.toAngle q₁| < π / 2 ∧ |h'.actuator2.toAngle q₁| < π / 2) (hq' : |h.actuator2.toAngle q₂| < π / 2 ∧ |h'.actuator2.toAngle q₂| < π / 2) :
    h.rotation 0 = h'.rotation 0 ∧ h.rotation 1 = h'.rotation 1 ∧ h.rotation 3 = h'.rotation 3 ∧
      (∀ p ∈ [p₁, p₂, p₃], SameAngle (h.actuator1.toAngle p + h.rotation 2) (h'.actuator1.toAngle p + h'.rotation 2)) ∧
      ∀ q ∈ [q₁, q₂], h.actuator2.toAngle q = h'.actuator2.toAngle q := by
  obtain ⟨r0, r1, ⟨r3, h1, h2⟩ | ⟨r3, h1, h2⟩⟩ := C116_normals h h' p₁ p₂ p₃ q₁ q₂ ag
  · refine ⟨r0, r1, r3, h1, ?_⟩
    have key : ∀ x y, |x| < π / 2 → |y| < π / 2 → SameAngle x y → x = y := by
      rintro x y hx hy ⟨k, hk⟩
      refine tilt_eq hx hy ?_
      rw [show x = y + k * (2 * π) by linarith, sin_add_int_mul_two_pi]
    simp only [List.mem_cons, List.not_mem_nil, or_false, forall_eq_or_imp, forall_eq] at h2 ⊢
    exact ⟨key _ _ hq.1 hq.2 h2.1, key _ _ hq'.1 hq'.2 h2.2⟩
  · exfalso
    obtain ⟨k, hk⟩ := h2 q₁ (by simp)
    have c1 := tilt_cos hq.1
    have c2 := tilt_cos hq.2
    rw [show h'.actuator2.toAngle q₁ = (π - h.actuator2.toAngle q₁) + k * (2 * π) by linarith, cos_add_int_mul_two_pi, cos_pi_sub] at c2
    linarith

/-- C116: **for known actuators four normals determine all rotation deviations**, which are the parameters that the kinematics
reconstruction optimises. -/
theorem C116_deviations (h h' : Heliostat) (p₁ p₂ p₃ q₁ q₂ : ℝ) (ag : Agree h h' p₁ p₂ p₃ q₁ q₂) (a1 : h'.actuator1 = h.actuator1)
    (a2 : h'.actuator2 = h.actuator2) (t2 : |h.rotation 2| < π / 2 ∧ |h'.rotation 2| < π / 2) : h.rotation = h'.rotation := by
  obtain ⟨r0, r1, ⟨r3, h1, h2⟩ | ⟨r3, h1, h2⟩⟩ := C116_normals h h' p₁ p₂ p₃ q₁ q₂ ag
  · have r2 : h.rotation 2 = h'.rotation 2 := by
      obtain ⟨k, hk⟩ := h1 p₁ (by simp)
      rw [a1] at hk
      refine tilt_eq t2.1 t2.2 ?_
      rw [show h.rotation 2 = h'.rotation 2 + k * (2 * π) by linarith, sin_add_int_mul_two_pi]
    funext i
    fin_cases i
    · exact r0
    · exact r1
    · exact r2
    · exact r3
  · exfalso
    obtain ⟨k, hk⟩ := h2 q₁ (by simp)
    obtain ⟨l, hl⟩ := h2 q₂ (by simp)
    rw [a2] at hk hl
    apply ag.second
    rw [show h.actuator2.toAngle q₁ - h.actuator2.toAngle q₂ = ((k - l : ℤ) : ℝ) * π by push_cast; linarith, sin_int_mul_pi]

/-- A heliostat whose motors turn the joints by one radian per step, with tilted axes. -/
noncomputable def tilted : Heliostat :=
  { position := ![0, 50, 2, 1], translation := fun _ => 1 / 10, rotation := ![1 / 100, -1 / 50, 0, 3 / 100], actuator1 := ⟨id, id, 0, 3⟩, actuator2 := ⟨id, id, 0, 3⟩ }

/-- Another candidate, with a different tilt and a different initial angle. -/
noncomputable def other : Heliostat :=
  { tilted with rotation := ![1 / 100, -1 / 50, 3 / 10, 3 / 100], actuator1 := ⟨fun x => x - 3 / 10, fun x => x + 3 / 10, 0, 3⟩ }

theorem not_same {x y : ℝ} (h : x ≠ y) (hd : |x - y| < 6) : ¬ SameAngle x y := by
  rintro ⟨k, hk⟩
  have hp := Real.pi_gt_three
  rw [hk, abs_mul, abs_of_pos (by linarith : 0 < 2 * π)] at hd
  have : |(k : ℝ)| < 1 := by nlinarith [abs_nonneg (k : ℝ)]
  have k0 : k = 0 := by
    rw [← Int.cast_abs] at this
    have : |k| < 1 := by exact_mod_cast this
    exact Int.abs_lt_one_iff.1 this
  rw [k0] at hk
  exact h (by linarith [show (2 * π * ((0 : ℤ) : ℝ)) = 0 by simp])

example : Agree tilted other 0 1 2 0 1 := by
  have hp := Real.pi_gt_three
  have key : ∀ m, tilted.motorToOrientation m *ᵥ ![0, 0, 1, 0] = other.motorToOrientation m *ᵥ ![0, 0, 1, 0] := by
    intro m
    rw [normal_formula, normal_formula]
    simp [tilted, other]
  refine ⟨?_, ⟨not_same ?_ ?_, not_same ?_ ?_, not_same ?_ ?_⟩, ?_, ?_, fun m _ => key m⟩
  · intro i hi
    have h6 : (3:ℝ) / 2 < π / 2 := by linarith
    fin_cases i
    · exact ⟨lt_trans (by simp [tilted, abs_lt]; norm_num) h6, lt_trans (by simp [other, abs_lt]; norm_num) h6⟩
    · exact ⟨lt_trans (by simp [tilted, abs_lt]; norm_num) h6, lt_trans (by simp [other, abs_lt]; norm_num) h6⟩
    · exact absurd rfl hi
    · exact ⟨lt_trans (by simp [tilted, abs_lt]; norm_num) h6, lt_trans (by simp [other, abs_lt]; norm_num) h6⟩
  all_goals simp [tilted]
  all_goals try norm_num
  · intro h
    have := (sin_eq_zero_iff_of_lt_of_lt (by linarith) (by linarith) (x := 1)).1 h
    norm_num at this

/-- C116, **one redundant parameter** (and how the reconstruction makes up for a wrong initial angle of the first actuator): tilting the second axis of any heliostat about east by any angle and setting the initial angle of
the first actuator back by the same angle changes no orientation for any motor positions, so no measurement of any kind tells them apart. -/
theorem C116_redundant (h : Heliostat) (a : Actuators.Linear) (ha : h.actuator1 = a.actuator) (δ : ℝ) (m : ℝ × ℝ) :
    ({ h with rotation := Function.update h.rotation 2 (h.rotation 2 + δ),
              actuator1 := ({ a with initialAngle := a.initialAngle - δ } : Actuators.Linear).actuator } : Heliostat).motorToOrientation m =
      h.motorToOrientation m := by
  have hang : ({ a with initialAngle := a.initialAngle - δ } : Actuators.Linear).toAngle m.1 = a.toAngle m.1 - δ := by
    show (a.initialAngle - δ) + (a.absoluteAngle 0 - a.absoluteAngle m.1) * (if a.clockwise = 1 then 1 else 0) -
        (a.absoluteAngle 0 - a.absoluteAngle m.1) * (if a.clockwise = 0 then 1 else 0) =
      a.initialAngle + (a.absoluteAngle 0 - a.absoluteAngle m.1) * (if a.clockwise = 1 then 1 else 0) -
        (a.absoluteAngle 0 - a.absoluteAngle m.1) * (if a.clockwise = 0 then 1 else 0) - δ
    ring
  unfold Heliostat.motorToOrientation Heliostat.forward
  rw [sum_only, sum_only]
  have e0 : h.actuator1.toAngle m.1 = a.toAngle m.1 := by rw [ha]; rfl
  have e1 : ({ a with initialAngle := a.initialAngle - δ } : Actuators.Linear).actuator.toAngle m.1 = a.toAngle m.1 - δ := hang
  simp only [Function.update_self, Function.update_of_ne (show (3 : Fin 4) ≠ 2 by decide), Function.update_of_ne (show (0 : Fin 4) ≠ 2 by decide),
    Function.update_of_ne (show (1 : Fin 4) ≠ 2 by decide), e1, e0, sub_add_add_cancel]

/-- C116, the second candidate is real: it has the same normals for all motor positions, and its mirror is the same mirror turned by half
a turn about its normal. -/
theorem C116_turned_over (h h' : Heliostat) (r0 : h'.rotation 0 = h.rotation 0) (r1 : h'.rotation 1 = h.rotation 1)
    (r3 : h'.rotation 3 = -h.rotation 3) (m : ℝ × ℝ) (h1 : h'.actuator1.toAngle m.1 + h'.rotation 2 = h.actuator1.toAngle m.1 + h.rotation 2 + π)
    (h2 : h'.actuator2.toAngle m.2 = π - h.actuator2.toAngle m.2) (x y z : ℝ) :
    h'.motorToOrientation m *ᵥ ![x, y, z, 0] = h.motorToOrientation m *ᵥ ![-x, -y, z, 0] := by
  unfold Heliostat.motorToOrientation Heliostat.forward
  rw [sum_only, sum_only, offset_eq, r0, r1, r3, h1, h2]
  simp only [← Matrix.mulVec_mulVec, rotE_dir, rotN_dir, rotU_dir, transl_dir, cos_pi_div_two, sin_pi_div_two, cos_add_pi, sin_add_pi,
    cos_pi_sub, sin_pi_sub, cos_neg, sin_neg]
  congr 1
  · ring
  congr 1
  · ring
  congr 1
  · ring

end Artist.Kinematics
