import Verif.Proofs.Pointing
import Verif.Props.MotorImage
/-!
# C119: how far pointing errors reach

An angular error of a joint turns the reflected light by at most twice that angle, and so on down to the target.
-/
namespace Artist.Pointing
open Artist Matrix Real Transforms Kinematics Intersect Flux Moved Converge

/-- C119: if the joints are off by `|Δ₁|` and `|Δ₂|`, every direction fixed to the mirror turns by at most `|Δ₁| + |Δ₂|`, and a point of the mirror moves by at most these angles times
its greatest possible distance from the two joints. -/
theorem C119_mirror (h : Heliostat) (m m' : ℝ × ℝ) (e₁ e₂ : ℝ) (h₁ : |(angles h m).1 - (angles h m').1| ≤ e₁) (h₂ : |(angles h m).2 - (angles h m').2| ≤ e₂) :
    (∀ v, v 3 = 0 → length3 (h.motorToOrientation m *ᵥ v - h.motorToOrientation m' *ᵥ v) ≤ (e₁ + e₂) * length3 v) ∧
    ∀ p, p 3 = 1 → length3 (h.motorToOrientation m *ᵥ p - h.motorToOrientation m' *ᵥ p) ≤ shift h (length3 p) e₁ e₂ := by
  have a1 : 0 ≤ e₁ := (abs_nonneg _).trans h₁
  have hl : 0 ≤ lever h := add_nonneg (length3_nonneg _) (length3_nonneg _)
  have hc : 0 ≤ concentrator h := length3_nonneg _
  constructor
  · intro v hv
    refine (orientation_close h m m' v).trans ?_
    rw [hv, abs_zero, zero_mul, zero_mul, add_zero, add_mul]
    exact add_le_add (mul_le_mul_of_nonneg_right h₁ (length3_nonneg _)) (mul_le_mul_of_nonneg_right h₂ (length3_nonneg _))
  · intro p hp
    refine (orientation_close h m m' p).trans ?_
    rw [hp, abs_one, one_mul, one_mul]
    exact add_le_add (mul_le_mul_of_nonneg_right h₁ (add_nonneg (length3_nonneg _) hl)) (mul_le_mul_of_nonneg_right h₂ (add_nonneg (length3_nonneg _) hc))

/-- C119: an error of the normal reaches the reflected light at most doubled, an error of the direction of the sun exactly. -/
theorem C119_reflection (i i' n n' : Fin 4 → ℝ) (hi : UnitDirection i) (hi' : i' 3 = 0) (hn : UnitDirection n) (hn' : UnitDirection n') :
    length3 (reflect i n - reflect i n') ≤ 2 * length3 (n - n') ∧ length3 (reflect i n - reflect i' n) = length3 (i - i') := by
  refine ⟨?_, reflect_incident i i' n hi.1 hi' hn⟩
  have := reflect_normals i n n' hi.1 hn hn'
  rwa [hi.2, mul_one] at this

theorem unit_turned (h : Heliostat) (m : ℝ × ℝ) (n : Fin 4 → ℝ) (hn : UnitDirection n) : UnitDirection (h.motorToOrientation m *ᵥ n) := by
  have hr := (C24_rigid h m).2
  exact ⟨by rw [hr.homogeneous, hn.1], by rw [hr.length_dir _ hn.1, hn.2]⟩

/-- C119: ray by ray, with joint angles that are off by at most `e₁` and `e₂` and a sun that is off by at most `σ`, the rays of a heliostat start at most `shift` apart and their unit
directions differ by at most `σ + 2 (e₁ + e₂)`.  This holds for every mirror and whatever the scattering. -/
theorem C119_rays (h : Heliostat) (m m' : ℝ × ℝ) (i i' : Fin 4 → ℝ) (mirror : List ((Fin 4 → ℝ) × (Fin 4 → ℝ))) (distortions : List (List (ℝ × ℝ))) (R e₁ e₂ σ : ℝ)
    (hm : Within R mirror) (hi : UnitDirection i) (hi' : UnitDirection i') (hσ : length3 (i - i') ≤ σ)
    (h₁ : |(angles h m).1 - (angles h m').1| ≤ e₁) (h₂ : |(angles h m).2 - (angles h m').2| ≤ e₂) :
    List.Forall₂ (fun ray ray' => apart ray.1 ray'.1 ≤ shift h R e₁ e₂ ∧ apart ray.2 ray'.2 ≤ σ + 2 * (e₁ + e₂) ∧ V3.normSq ray'.2 = 1)
      (raysOf i (placed (h.motorToOrientation m) mirror) distortions) (raysOf i' (placed (h.motorToOrientation m') mirror) distortions) := by
  have a1 : 0 ≤ e₁ := (abs_nonneg _).trans h₁
  have a2 : 0 ≤ e₂ := (abs_nonneg _).trans h₂
  obtain ⟨k1, k2⟩ := C119_mirror h m m' e₁ e₂ h₁ h₂
  have single : ∀ q : (Fin 4 → ℝ) × (Fin 4 → ℝ), q ∈ mirror → ∀ e u : ℝ,
      apart ⟨(h.motorToOrientation m *ᵥ q.1) 0, (h.motorToOrientation m *ᵥ q.1) 1, (h.motorToOrientation m *ᵥ q.1) 2⟩
        ⟨(h.motorToOrientation m' *ᵥ q.1) 0, (h.motorToOrientation m' *ᵥ q.1) 1, (h.motorToOrientation m' *ᵥ q.1) 2⟩ ≤ shift h R e₁ e₂ ∧
      apart (direction i (h.motorToOrientation m *ᵥ q.2) e u) (direction i' (h.motorToOrientation m' *ᵥ q.2) e u) ≤ σ + 2 * (e₁ + e₂) ∧
      V3.normSq (direction i' (h.motorToOrientation m' *ᵥ q.2) e u) = 1 := by
    intro q hq e u
    obtain ⟨q1, q2, q3⟩ := hm q hq
    have n1 := unit_turned h m q.2 q3
    have n2 := unit_turned h m' q.2 q3
    refine ⟨?_, ?_, ?_⟩
    · rw [apart_eq]
      refine (k2 q.1 q1).trans ?_
      unfold shift
      exact add_le_add (mul_le_mul_of_nonneg_left (by linarith) a1) (mul_le_mul_of_nonneg_left (by linarith) a2)
    · rw [scattered _ _ _ _ _ _ (by rw [C16_direction _ _ hi.1 n1.1, C16_direction _ _ hi'.1 n2.1])]
      refine (length3_triangle _ (reflect i' (h.motorToOrientation m *ᵥ q.2)) _).trans (add_le_add ?_ ?_)
      · rw [reflect_incident _ _ _ hi.1 hi'.1 n1]
        exact hσ
      · refine (C119_reflection i' i' _ _ hi' hi'.1 n1 n2).1.trans (mul_le_mul_of_nonneg_left ?_ (by norm_num))
        refine (k1 q.2 q3.1).trans ?_
        rw [q3.2, mul_one]
    · have z : reflect i' (h.motorToOrientation m' *ᵥ q.2) 3 = 0 := C16_direction _ _ hi'.1 n2.1
      have l : length3 (rotDist e u *ᵥ reflect i' (h.motorToOrientation m' *ᵥ q.2)) ^ 2 = 1 := by
        rw [(rigid_rotDist e u).length_dir _ z]
        have z0 : reflect (0 : Fin 4 → ℝ) (h.motorToOrientation m' *ᵥ q.2) = 0 := by unfold reflect; simp
        have := reflect_incident i' 0 _ hi'.1 rfl n2
        rw [z0, sub_zero, sub_zero, hi'.2] at this
        rw [this, one_pow]
      rw [length3_sq] at l
      unfold direction V3.normSq V3.dot
      simp only
      linarith
  unfold raysOf placed
  induction distortions with
  | nil => simp
  | cons row rows ih =>
    rw [List.flatMap_cons, List.flatMap_cons]
    refine List.rel_append ?_ ih
    clear ih hm
    induction mirror generalizing row with
    | nil => simp
    | cons q mirror ih =>
      cases row with
      | nil => simp
      | cons d row =>
        rw [List.map_cons, List.map_cons, List.zipWith_cons_cons, List.zipWith_cons_cons]
        exact List.Forall₂.cons (single q List.mem_cons_self d.1 d.2) (ih (fun q hq => single q (List.mem_cons_of_mem _ hq)) row)

/-- C119: on a plane, for example a planar target, the light of such a heliostat arrives not far from where it should: if a ray has the distance `|t|` to the plane, it hits it within
`(shift + |t| (σ + 2 (e₁ + e₂))) (1 + 1 / κ)` of where the ray without errors does; `κ` bounds the cosine of the angle at which the rays meet the plane. -/
theorem C119_target (h : Heliostat) (m m' : ℝ × ℝ) (i i' : Fin 4 → ℝ) (mirror : List ((Fin 4 → ℝ) × (Fin 4 → ℝ))) (distortions : List (List (ℝ × ℝ))) (R e₁ e₂ σ κ : ℝ)
    (hm : Within R mirror) (hi : UnitDirection i) (hi' : UnitDirection i') (hσ : length3 (i - i') ≤ σ)
    (h₁ : |(angles h m).1 - (angles h m').1| ≤ e₁) (h₂ : |(angles h m).2 - (angles h m').2| ≤ e₂) (c N : V3 ℝ) (hN : V3.normSq N = 1) (hκ : 0 < κ) :
    List.Forall₂ (fun ray ray' => ∀ t t' : ℝ, V3.dot (ray.1 + t • ray.2 - c) N = 0 → V3.dot (ray'.1 + t' • ray'.2 - c) N = 0 → κ ≤ |V3.dot ray'.2 N| →
        apart (ray.1 + t • ray.2) (ray'.1 + t' • ray'.2) ≤ (shift h R e₁ e₂ + |t| * (σ + 2 * (e₁ + e₂))) * (1 + 1 / κ))
      (raysOf i (placed (h.motorToOrientation m) mirror) distortions) (raysOf i' (placed (h.motorToOrientation m') mirror) distortions) := by
  refine (C119_rays h m m' i i' mirror distortions R e₁ e₂ σ hm hi hi' hσ h₁ h₂).imp ?_
  rintro ray ray' ⟨d1, d2, d3⟩ t t' ht ht' hk
  exact hits_close ray.1 ray'.1 ray.2 ray'.2 c N t t' _ _ κ hN ht ht' d1 d2 d3 hκ hk

/-- C119: the angle of a linear actuator follows its motor; `s` bounds the sine of the angle between offset and pivot radius. -/
theorem C119_linear (a : Actuators.Linear) (m m' s : ℝ) (hs : 0 < s) (h : s ≤ sin (a.absoluteAngle m)) (h' : s ≤ sin (a.absoluteAngle m')) :
    |a.toAngle m - a.toAngle m'| ≤ (a.offset + a.pivotRadius) / (a.offset * a.pivotRadius * a.increment * s) * |m - m'| := by
  obtain ⟨hi, ho, hr, -⟩ := C27_parameters_positive a
  have key : |a.absoluteAngle m - a.absoluteAngle m'| ≤ (a.offset + a.pivotRadius) / (a.offset * a.pivotRadius * a.increment * s) * |m - m'| := by
    have h1 := angle_of_cos' hs (arccos_nonneg _) (arccos_le_pi _) (arccos_nonneg _) (arccos_le_pi _) h h'
    have h2 := h1.trans (cos_close a m m')
    rw [mul_comm, ← le_div_iff₀ hs] at h2
    refine h2.trans (le_of_eq ?_)
    field_simp
  have e : a.toAngle m - a.toAngle m' = (a.absoluteAngle m - a.absoluteAngle m') * ((if a.clockwise = 0 then 1 else 0) - (if a.clockwise = 1 then 1 else 0)) := by
    unfold Actuators.Linear.toAngle
    simp only
    ring
  rw [e, abs_mul]
  refine le_trans (mul_le_of_le_one_right (abs_nonneg _) ?_) key
  split <;> split <;> norm_num

/-- C119: so a finite bound holds for all motor positions, also beyond the mechanical limits, thanks to the margins that the code keeps. -/
theorem C119_linear_everywhere (a : Actuators.Linear) (m m' : ℝ) :
    |a.toAngle m - a.toAngle m'| ≤ 1000 * (a.offset + a.pivotRadius) / (a.offset * a.pivotRadius * a.increment) * |m - m'| := by
  obtain ⟨hi, ho, hr, -⟩ := C27_parameters_positive a
  refine (C119_linear a m m' (1 / 1000) (by norm_num) (sin_margin a m) (sin_margin a m')).trans (le_of_eq ?_)
  field_simp

/-- C119: the factor two cannot be improved.  A mirror in the middle of the joints, hit at right angles: turning the second joint by `x` turns the ray by `2 x`; no smaller factor bounds
the error of the ray. -/
theorem C119_doubled : (∀ x : ℝ, MotorImage.turning.rays [[(0, 0)]] x = [(⟨0, 0, 0⟩, ⟨sin (2 * x), -cos (2 * x), 0⟩)]) ∧
    ∀ c < 2, ∃ x > 0, ∃ d d', MotorImage.turning.rays [[(0, 0)]] x = [(⟨0, 0, 0⟩, d)] ∧ MotorImage.turning.rays [[(0, 0)]] 0 = [(⟨0, 0, 0⟩, d')] ∧ c * x < apart d d' := by
  refine ⟨MotorImage.turning_rays, fun c hc => ?_⟩
  have hx : ∃ x : ℝ, 0 < x ∧ x ≤ 1 ∧ x < 1 - c / 2 := by
    refine ⟨min 1 ((1 - c / 2) / 2), lt_min (by norm_num) (by linarith), min_le_left _ _, lt_of_le_of_lt (min_le_right _ _) (by linarith)⟩
  obtain ⟨x, x0, x1, xc⟩ := hx
  refine ⟨x, x0, _, _, MotorImage.turning_rays x, MotorImage.turning_rays 0, ?_⟩
  have hs := Real.sin_gt_sub_cube x0
  have h1 : 2 * sin x ≤ apart ⟨sin (2 * x), -cos (2 * x), 0⟩ ⟨sin (2 * 0), -cos (2 * 0), 0⟩ := by
    unfold apart
    refine Real.le_sqrt_of_sq_le (le_of_eq ?_)
    simp only [mul_zero, sin_zero, cos_zero]
    have h2 := cos_two_mul' x
    have h3 := sin_sq_add_cos_sq (2 * x)
    have h4 := sin_sq_add_cos_sq x
    linear_combination -h3 + 2 * h2 + 2 * h4
  refine lt_of_lt_of_le ?_ h1
  nlinarith [mul_pos x0 x0, mul_nonneg x0.le (sub_nonneg.2 x1)]

/-- a square mirror of four points on the unit circle, on a heliostat whose joints and mirror are half a metre apart -/
noncomputable def armed : Heliostat :=
  ⟨![0, 0, 0, 1], ![0, 0, 0, 0, 0, 1 / 2, 0, 1 / 2, 0], 0, (Actuators.Ideal.mk (-4) 4).actuator, (Actuators.Ideal.mk (-4) 4).actuator⟩

def fourPoints : List ((Fin 4 → ℝ) × (Fin 4 → ℝ)) :=
  [(![1, 0, 0, 1], ![0, 0, 1, 0]), (![0, 1, 0, 1], ![0, 0, 1, 0]), (![-1, 0, 0, 1], ![0, 0, 1, 0]), (![0, -1, 0, 1], ![0, 0, 1, 0])]

theorem fourPoints_within : Within 1 fourPoints := by
  intro q hq
  simp only [fourPoints, List.mem_cons, List.not_mem_nil, or_false] at hq
  rcases hq with rfl | rfl | rfl | rfl <;> simp [UnitDirection, length3]

theorem armed_shift : shift armed 1 (1 / 1000) (1 / 1000) = 7 / 2000 := by
  have h1 : (1 / 2 : ℝ) ^ 2 = 1 / 4 := by norm_num
  have h2 : √(1 / 4 : ℝ) = 1 / 2 := by rw [← h1]; exact Real.sqrt_sq (by norm_num)
  have h3 : secondJoint armed = 1 / 2 := by
    unfold secondJoint length3 armed
    simp
  have h4 : concentrator armed = 1 / 2 := by
    unfold concentrator length3 armed
    simp
  unfold shift lever
  rw [h3, h4]
  norm_num

/-- Both joints off by a milliradian, the sun right: 100 m away and at an angle of incidence of at most 60° the light of a mirror of radius 1 m arrives within 1.22 m of where it should. -/
example (distortions : List (List (ℝ × ℝ))) (m : ℝ × ℝ) (c N : V3 ℝ) (hN : V3.normSq N = 1) :
    List.Forall₂ (fun ray ray' => ∀ t t' : ℝ, |t| ≤ 100 → V3.dot (ray.1 + t • ray.2 - c) N = 0 → V3.dot (ray'.1 + t' • ray'.2 - c) N = 0 → 1 / 2 ≤ |V3.dot ray'.2 N| →
        apart (ray.1 + t • ray.2) (ray'.1 + t' • ray'.2) ≤ 1.22)
      (raysOf ![0, 1, 0, 0] (placed (armed.motorToOrientation m) fourPoints) distortions)
      (raysOf ![0, 1, 0, 0] (placed (armed.motorToOrientation (m.1 + 1 / 1000, m.2 - 1 / 1000)) fourPoints) distortions) := by
  have hi : UnitDirection ![0, 1, 0, 0] := by simp [UnitDirection, length3]
  refine (C119_target armed m (m.1 + 1 / 1000, m.2 - 1 / 1000) ![0, 1, 0, 0] ![0, 1, 0, 0] fourPoints distortions 1 (1 / 1000) (1 / 1000) 0 (1 / 2) fourPoints_within hi hi
    (by simp [length3]) ?_ ?_ c N hN (by norm_num)).imp ?_
  · simp [angles, armed, Actuators.Ideal.actuator, Actuators.Ideal.toAngle]
  · simp [angles, armed, Actuators.Ideal.actuator, Actuators.Ideal.toAngle]
  · intro ray ray' hr t t' ht h1 h2 h3
    refine (hr t t' h1 h2 h3).trans ?_
    rw [armed_shift]
    nlinarith

end Artist.Pointing
