import Verif.Proofs.KinConfig
import Verif.Props.Rotations
/-!
# C71: configured kinematics and actuators mean what their names say
-/
namespace Artist.KinConfig
open Artist Flatten Kinematics Transforms Real Matrix

theorem lookup_deviation (k : KinematicsCfg) (p : Key) :
    (kinematicsDict k).lookup ["deviations".toList, p] = (k.deviations.bind fun d => (deviationsDict d).lookup [p]) := by
  have h1 : "deviations".toList ≠ "type".toList := by decide +kernel
  have h2 : "deviations".toList ≠ "initial_orientation".toList := by decide +kernel
  unfold kinematicsDict
  rw [Flatten.Tree.lookup, if_neg h1, Flatten.Tree.lookup, if_neg h2]
  cases k.deviations with
  | none => rfl
  | some d => rw [Flatten.Tree.lookup, if_pos rfl]; rfl

theorem readNum_of {f : File} {path : List Key} {v : Option ℝ} (h : dictGet f (join path) = v.map Val.num) : readNum f path = .ok (v.getD 0) := by
  unfold readNum
  rw [h]; cases v <;> rfl

/-- The value of a deviation that a configuration specifies: 0 if it is left out. -/
def HeliostatCfg.deviation (h : HeliostatCfg) (field : Deviations → Option ℝ) : ℝ := (h.kinematics.deviations.bind field).getD 0

/-- The value of a parameter that the configuration of an actuator specifies: 0 if it is left out. -/
def ActuatorCfg.parameter (a : ActuatorCfg) (field : Parameters → Option ℝ) : ℝ := (a.parameters.bind field).getD 0

section
variable (h : HeliostatCfg) (hn : (h.actuators.map (·.key)).Nodup) (hg : ∀ a ∈ h.actuators, GoodKey a.key)
include hn hg

theorem read_deviation (p : Key) (hp : GoodKey p) (field : Deviations → Option ℝ)
    (hf : ∀ d, (deviationsDict d).lookup [p] = (field d).map Val.num) :
    readNum (write h) ["kinematics".toList, "deviations".toList, p] = .ok (h.deviation field) := by
  refine readNum_of ?_
  rw [get_kinematics h hn hg, lookup_deviation]
  · cases h.kinematics.deviations with
    | none => rfl
    | some d => exact hf d
  · intro k hk
    simp only [List.mem_cons, List.not_mem_nil, or_false] at hk
    rcases hk with rfl | rfl
    · exact (by decide +kernel : "deviations".toList ≠ [] ∧ '/' ∉ "deviations".toList)
    · exact hp

theorem read_parameter (a : ActuatorCfg) (ha : a ∈ h.actuators) (p : Key) (hp : GoodKey p) (field : Parameters → Option ℝ)
    (hf : ∀ d, (parametersDict d).lookup [p] = (field d).map Val.num) :
    readNum (write h) ["actuator".toList, a.key, "parameters".toList, p] = .ok (a.parameter field) := by
  have h1 : "parameters".toList ≠ "type".toList := by decide +kernel
  have h2 : "parameters".toList ≠ "clockwise_axis_movement".toList := by decide +kernel
  have h3 : "parameters".toList ≠ "min_max_motor_positions".toList := by decide +kernel
  refine readNum_of ?_
  rw [get_actuator h hn hg a ha]
  · unfold actuatorDict
    rw [Flatten.Tree.lookup, if_neg h1, Flatten.Tree.lookup, if_neg h2, Flatten.Tree.lookup, if_neg h3]
    cases a.parameters with
    | none => rfl
    | some d => rw [Flatten.Tree.lookup, if_pos rfl]; exact hf d
  · intro k hk
    simp only [List.mem_cons, List.not_mem_nil, or_false] at hk
    rcases hk with rfl | rfl
    · exact (by decide +kernel : "parameters".toList ≠ [] ∧ '/' ∉ "parameters".toList)
    · exact hp

/-- C71, deviations: each of the thirteen deviations arrives at its own place, whatever subset of them is given. -/
theorem C71_deviations : rigidBodyDeviations (write h) = .ok
    (![h.deviation (·.firstTranslationE), h.deviation (·.firstTranslationN), h.deviation (·.firstTranslationU),
       h.deviation (·.secondTranslationE), h.deviation (·.secondTranslationN), h.deviation (·.secondTranslationU),
       h.deviation (·.concentratorTranslationE), h.deviation (·.concentratorTranslationN), h.deviation (·.concentratorTranslationU)],
     ![h.deviation (·.firstTiltN), h.deviation (·.firstTiltU), h.deviation (·.secondTiltE), h.deviation (·.secondTiltN)]) := by
  have key : ∀ (p : Key) (field : Deviations → Option ℝ), GoodKey p → (∀ d, (deviationsDict d).lookup [p] = (field d).map Val.num) →
    readNum (write h) ["kinematics".toList, "deviations".toList, p] = .ok (h.deviation field) :=
    fun p field hp hf => read_deviation h hn hg p hp field hf
  have look : ∀ (p : Key) (d : Deviations) (v : Option ℝ), dictGet [("first_joint_translation_e".toList, d.firstTranslationE), ("first_joint_translation_n".toList, d.firstTranslationN),
    ("first_joint_translation_u".toList, d.firstTranslationU), ("first_joint_tilt_n".toList, d.firstTiltN),
    ("first_joint_tilt_u".toList, d.firstTiltU), ("second_joint_translation_e".toList, d.secondTranslationE),
    ("second_joint_translation_n".toList, d.secondTranslationN), ("second_joint_translation_u".toList, d.secondTranslationU),
    ("second_joint_tilt_e".toList, d.secondTiltE), ("second_joint_tilt_n".toList, d.secondTiltN),
    ("concentrator_translation_e".toList, d.concentratorTranslationE), ("concentrator_translation_n".toList, d.concentratorTranslationN),
    ("concentrator_translation_u".toList, d.concentratorTranslationU)] p = some v → (deviationsDict d).lookup [p] = v.map Val.num := by
    intro p d v hv
    unfold deviationsDict
    rw [optional_lookup _ (by simp only [List.map]; decide +kernel), hv]
    cases v <;> rfl
  unfold rigidBodyDeviations
  simp only [
    key "first_joint_translation_e".toList (·.firstTranslationE) (by unfold GoodKey; decide +kernel) (fun d => look _ d _ (by rfl)),
    key "first_joint_translation_n".toList (·.firstTranslationN) (by unfold GoodKey; decide +kernel) (fun d => look _ d _ (by rfl)),
    key "first_joint_translation_u".toList (·.firstTranslationU) (by unfold GoodKey; decide +kernel) (fun d => look _ d _ (by rfl)),
    key "first_joint_tilt_n".toList (·.firstTiltN) (by unfold GoodKey; decide +kernel) (fun d => look _ d _ (by rfl)),
    key "first_joint_tilt_u".toList (·.firstTiltU) (by unfold GoodKey; decide +kernel) (fun d => look _ d _ (by rfl)),
    key "second_joint_translation_e".toList (·.secondTranslationE) (by unfold GoodKey; decide +kernel) (fun d => look _ d _ (by rfl)),
    key "second_joint_translation_n".toList (·.secondTranslationN) (by unfold GoodKey; decide +kernel) (fun d => look _ d _ (by rfl)),
    key "second_joint_translation_u".toList (·.secondTranslationU) (by unfold GoodKey; decide +kernel) (fun d => look _ d _ (by rfl)),
    key "second_joint_tilt_e".toList (·.secondTiltE) (by unfold GoodKey; decide +kernel) (fun d => look _ d _ (by rfl)),
    key "second_joint_tilt_n".toList (·.secondTiltN) (by unfold GoodKey; decide +kernel) (fun d => look _ d _ (by rfl)),
    key "concentrator_translation_e".toList (·.concentratorTranslationE) (by unfold GoodKey; decide +kernel) (fun d => look _ d _ (by rfl)),
    key "concentrator_translation_n".toList (·.concentratorTranslationN) (by unfold GoodKey; decide +kernel) (fun d => look _ d _ (by rfl)),
    key "concentrator_translation_u".toList (·.concentratorTranslationU) (by unfold GoodKey; decide +kernel) (fun d => look _ d _ (by rfl))]
  rfl

theorem limits_eq (a : ActuatorCfg) (ha : a ∈ h.actuators) (lo hi : ℝ) (hm : a.minMax = [lo, hi]) :
    limits (write h) a.key = .ok (a.clockwise, lo, hi) := by
  have h1 : "clockwise_axis_movement".toList ≠ "type".toList := by decide +kernel
  have h2 : "min_max_motor_positions".toList ≠ "type".toList := by decide +kernel
  have h3 : "min_max_motor_positions".toList ≠ "clockwise_axis_movement".toList := by decide +kernel
  have e1 : readVal (write h) ["actuator".toList, a.key, "clockwise_axis_movement".toList] = .ok (.flag a.clockwise) := by
    unfold readVal
    rw [get_actuator h hn hg a ha _ (by unfold GoodKey; decide +kernel)]
    unfold actuatorDict
    rw [Flatten.Tree.lookup, if_neg h1, Flatten.Tree.lookup, if_pos rfl]
  have e2 : readVal (write h) ["actuator".toList, a.key, "min_max_motor_positions".toList] = .ok (.nums [lo, hi]) := by
    unfold readVal
    rw [get_actuator h hn hg a ha _ (by unfold GoodKey; decide +kernel)]
    unfold actuatorDict
    rw [Flatten.Tree.lookup, if_neg h2, Flatten.Tree.lookup, if_neg h3, Flatten.Tree.lookup, if_pos rfl, hm]
  unfold limits
  simp only [e1, e2]
  rfl

theorem type_eq (a : ActuatorCfg) (ha : a ∈ h.actuators) :
    readVal (write h) ["actuator".toList, a.key, "type".toList] = .ok (.text a.type) := by
  unfold readVal
  rw [get_actuator h hn hg a ha _ (by unfold GoodKey; decide +kernel)]
  unfold actuatorDict
  rw [Flatten.Tree.lookup, if_pos rfl]

/-- C71, linear actuators: each parameter arrives at its own place, whatever subset of them is given. -/
theorem C71_linear (a : ActuatorCfg) (ha : a ∈ h.actuators) (lo hi : ℝ) (hm : a.minMax = [lo, hi]) :
    linearActuator (write h) a.key = .ok
      { clockwise := if a.clockwise then 1 else 0, minMotor := lo, maxMotor := hi, rawIncrement := a.parameter (·.increment),
        rawOffset := a.parameter (·.offset), rawPivotRadius := a.parameter (·.pivotRadius), initialAngle := a.parameter (·.initialAngle),
        rawInitialStroke := a.parameter (·.initialStroke) } := by
  have key : ∀ (p : Key) (field : Parameters → Option ℝ), GoodKey p → (∀ d, (parametersDict d).lookup [p] = (field d).map Val.num) →
    readNum (write h) ["actuator".toList, a.key, "parameters".toList, p] = .ok (a.parameter field) :=
    fun p field hp hf => read_parameter h hn hg a ha p hp field hf
  have look : ∀ (q : Key) (p : Parameters) (v : Option ℝ), dictGet [("increment".toList, p.increment), ("initial_stroke_length".toList, p.initialStroke), ("offset".toList, p.offset),
    ("pivot_radius".toList, p.pivotRadius), ("initial_angle".toList, p.initialAngle)] q = some v → (parametersDict p).lookup [q] = v.map Val.num := by
    intro q d v hv
    unfold parametersDict
    rw [optional_lookup _ (by simp only [List.map]; decide +kernel), hv]
    cases v <;> rfl
  unfold linearActuator
  simp only [limits_eq h hn hg a ha lo hi hm,
    key "increment".toList (·.increment) (by unfold GoodKey; decide +kernel) (fun d => look _ d _ (by rfl)),
    key "initial_stroke_length".toList (·.initialStroke) (by unfold GoodKey; decide +kernel) (fun d => look _ d _ (by rfl)),
    key "offset".toList (·.offset) (by unfold GoodKey; decide +kernel) (fun d => look _ d _ (by rfl)),
    key "pivot_radius".toList (·.pivotRadius) (by unfold GoodKey; decide +kernel) (fun d => look _ d _ (by rfl)),
    key "initial_angle".toList (·.initialAngle) (by unfold GoodKey; decide +kernel) (fun d => look _ d _ (by rfl))]
  rfl
end

/-! ### End to end -/

/-- A configuration as it should be: rigid body kinematics and two actuators with usable keys in ascending order (see C61 for other orders),
both of the given type, with a minimum and a maximum motor position. -/
structure Sound (h : HeliostatCfg) (type : Key) (a₁ a₂ : ActuatorCfg) (lo₁ hi₁ lo₂ hi₂ : ℝ) : Prop where
  rigid : h.kinematics.type = "rigid_body".toList
  two : h.actuators = [a₁, a₂]
  good₁ : a₁.key ≠ [] ∧ '/' ∉ a₁.key
  good₂ : a₂.key ≠ [] ∧ '/' ∉ a₂.key
  distinct : a₁.key ≠ a₂.key
  ordered : Field.lexLe a₁.key a₂.key = true
  type₁ : a₁.type = type
  type₂ : a₂.type = type
  limits₁ : a₁.minMax = [lo₁, hi₁]
  limits₂ : a₂.minMax = [lo₂, hi₂]

/-- A linear actuator with the configured values. -/
noncomputable def ActuatorCfg.linear (a : ActuatorCfg) (lo hi : ℝ) : Actuators.Linear :=
  { clockwise := if a.clockwise then 1 else 0, minMotor := lo, maxMotor := hi, rawIncrement := a.parameter (·.increment),
    rawOffset := a.parameter (·.offset), rawPivotRadius := a.parameter (·.pivotRadius), initialAngle := a.parameter (·.initialAngle),
    rawInitialStroke := a.parameter (·.initialStroke) }

/-- The documented chain: position, tilts and translation of the first joint, rotation about east, tilts and translation of the second joint,
rotation about up, translation of the concentrator. -/
noncomputable def HeliostatCfg.chain (h : HeliostatCfg) (θ₁ θ₂ : ℝ) : Mat :=
  transl (h.position 0) (h.position 1) (h.position 2) *
  (rotN (h.deviation (·.firstTiltN)) * rotU (h.deviation (·.firstTiltU)) *
    transl (h.deviation (·.firstTranslationE)) (h.deviation (·.firstTranslationN)) (h.deviation (·.firstTranslationU)) * rotE θ₁) *
  (rotE (h.deviation (·.secondTiltE)) * rotN (h.deviation (·.secondTiltN)) *
    transl (h.deviation (·.secondTranslationE)) (h.deviation (·.secondTranslationN)) (h.deviation (·.secondTranslationU)) * rotU θ₂) *
  transl (h.deviation (·.concentratorTranslationE)) (h.deviation (·.concentratorTranslationN)) (h.deviation (·.concentratorTranslationU))

section
variable {h : HeliostatCfg} {type : Key} {a₁ a₂ : ActuatorCfg} {lo₁ hi₁ lo₂ hi₂ : ℝ}

theorem Sound.nodup (s : Sound h type a₁ a₂ lo₁ hi₁ lo₂ hi₂) : (h.actuators.map (·.key)).Nodup := by
  rw [s.two]; simp [s.distinct]

theorem Sound.good (s : Sound h type a₁ a₂ lo₁ hi₁ lo₂ hi₂) : ∀ a ∈ h.actuators, GoodKey a.key := by
  rw [s.two]
  intro a ha
  simp only [List.mem_cons, List.not_mem_nil, or_false] at ha
  rcases ha with rfl | rfl
  · exact s.good₁
  · exact s.good₂

theorem Sound.keys (s : Sound h type a₁ a₂ lo₁ hi₁ lo₂ hi₂) : actuatorKeys h = [a₁.key, a₂.key] := by
  unfold actuatorKeys Field.h5order
  rw [s.two]
  simp [Field.insertKey, s.ordered]

/-- What loading gives, for the actuators found. -/
theorem load_eq (s : Sound h type a₁ a₂ lo₁ hi₁ lo₂ hi₂) (A₁ A₂ : Actuator)
    (hA : (if type = Field.linear then (linearActuators (write h) [a₁.key, a₂.key]).map (fun x => (x.1.actuator, x.2.actuator))
            else if type = Field.ideal then (idealActuators (write h) [a₁.key, a₂.key]).map (fun x => (x.1.actuator, x.2.actuator))
            else .error .valueError) = .ok (A₁, A₂)) :
    load (write h) (actuatorKeys h) = .ok ⟨h.kinematics.initialOrientation, ⟨h.position,
      ![h.deviation (·.firstTranslationE), h.deviation (·.firstTranslationN), h.deviation (·.firstTranslationU),
       h.deviation (·.secondTranslationE), h.deviation (·.secondTranslationN), h.deviation (·.secondTranslationU),
       h.deviation (·.concentratorTranslationE), h.deviation (·.concentratorTranslationN), h.deviation (·.concentratorTranslationU)],
     ![h.deviation (·.firstTiltN), h.deviation (·.firstTiltU), h.deviation (·.secondTiltE), h.deviation (·.secondTiltN)], A₁, A₂⟩⟩ := by
  have m1 : a₁ ∈ h.actuators := by rw [s.two]; simp
  have m2 : a₂ ∈ h.actuators := by rw [s.two]; simp
  have e1 : readVal (write h) ["kinematics".toList, "initial_orientation".toList] = .ok (.vec h.kinematics.initialOrientation) := by
    have n1 : "initial_orientation".toList ≠ "type".toList := by decide +kernel
    unfold readVal
    rw [get_kinematics h s.nodup s.good _ (by unfold GoodKey; decide +kernel)]
    unfold kinematicsDict
    rw [Flatten.Tree.lookup, if_neg n1, Flatten.Tree.lookup, if_pos rfl]
  have e2 : readVal (write h) ["kinematics".toList, "type".toList] = .ok (.text "rigid_body".toList) := by
    unfold readVal
    rw [get_kinematics h s.nodup s.good _ (by unfold GoodKey; decide +kernel)]
    unfold kinematicsDict
    rw [Flatten.Tree.lookup, if_pos rfl, s.rigid]
  have e3 : readVal (write h) ["position".toList] = .ok (.vec h.position) := by
    unfold readVal
    rw [get_position h s.nodup s.good]
  have e4 : actuatorTypes (write h) [a₁.key, a₂.key] = .ok [type, type] := by
    unfold actuatorTypes actuatorTypes actuatorTypes
    rw [type_eq h s.nodup s.good a₁ m1, type_eq h s.nodup s.good a₂ m2, s.type₁, s.type₂]
    rfl
  unfold load
  rw [s.keys, e1, e2, e3, e4, C71_deviations h s.nodup s.good]
  have hr : ¬ ("rigid_body".toList ≠ Field.rigidBody) := not_not.2 rfl
  have ht : ¬ ([type].any (fun x => decide (x ≠ type)) = true) := by simp
  simp only [bind, Except.bind]
  rw [if_neg hr, if_neg ht, hA]
  rfl

/-- C71, end to end for linear actuators: after writing and loading, the kinematics are the documented chain with exactly the configured values, and
the joint angles are those of actuators with exactly the configured values, the initial angle of the first one shifted by a quarter turn (cf.
`C70_compensation`). -/
theorem C71_linear_chain (s : Sound h "linear".toList a₁ a₂ lo₁ hi₁ lo₂ hi₂) : ∃ x, load (write h) (actuatorKeys h) = .ok x ∧
    x.initialOrientation = h.kinematics.initialOrientation ∧
    (∀ m, x.heliostat.forward m = h.chain
      (({ a₁.linear lo₁ hi₁ with initialAngle := a₁.parameter (·.initialAngle) - π / 2 } : Actuators.Linear).toAngle m.1)
      ((a₂.linear lo₂ hi₂).toAngle m.2)) ∧
    x.heliostat.actuator1.minMotor = lo₁ ∧ x.heliostat.actuator1.maxMotor = hi₁ ∧
    x.heliostat.actuator2.minMotor = lo₂ ∧ x.heliostat.actuator2.maxMotor = hi₂ := by
  have m1 : a₁ ∈ h.actuators := by rw [s.two]; simp
  have m2 : a₂ ∈ h.actuators := by rw [s.two]; simp
  refine ⟨_, load_eq s
    (({ a₁.linear lo₁ hi₁ with initialAngle := a₁.parameter (·.initialAngle) - π / 2 } : Actuators.Linear).actuator)
    ((a₂.linear lo₂ hi₂).actuator) ?_, rfl, ?_, rfl, rfl, rfl, rfl⟩
  · rw [if_pos (show "linear".toList = Field.linear from rfl)]
    unfold linearActuators
    simp only [C71_linear h s.nodup s.good a₁ m1 _ _ s.limits₁, C71_linear h s.nodup s.good a₂ m2 _ _ s.limits₂, Rotations.shift_eq, bind,
      Except.bind]
    rfl
  · intro m
    unfold Heliostat.forward Heliostat.anglesToOrientation HeliostatCfg.chain
    simp only [Matrix.one_mul]
    rfl

/-- C71, end to end for ideal actuators: the joint angles are the motor positions. -/
theorem C71_ideal_chain (s : Sound h "ideal".toList a₁ a₂ lo₁ hi₁ lo₂ hi₂) : ∃ x, load (write h) (actuatorKeys h) = .ok x ∧
    x.initialOrientation = h.kinematics.initialOrientation ∧ (∀ m, x.heliostat.forward m = h.chain m.1 m.2) ∧
    x.heliostat.actuator1.minMotor = lo₁ ∧ x.heliostat.actuator1.maxMotor = hi₁ ∧
    x.heliostat.actuator2.minMotor = lo₂ ∧ x.heliostat.actuator2.maxMotor = hi₂ := by
  have m1 : a₁ ∈ h.actuators := by rw [s.two]; simp
  have m2 : a₂ ∈ h.actuators := by rw [s.two]; simp
  refine ⟨_, load_eq s (Actuators.Ideal.actuator ⟨lo₁, hi₁⟩) (Actuators.Ideal.actuator ⟨lo₂, hi₂⟩) ?_, rfl, ?_, rfl, rfl, rfl, rfl⟩
  · rw [if_neg (by decide +kernel), if_pos (show "ideal".toList = Field.ideal from rfl)]
    unfold idealActuators
    simp only [limits_eq h s.nodup s.good a₁ m1 _ _ s.limits₁, limits_eq h s.nodup s.good a₂ m2 _ _ s.limits₂, bind, Except.bind]
    rfl
  · intro m
    unfold Heliostat.forward Heliostat.anglesToOrientation HeliostatCfg.chain
    simp only [Matrix.one_mul]
    rfl

/-- C71: with ideal actuators and no deviations, the mirror of a loaded heliostat has the configured initial orientation at motor positions zero
if and only if that is south: any other configured initial orientation is ignored. -/
theorem C71_orientation_iff (s : Sound h "ideal".toList a₁ a₂ lo₁ hi₁ lo₂ hi₂) (hd : h.kinematics.deviations = none) :
    ∃ x, load (write h) (actuatorKeys h) = .ok x ∧
      (x.heliostat.motorToOrientation (0, 0) *ᵥ ![0, 0, 1, 0] = h.kinematics.initialOrientation ↔
        h.kinematics.initialOrientation = ![0, -1, 0, 0]) := by
  obtain ⟨x, hx, -, hf, -⟩ := C71_ideal_chain s
  refine ⟨x, hx, ?_⟩
  have h0 : ∀ field, h.deviation field = 0 := by intro field; rw [HeliostatCfg.deviation, hd]; rfl
  have r0 : rotN 0 = 1 := by ext i j; fin_cases i <;> fin_cases j <;> simp [rotN, Matrix.one_apply]
  have r1 : rotU 0 = 1 := by ext i j; fin_cases i <;> fin_cases j <;> simp [rotU, Matrix.one_apply]
  have r2 : rotE 0 = 1 := by ext i j; fin_cases i <;> fin_cases j <;> simp [rotE, Matrix.one_apply]
  have r3 : transl 0 0 0 = 1 := by ext i j; fin_cases i <;> fin_cases j <;> simp [transl, Matrix.one_apply]
  have : x.heliostat.motorToOrientation (0, 0) *ᵥ ![0, 0, 1, 0] = ![0, -1, 0, 0] := by
    rw [Heliostat.motorToOrientation, hf, offset_eq, HeliostatCfg.chain]
    simp only [h0, r0, r1, r2, r3, Matrix.one_mul, Matrix.mul_one]
    ext i
    fin_cases i <;> simp [transl, rotE, Matrix.mulVec, dotProduct, Matrix.mul_apply, Fin.sum_univ_four]
  rw [this]
  exact eq_comm
end

/-- The configuration of an example: only some deviations, a heliostat facing west. -/
noncomputable def cfgExample (type : Key) : HeliostatCfg :=
  { position := ![10, 20, 0, 1]
    kinematics := ⟨"rigid_body".toList, ![-1, 0, 0, 0], some { firstTiltU := some 3, secondTranslationN := some (1 / 2) }⟩
    actuators := [⟨"actuator_1".toList, type, false, [0, 100], some { increment := some 7, offset := some 2 }⟩,
      ⟨"actuator_2".toList, type, true, [5, 50], none⟩] }

theorem cfgExample_sound (type : Key) : Sound (cfgExample type) type ⟨"actuator_1".toList, type, false, [0, 100], some { increment := some 7, offset := some 2 }⟩
    ⟨"actuator_2".toList, type, true, [5, 50], none⟩ 0 100 5 50 where
  rigid := rfl
  two := rfl
  good₁ := by dsimp only; decide +kernel
  good₂ := by dsimp only; decide +kernel
  distinct := by dsimp only; decide +kernel
  ordered := by dsimp only; decide +kernel
  type₁ := rfl
  type₂ := rfl
  limits₁ := rfl
  limits₂ := rfl

/-- Both kinds of actuators meet the hypotheses. -/
example : ∃ h a₁ a₂, Sound h "linear".toList a₁ a₂ 0 100 5 50 ∧ h.deviation (·.firstTiltU) = 3 ∧ h.deviation (·.firstTiltN) = 0 :=
  ⟨_, _, _, cfgExample_sound _, rfl, rfl⟩

/-- C71, false in general: a heliostat configured to face west is loaded facing south. -/
theorem C71_orientation_ignored : ∃ (h : HeliostatCfg) (a₁ a₂ : ActuatorCfg), Sound h "ideal".toList a₁ a₂ 0 100 5 50 ∧ h.kinematics.deviations = none ∧
    ∃ x, load (write h) (actuatorKeys h) = .ok x ∧ x.heliostat.motorToOrientation (0, 0) *ᵥ ![0, 0, 1, 0] ≠ h.kinematics.initialOrientation := by
  have s := cfgExample_sound "ideal".toList
  have s' : Sound { cfgExample "ideal".toList with kinematics := ⟨"rigid_body".toList, ![-1, 0, 0, 0], none⟩ } "ideal".toList
    ⟨"actuator_1".toList, "ideal".toList, false, [0, 100], some { increment := some 7, offset := some 2 }⟩
    ⟨"actuator_2".toList, "ideal".toList, true, [5, 50], none⟩ 0 100 5 50 :=
    ⟨rfl, s.two, s.good₁, s.good₂, s.distinct, s.ordered, rfl, rfl, rfl, rfl⟩
  obtain ⟨x, hx, hi⟩ := C71_orientation_iff s' rfl
  refine ⟨_, _, _, s', rfl, x, hx, fun he => ?_⟩
  have := congrFun (hi.1 he) 0
  simp at this

/-- C71, linear actuators: the four lengths are used as configured up to a millionth of a metre (or step per metre) if they are larger than 0.2, and
up to 7 millimetres otherwise (a value left out counts as 0 and becomes about 7 millimetres); they never become zero or negative, even if configured so. -/
theorem C71_lengths (x : ℝ) :
    0 < Actuators.Linear.physical x ∧ (1 / 5 < x → Actuators.Linear.physical x = x + 1 / 10 ^ 6) ∧
    (0 ≤ x → x < Actuators.Linear.physical x ∧ Actuators.Linear.physical x ≤ x + (log 2 / 100 + 1 / 10 ^ 6)) ∧
    Actuators.Linear.physical 0 = log 2 / 100 + 1 / 10 ^ 6 ∧
    (x ≤ 1 / 5 → Actuators.Linear.physical x = log (1 + exp (100 * x)) / 100 + 1 / 10 ^ 6) := by
  have e0 : Actuators.Linear.physical 0 = log 2 / 100 + 1 / 10 ^ 6 := by
    unfold Actuators.Linear.physical Actuators.softplus Actuators.eps
    rw [if_neg (by norm_num)]
    norm_num
  have big : 1 / 5 < x → Actuators.Linear.physical x = x + 1 / 10 ^ 6 := by
    intro h
    unfold Actuators.Linear.physical Actuators.softplus Actuators.eps
    rw [if_pos (by linarith)]
  have small : x ≤ 1 / 5 → Actuators.Linear.physical x = log (1 + exp (100 * x)) / 100 + 1 / 10 ^ 6 := by
    intro h
    unfold Actuators.Linear.physical Actuators.softplus Actuators.eps
    rw [if_neg (by linarith)]
  have hlog2 : 0 < log 2 := log_pos (by norm_num)
  refine ⟨?_, big, ?_, e0, small⟩
  · rcases le_or_gt x (1 / 5) with h | h
    · rw [small h]
      have : 0 < log (1 + exp (100 * x)) := log_pos (by linarith [exp_pos (100 * x)])
      positivity
    · rw [big h]; positivity
  · intro hx
    rcases le_or_gt x (1 / 5) with h | h
    · rw [small h]
      have h1 : 100 * x ≤ log (1 + exp (100 * x)) := by
        rw [le_log_iff_exp_le (by positivity)]; linarith
      have h2 : log (1 + exp (100 * x)) ≤ log 2 + 100 * x := by
        rw [← log_exp (100 * x), ← log_mul (by norm_num) (exp_pos _).ne', log_exp]
        refine log_le_log (by positivity) ?_
        have : 1 ≤ exp (100 * x) := one_le_exp (by linarith)
        linarith
      constructor
      · have : 0 < (1 : ℝ) / 10 ^ 6 := by norm_num
        linarith
      · linarith
    · rw [big h]
      constructor
      · have : 0 < (1 : ℝ) / 10 ^ 6 := by norm_num
        linarith
      · have : 0 ≤ log 2 / 100 := by positivity
        linarith

example : Actuators.Linear.physical (1 / 2) = 1 / 2 + 1 / 10 ^ 6 := (C71_lengths _).2.1 (by norm_num)

end Artist.KinConfig
