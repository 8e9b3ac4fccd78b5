import Verif.Model.Field
import Verif.Model.Rotations
import Verif.Spec.Flatten
/-!
# Model of writing and loading the kinematics and actuators of one heliostat

`artist/util/config.py` 555-1017, 1165-1195, `artist/scenario/h5_scenario_generator.py` 165-218, `artist/field/heliostat_field.py` 164-240, 312-356,
`artist/io/h5_scenario_parser.py` 79-760: the individual kinematics and actuators of one heliostat.  Which heliostat gets its own and which the
prototype's is the subject of `Model/Field.lean`.  The file is the flattened dictionary of the heliostat (paths relative to its HDF5 group; the
surface is left out); reading a dataset gives what was written; numbers are reals.
-/
namespace Artist.KinConfig
open Artist Flatten Kinematics

/-- What is stored in a dataset.  Source: the values in `config.py` 657-783, 872-901 and 956-977. -/
inductive Val where
  | num (x : ℝ)
  | nums (l : List ℝ)
  | vec (v : Fin 4 → ℝ)
  | flag (b : Bool)
  | text (t : List Char)

/-- `KinematicsDeviations` (`config.py` 595-655). -/
structure Deviations where
  firstTranslationE : Option ℝ := none
  firstTranslationN : Option ℝ := none
  firstTranslationU : Option ℝ := none
  firstTiltN : Option ℝ := none
  firstTiltU : Option ℝ := none
  secondTranslationE : Option ℝ := none
  secondTranslationN : Option ℝ := none
  secondTranslationU : Option ℝ := none
  secondTiltE : Option ℝ := none
  secondTiltN : Option ℝ := none
  concentratorTranslationE : Option ℝ := none
  concentratorTranslationN : Option ℝ := none
  concentratorTranslationU : Option ℝ := none

/-- `KinematicsConfig` (`config.py` 741-761). -/
structure KinematicsCfg where
  type : Key
  initialOrientation : Fin 4 → ℝ
  deviations : Option Deviations

/-- `ActuatorParameters` (`config.py` 841-870). -/
structure Parameters where
  increment : Option ℝ := none
  initialStroke : Option ℝ := none
  offset : Option ℝ := none
  pivotRadius : Option ℝ := none
  initialAngle : Option ℝ := none

/-- `ActuatorConfig` (`config.py` 925-953); `min_max_motor_positions` is a list. -/
structure ActuatorCfg where
  key : Key
  type : Key
  clockwise : Bool
  minMax : List ℝ
  parameters : Option Parameters

/-- `HeliostatConfig` (`config.py` 1131-1163) without name, id and surface, with individual kinematics and actuators. -/
structure HeliostatCfg where
  position : Fin 4 → ℝ
  kinematics : KinematicsCfg
  actuators : List ActuatorCfg

/-- A dictionary filled by `if value is not None: d.update({key: value})` for one key after the other (the keys are distinct).  Source: `config.py` 657-719 and 872-901. -/
def optional : List (Key × Option ℝ) → Flatten.Tree Val
  | [] => .nil
  | (_, none) :: rest => optional rest
  | (k, some v) :: rest => .leaf k (.num v) (optional rest)

/-- `create_kinematics_deviations_dict` (`config.py` 657-719), keys from `constants.py` 56-80. -/
def deviationsDict (d : Deviations) : Flatten.Tree Val :=
  optional [("first_joint_translation_e".toList, d.firstTranslationE), ("first_joint_translation_n".toList, d.firstTranslationN),
    ("first_joint_translation_u".toList, d.firstTranslationU), ("first_joint_tilt_n".toList, d.firstTiltN),
    ("first_joint_tilt_u".toList, d.firstTiltU), ("second_joint_translation_e".toList, d.secondTranslationE),
    ("second_joint_translation_n".toList, d.secondTranslationN), ("second_joint_translation_u".toList, d.secondTranslationU),
    ("second_joint_tilt_e".toList, d.secondTiltE), ("second_joint_tilt_n".toList, d.secondTiltN),
    ("concentrator_translation_e".toList, d.concentratorTranslationE), ("concentrator_translation_n".toList, d.concentratorTranslationN),
    ("concentrator_translation_u".toList, d.concentratorTranslationU)]

/-- `create_kinematics_dict` (`config.py` 763-782). -/
def kinematicsDict (k : KinematicsCfg) : Flatten.Tree Val :=
  .leaf "type".toList (.text k.type) <| .leaf "initial_orientation".toList (.vec k.initialOrientation) <|
    match k.deviations with
    | none => .nil
    | some d => .node "deviations".toList (deviationsDict d) .nil

/-- `create_actuator_parameters_dict` (`config.py` 872-900). -/
def parametersDict (p : Parameters) : Flatten.Tree Val :=
  optional [("increment".toList, p.increment), ("initial_stroke_length".toList, p.initialStroke), ("offset".toList, p.offset),
    ("pivot_radius".toList, p.pivotRadius), ("initial_angle".toList, p.initialAngle)]

/-- `create_actuator_dict` (`config.py` 955-976). -/
def actuatorDict (a : ActuatorCfg) : Flatten.Tree Val :=
  .leaf "type".toList (.text a.type) <| .leaf "clockwise_axis_movement".toList (.flag a.clockwise) <|
    .leaf "min_max_motor_positions".toList (.nums a.minMax) <|
    match a.parameters with
    | none => .nil
    | some p => .node "parameters".toList (parametersDict p) .nil

/-- `create_actuator_list_dict` (`config.py` 1005-1017); that keys are distinct is a hypothesis where it is needed. -/
def actuatorListDict : List ActuatorCfg → Flatten.Tree Val
  | [] => .nil
  | a :: rest => .node a.key (actuatorDict a) (actuatorListDict rest)

/-- `create_heliostat_config_dict` (`config.py` 1165-1195) without id and surface. -/
def heliostatDict (h : HeliostatCfg) : Flatten.Tree Val :=
  .leaf "position".toList (.vec h.position) <| .node "kinematics".toList (kinematicsDict h.kinematics) <|
    .node "actuator".toList (actuatorListDict h.actuators) .nil

/-- The datasets of a scenario file by path (`h5_scenario_generator.py` 200-301). -/
abbrev File := List (Key × Val)

/-- `_flatten_dict` and `_include_parameters` (`h5_scenario_generator.py` 165-218). -/
def write (h : HeliostatCfg) : File := flatten (heliostatDict h)

/-- `torch.tensor(x[()]) if x else torch.tensor(0.0)` with `x = config.get(path)`, as used throughout `h5_scenario_parser.py` 293-370, 590-616.
Anything but a number cannot be stored in one entry of a tensor. -/
def readNum (f : File) (path : List Key) : Except PyErr ℝ :=
  match dictGet f (join path) with
  | none => .ok 0
  | some (.num x) => .ok x
  | some _ => .error .runtimeError

/-- Reading a dataset that must exist; KeyError otherwise.  As used in `h5_scenario_parser.py` 449-719. -/
def readVal (f : File) (path : List Key) : Except PyErr Val :=
  match dictGet f (join path) with
  | none => .error .keyError
  | some v => .ok v

/-- `rigid_body_deviations` (`h5_scenario_parser.py` 146-370), indices from `artist/util/indices.py` 21-45. -/
def rigidBodyDeviations (f : File) : Except PyErr ((Fin 9 → ℝ) × (Fin 4 → ℝ)) := do
  let get (name : String) := readNum f ["kinematics".toList, "deviations".toList, name.toList]
  let t0 ← get "first_joint_translation_e"
  let t1 ← get "first_joint_translation_n"
  let t2 ← get "first_joint_translation_u"
  let t3 ← get "second_joint_translation_e"
  let t4 ← get "second_joint_translation_n"
  let t5 ← get "second_joint_translation_u"
  let t6 ← get "concentrator_translation_e"
  let t7 ← get "concentrator_translation_n"
  let t8 ← get "concentrator_translation_u"
  let r0 ← get "first_joint_tilt_n"
  let r1 ← get "first_joint_tilt_u"
  let r2 ← get "second_joint_tilt_e"
  let r3 ← get "second_joint_tilt_n"
  pure (![t0, t1, t2, t3, t4, t5, t6, t7, t8], ![r0, r1, r2, r3])

/-- `min_max_motor_positions[()][0]`, `[1]` and `bool(clockwise[()])` (`h5_scenario_parser.py` 503-516, 700-714). -/
def limits (f : File) (key : Key) : Except PyErr (Bool × ℝ × ℝ) := do
  let c ← readVal f ["actuator".toList, key, "clockwise_axis_movement".toList]
  let m ← readVal f ["actuator".toList, key, "min_max_motor_positions".toList]
  match c, m with
  | .flag b, .nums (lo :: hi :: _) => pure (b, lo, hi)
  | .flag _, .nums _ => .error .indexError
  | _, _ => .error .typeError

/-- The loop body of `linear_actuators` (`h5_scenario_parser.py` 502-616) for one actuator. -/
def linearActuator (f : File) (key : Key) : Except PyErr Actuators.Linear := do
  let (b, lo, hi) ← limits f key
  let get (name : String) := readNum f ["actuator".toList, key, "parameters".toList, name.toList]
  let increment ← get "increment"
  let stroke ← get "initial_stroke_length"
  let offset ← get "offset"
  let pivot ← get "pivot_radius"
  let angle ← get "initial_angle"
  pure { clockwise := if b then 1 else 0, minMotor := lo, maxMotor := hi, rawIncrement := increment, rawOffset := offset,
         rawPivotRadius := pivot, initialAngle := angle, rawInitialStroke := stroke }

/-- `linear_actuators` (`h5_scenario_parser.py` 449-644) for the two actuators of the rigid body kinematics; the initial angle of the first is
shifted (631-642). -/
noncomputable def linearActuators (f : File) : List Key → Except PyErr (Actuators.Linear × Actuators.Linear)
  | [k₁, k₂] => do
    let a₁ ← linearActuator f k₁
    let a₂ ← linearActuator f k₂
    pure ({ a₁ with initialAngle := a₁.initialAngle + Rotations.initialAngleShift }, a₂)
  | _ => .error .valueError

/-- `ideal_actuators` (`h5_scenario_parser.py` 647-723) for the two actuators of the rigid body kinematics. -/
def idealActuators (f : File) : List Key → Except PyErr (Actuators.Ideal × Actuators.Ideal)
  | [k₁, k₂] => do
    let (_, lo₁, hi₁) ← limits f k₁
    let (_, lo₂, hi₂) ← limits f k₂
    pure (⟨lo₁, hi₁⟩, ⟨lo₂, hi₂⟩)
  | _ => .error .valueError

/-- `single_heliostat_config["actuator"].keys()`: alphabetical (`h5py`). -/
def actuatorKeys (h : HeliostatCfg) : List Key :=
  (Field.h5order Field.lexLe (h.actuators.map fun a => (a.key, ()))).map (·.1)

/-- The types of the actuators (`heliostat_field.py` 212-218). -/
def actuatorTypes (f : File) : List Key → Except PyErr (List Key)
  | [] => .ok []
  | k :: ks => do
    let t ← readVal f ["actuator".toList, k, "type".toList]
    let ts ← actuatorTypes f ks
    match t with
    | .text t => pure (t :: ts)
    | _ => .error .typeError

/-- What is kept of a heliostat: the initial orientation (`heliostat_field.py` 165-171, 352-354; afterwards only stored and copied to the active
heliostats, `heliostat_group.py` 281-286, never read by `kinematics_rigid_body.py`) and what the kinematics use. -/
structure Loaded where
  initialOrientation : Fin 4 → ℝ
  heliostat : Heliostat

/-- Kinematics and actuators of one iteration of `HeliostatField.from_hdf5` (`heliostat_field.py` 164-240, 312-356) and
`actuator_parameters` (`h5_scenario_parser.py` 373-446), `kinematics_deviations` (79-143). -/
noncomputable def load (f : File) (keys : List Key) : Except PyErr Loaded := do
  let orientation ← readVal f ["kinematics".toList, "initial_orientation".toList]
  let type ← readVal f ["kinematics".toList, "type".toList]
  match type with
  | .text type =>
    if type ≠ Field.rigidBody then .error .valueError
    else do
      let (t, r) ← rigidBodyDeviations f
      let types ← actuatorTypes f keys
      match types with
      | [] => .error .indexError
      | a :: rest =>
        if rest.any (· ≠ a) then .error .valueError
        else do
          let acts ← (if a = Field.linear then (linearActuators f keys).map (fun x => (x.1.actuator, x.2.actuator))
            else if a = Field.ideal then (idealActuators f keys).map (fun x => (x.1.actuator, x.2.actuator))
            else .error .valueError)
          let position ← readVal f ["position".toList]
          match orientation, position with
          | .vec o, .vec p => pure ⟨o, ⟨p, t, r, acts.1, acts.2⟩⟩
          | _, _ => .error .typeError
  | _ => .error .typeError

end Artist.KinConfig
