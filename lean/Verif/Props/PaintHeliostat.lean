import Verif.Proofs.PaintHeliostat
import Verif.Props.KinConfig
/-!
# C81: heliostats from PAINT files are the heliostats that were measured
-/
namespace Artist.PaintHeliostat
open Artist Flatten Nurbs Transforms Kinematics Real

/-! ### Specification -/

/-- A vector of three numbers. -/
abbrev Vec := ℝ × ℝ × ℝ

/-- The values of one actuator. -/
structure MeasuredActuator where
  type : Key
  clockwise : Bool
  lo : ℝ
  hi : ℝ
  increment : ℝ
  stroke : ℝ
  offset : ℝ
  pivot : ℝ
  angle : ℝ

/-- A heliostat: position in latitude, longitude and altitude, facets (translation, canting east, canting north), translations of the first joint, of the
second joint and of the concentrator, orientation, two actuators. -/
structure Measured where
  position : Geo.Wgs
  facets : List (Vec × Vec × Vec)
  first : Vec
  second : Vec
  concentrator : Vec
  orientation : Vec
  actuator₁ : MeasuredActuator
  actuator₂ : MeasuredActuator

def Vec.list (v : Vec) : List ℝ := [v.1, v.2.1, v.2.2]

/-- Direction with four components. -/
def Vec.dir (v : Vec) : H ℝ := ![v.1, v.2.1, v.2.2, 0]

/-- Translation by a vector. -/
noncomputable def Vec.shift (v : Vec) : Mat := transl v.1 v.2.1 v.2.2

/-- The entry of an actuator in the file; further keys may be present. -/
structure DescribesActuator (d : List (Key × J)) (m : MeasuredActuator) : Prop where
  type : dictGet d "type_axis".toList = some (.text m.type)
  clockwise : dictGet d "clockwise_axis_movement".toList = some (.flag m.clockwise)
  lo : dictGet d "min_increment".toList = some (.num m.lo)
  hi : dictGet d "max_increment".toList = some (.num m.hi)
  increment : dictGet d "increment".toList = some (.num m.increment)
  stroke : dictGet d "initial_stroke_length".toList = some (.num m.stroke)
  offset : dictGet d "offset".toList = some (.num m.offset)
  pivot : dictGet d "pivot_radius".toList = some (.num m.pivot)
  angle : dictGet d "initial_angle".toList = some (.num m.angle)

/-- The file describes the heliostat. -/
structure Describes (f : File) (M : Measured) : Prop where
  position : f.position = some [M.position.lat, M.position.lon, M.position.alt]
  number : f.numberOfFacets = some (M.facets.length : Int)
  facets : f.facets = some (M.facets.map fun t => ⟨some t.1.list, some t.2.1.list, some t.2.2.list⟩)
  kinematics : f.kinematics = ⟨some M.first.1, some M.first.2.1, some M.first.2.2, some M.second.1, some M.second.2.1, some M.second.2.2,
    some M.concentrator.1, some M.concentrator.2.1, some M.concentrator.2.2⟩
  orientation : f.orientation = some M.orientation.list
  actuators : ∃ d₁ d₂, f.actuators = some [d₁, d₂] ∧ DescribesActuator d₁ M.actuator₁ ∧ DescribesActuator d₂ M.actuator₂

/-- The linear actuator with the measured values. -/
def MeasuredActuator.linear (a : MeasuredActuator) : Actuators.Linear :=
  { clockwise := if a.clockwise then 1 else 0, minMotor := a.lo, maxMotor := a.hi, rawIncrement := a.increment, rawOffset := a.offset,
    rawPivotRadius := a.pivot, initialAngle := a.angle, rawInitialStroke := a.stroke }

/-- The chain of the measured heliostat: position relative to the power plant, translation of the first joint, rotation about east, translation of the
second joint, rotation about up, translation of the concentrator; no tilts. -/
noncomputable def Measured.chain (M : Measured) (plant : Geo.Wgs) (θ₁ θ₂ : ℝ) : Mat :=
  transl (Geo.toEnu M.position plant).e (Geo.toEnu M.position plant).n (Geo.toEnu M.position plant).u *
    (M.first.shift * rotE θ₁) * (M.second.shift * rotU θ₂) * M.concentrator.shift

/-! ### Extraction -/

/-- The configuration of the actuator with the given index. -/
def MeasuredActuator.cfg (a : MeasuredActuator) (index : Nat) : KinConfig.ActuatorCfg :=
  { key := "actuator_".toList ++ Nat.toDigits 10 index, type := a.type, clockwise := a.clockwise, minMax := [a.lo, a.hi],
    parameters := some ⟨some a.increment, some a.stroke, some a.offset, some a.pivot, some a.angle⟩ }

theorem readActuator_eq {d : List (Key × J)} {m : MeasuredActuator} (h : DescribesActuator d m) (i : Nat) : readActuator i d = .ok (m.cfg i) := by
  unfold readActuator number
  simp only [h.type, h.clockwise, h.lo, h.hi, h.increment, h.stroke, h.offset, h.pivot, h.angle, need, bind, Except.bind]
  rfl

theorem readFacets_eq : ∀ (l : List (Vec × Vec × Vec)),
    readFacets l.length (l.map fun t => ⟨some t.1.list, some t.2.1.list, some t.2.2.list⟩) = .ok (l.map fun t => (t.1.dir, t.2.1.dir, t.2.2.dir))
  | [] => rfl
  | t :: rest => by
    simp only [List.length_cons, List.map_cons]
    unfold readFacets
    have hr : ∀ v : Vec, row v.list = .ok v.dir := fun v => rfl
    simp only [readFacets_eq rest, need, bind, Except.bind, hr]
    rfl

/-- The configuration of a described heliostat. -/
noncomputable def Measured.cfg (M : Measured) (plant : Geo.Wgs) : KinConfig.HeliostatCfg :=
  ⟨![(Geo.toEnu M.position plant).e, (Geo.toEnu M.position plant).n, (Geo.toEnu M.position plant).u, 1],
   ⟨Field.rigidBody, M.orientation.dir, some
    { firstTranslationE := some M.first.1, firstTranslationN := some M.first.2.1, firstTranslationU := some M.first.2.2, firstTiltN := some 0,
      firstTiltU := some 0, secondTranslationE := some M.second.1, secondTranslationN := some M.second.2.1, secondTranslationU := some M.second.2.2,
      secondTiltE := some 0, secondTiltN := some 0, concentratorTranslationE := some M.concentrator.1,
      concentratorTranslationN := some M.concentrator.2.1, concentratorTranslationU := some M.concentrator.2.2 }⟩,
   [M.actuator₁.cfg 0, M.actuator₂.cfg 1]⟩

theorem heliostat_eq (plant : Geo.Wgs) (nu nv : Nat) {f : File} {M : Measured} (h : Describes f M) : heliostat plant nu nv f =
    .ok ⟨M.cfg plant, idealSurface nu nv (M.facets.map fun t => (t.1.dir, t.2.1.dir, t.2.2.dir))⟩ := by
  obtain ⟨d₁, d₂, ha, h1, h2⟩ := h.actuators
  have hf : (if (M.facets.length : Int) = 0 then Except.ok [] else do
      let l ← need f.facets
      readFacets ((M.facets.length : Int)).toNat l) = Except.ok (M.facets.map fun t => (t.1.dir, t.2.1.dir, t.2.2.dir)) := by
    split
    · rename_i h0
      have : M.facets = [] := List.length_eq_zero_iff.1 (by omega)
      rw [this]; rfl
    · rw [h.facets]
      simp only [need, bind, Except.bind]
      rw [Int.toNat_natCast]
      exact readFacets_eq _
  have hneg : ¬ ((M.facets.length : Int) < 0) := by omega
  unfold heliostat
  rw [h.position, h.number, h.kinematics, h.orientation, ha]
  simp only [need, position4, readDeviations, direction4, Vec.list, readActuators, readActuator_eq h1, readActuator_eq h2, bind, Except.bind,
    if_neg hneg]
  simp only [need, bind, Except.bind] at hf
  rw [hf]
  rfl

theorem cfg_sound (M : Measured) (plant : Geo.Wgs) (type : Key) (h1 : M.actuator₁.type = type) (h2 : M.actuator₂.type = type) :
    KinConfig.Sound (M.cfg plant) type (M.actuator₁.cfg 0) (M.actuator₂.cfg 1) M.actuator₁.lo M.actuator₁.hi M.actuator₂.lo M.actuator₂.hi where
  rigid := rfl
  two := rfl
  good₁ := by dsimp only [MeasuredActuator.cfg]; decide +kernel
  good₂ := by dsimp only [MeasuredActuator.cfg]; decide +kernel
  distinct := by dsimp only [MeasuredActuator.cfg]; decide +kernel
  ordered := by dsimp only [MeasuredActuator.cfg]; decide +kernel
  type₁ := h1
  type₂ := h2
  limits₁ := rfl
  limits₂ := rfl

theorem cfg_chain (M : Measured) (plant : Geo.Wgs) (θ₁ θ₂ : ℝ) : (M.cfg plant).chain θ₁ θ₂ = M.chain plant θ₁ θ₂ := by
  have r0 : rotN 0 = 1 := by ext i j; fin_cases i <;> fin_cases j <;> simp [rotN, Matrix.one_apply]
  have r1 : rotU 0 = 1 := by ext i j; fin_cases i <;> fin_cases j <;> simp [rotU, Matrix.one_apply]
  have r2 : rotE 0 = 1 := by ext i j; fin_cases i <;> fin_cases j <;> simp [rotE, Matrix.one_apply]
  have t1 : (M.cfg plant).deviation (·.firstTiltN) = 0 := rfl
  have t2 : (M.cfg plant).deviation (·.firstTiltU) = 0 := rfl
  have t3 : (M.cfg plant).deviation (·.secondTiltE) = 0 := rfl
  have t4 : (M.cfg plant).deviation (·.secondTiltN) = 0 := rfl
  unfold KinConfig.HeliostatCfg.chain
  rw [t1, t2, t3, t4, r0, r1, r2, Matrix.one_mul, Matrix.one_mul, Matrix.one_mul]
  rfl

/-! ### C81 -/

/-- C81, facets: the facets of the configuration are the measured ones, in order, each with its own translation and canting; the keys are those of
`C82_generated_iff`. -/
theorem C81_facets (plant : Geo.Wgs) (nu nv : Nat) {f : File} {M : Measured} (h : Describes f M) : ∃ c, heliostat plant nu nv f = .ok c ∧
    c.facets = Field.generatedFrom 0 (M.facets.map fun t => Surfaces.idealFacet nu nv t.1.dir t.2.1.dir t.2.2.dir) := by
  refine ⟨_, heliostat_eq plant nu nv h, ?_⟩
  dsimp only [idealSurface]
  rw [List.map_map]
  rfl

/-- C81, end to end for linear actuators: a heliostat extracted from a file, written to a scenario and loaded has the kinematics of the measured
heliostat, at the measured position relative to the power plant, with its actuators and their limits. -/
theorem C81_linear (plant : Geo.Wgs) (nu nv : Nat) {f : File} {M : Measured} (h : Describes f M) (h1 : M.actuator₁.type = "linear".toList)
    (h2 : M.actuator₂.type = "linear".toList) : ∃ c x, heliostat plant nu nv f = .ok c ∧
    KinConfig.load (KinConfig.write c.config) (KinConfig.actuatorKeys c.config) = .ok x ∧ x.initialOrientation = M.orientation.dir ∧
    (∀ m, x.heliostat.forward m = M.chain plant
      (({ M.actuator₁.linear with initialAngle := M.actuator₁.angle - π / 2 } : Actuators.Linear).toAngle m.1) (M.actuator₂.linear.toAngle m.2)) ∧
    x.heliostat.actuator1.minMotor = M.actuator₁.lo ∧ x.heliostat.actuator1.maxMotor = M.actuator₁.hi ∧
    x.heliostat.actuator2.minMotor = M.actuator₂.lo ∧ x.heliostat.actuator2.maxMotor = M.actuator₂.hi := by
  obtain ⟨x, hx, ho, hf, hl⟩ := KinConfig.C71_linear_chain (cfg_sound M plant _ h1 h2)
  refine ⟨_, x, heliostat_eq plant nu nv h, hx, ho, ?_, hl⟩
  intro m
  rw [hf, cfg_chain]
  rfl

/-- C81, end to end for ideal actuators. -/
theorem C81_ideal (plant : Geo.Wgs) (nu nv : Nat) {f : File} {M : Measured} (h : Describes f M) (h1 : M.actuator₁.type = "ideal".toList)
    (h2 : M.actuator₂.type = "ideal".toList) : ∃ c x, heliostat plant nu nv f = .ok c ∧
    KinConfig.load (KinConfig.write c.config) (KinConfig.actuatorKeys c.config) = .ok x ∧ x.initialOrientation = M.orientation.dir ∧
    (∀ m, x.heliostat.forward m = M.chain plant m.1 m.2) ∧
    x.heliostat.actuator1.minMotor = M.actuator₁.lo ∧ x.heliostat.actuator1.maxMotor = M.actuator₁.hi ∧
    x.heliostat.actuator2.minMotor = M.actuator₂.lo ∧ x.heliostat.actuator2.maxMotor = M.actuator₂.hi := by
  obtain ⟨x, hx, ho, hf, hl⟩ := KinConfig.C71_ideal_chain (cfg_sound M plant _ h1 h2)
  refine ⟨_, x, heliostat_eq plant nu nv h, hx, ho, ?_, hl⟩
  intro m
  rw [hf, cfg_chain]

/-! ### Which files are accepted -/

/-- A number under the key (booleans count as numbers). -/
def HasNumber (d : List (Key × J)) (key : String) : Prop := (∃ x, dictGet d key.toList = some (.num x)) ∨ ∃ b, dictGet d key.toList = some (.flag b)

/-- An actuator with all its entries. -/
structure CompleteActuator (d : List (Key × J)) : Prop where
  numbers : ∀ key ∈ ["increment", "initial_stroke_length", "offset", "pivot_radius", "initial_angle", "min_increment", "max_increment"], HasNumber d key
  type : ∃ t, dictGet d "type_axis".toList = some (.text t)
  clockwise : ∃ c, dictGet d "clockwise_axis_movement".toList = some c

/-- A vector with three components, or with one. -/
def Usable (o : Option (List ℝ)) : Prop := ∃ l, o = some l ∧ (l.length = 3 ∨ l.length = 1)

/-- The files that are accepted. -/
structure Accepted (f : File) : Prop where
  position : ∃ l, f.position = some l ∧ l.length = 3
  facets : ∃ n : Nat, f.numberOfFacets = some (n : Int) ∧
    (n = 0 ∨ ∃ l, f.facets = some l ∧ n ≤ l.length ∧ ∀ x ∈ l.take n, Usable x.translation ∧ Usable x.cantE ∧ Usable x.cantN)
  first : f.kinematics.firstE ≠ none ∧ f.kinematics.firstN ≠ none ∧ f.kinematics.firstU ≠ none
  second : f.kinematics.secondE ≠ none ∧ f.kinematics.secondN ≠ none ∧ f.kinematics.secondU ≠ none
  concentrator : f.kinematics.concentratorE ≠ none ∧ f.kinematics.concentratorN ≠ none ∧ f.kinematics.concentratorU ≠ none
  orientation : ∃ l, f.orientation = some l ∧ l.length = 3
  actuators : ∃ l, f.actuators = some l ∧ ∀ d ∈ l, CompleteActuator d

theorem number_ok (d : List (Key × J)) (key : String) : (∃ x, number d key = .ok x) ↔ HasNumber d key := by
  unfold number HasNumber
  cases h : dictGet d key.toList with
  | none => simp [need, bind, Except.bind]
  | some j => cases j <;> simp [need, bind, Except.bind, pure, Except.pure]

theorem readActuator_ok (i : Nat) (d : List (Key × J)) : (∃ a, readActuator i d = .ok a) ↔ CompleteActuator d := by
  have key : (∃ a, readActuator i d = .ok a) ↔ HasNumber d "increment" ∧ HasNumber d "initial_stroke_length" ∧ HasNumber d "offset" ∧
      HasNumber d "pivot_radius" ∧ HasNumber d "initial_angle" ∧ (∃ t, dictGet d "type_axis".toList = some (.text t)) ∧
      (∃ c, dictGet d "clockwise_axis_movement".toList = some c) ∧ HasNumber d "min_increment" ∧ HasNumber d "max_increment" := by
    unfold readActuator
    constructor
    · rintro ⟨r, hr⟩
      obtain ⟨x1, h1, hr⟩ := (bind_eq_ok _ _ _).1 hr
      obtain ⟨x2, h2, hr⟩ := (bind_eq_ok _ _ _).1 hr
      obtain ⟨x3, h3, hr⟩ := (bind_eq_ok _ _ _).1 hr
      obtain ⟨x4, h4, hr⟩ := (bind_eq_ok _ _ _).1 hr
      obtain ⟨x5, h5, hr⟩ := (bind_eq_ok _ _ _).1 hr
      obtain ⟨t, ht, hr⟩ := (bind_eq_ok _ _ _).1 hr
      obtain ⟨c, hc, hr⟩ := (bind_eq_ok _ _ _).1 hr
      obtain ⟨x6, h6, hr⟩ := (bind_eq_ok _ _ _).1 hr
      obtain ⟨x7, h7, hr⟩ := (bind_eq_ok _ _ _).1 hr
      refine ⟨(number_ok _ _).1 ⟨_, h1⟩, (number_ok _ _).1 ⟨_, h2⟩, (number_ok _ _).1 ⟨_, h3⟩, (number_ok _ _).1 ⟨_, h4⟩, (number_ok _ _).1 ⟨_, h5⟩,
        ?_, ⟨c, (need_ok _ _).1 hc⟩, (number_ok _ _).1 ⟨_, h6⟩, (number_ok _ _).1 ⟨_, h7⟩⟩
      cases t with
      | text t => exact ⟨t, (need_ok _ _).1 ht⟩
      | num _ => cases hr
      | flag _ => cases hr
    · rintro ⟨h1, h2, h3, h4, h5, ⟨t, ht⟩, ⟨c, hc⟩, h6, h7⟩
      obtain ⟨x1, h1⟩ := (number_ok _ _).2 h1
      obtain ⟨x2, h2⟩ := (number_ok _ _).2 h2
      obtain ⟨x3, h3⟩ := (number_ok _ _).2 h3
      obtain ⟨x4, h4⟩ := (number_ok _ _).2 h4
      obtain ⟨x5, h5⟩ := (number_ok _ _).2 h5
      obtain ⟨x6, h6⟩ := (number_ok _ _).2 h6
      obtain ⟨x7, h7⟩ := (number_ok _ _).2 h7
      simp only [h1, h2, h3, h4, h5, h6, h7, ht, hc, need, bind, Except.bind]
      exact ⟨_, rfl⟩
  rw [key]
  constructor
  · rintro ⟨h1, h2, h3, h4, h5, ht, hc, h6, h7⟩
    refine ⟨?_, ht, hc⟩
    simp only [List.forall_mem_cons, List.not_mem_nil, false_imp_iff, implies_true, and_true]
    exact ⟨h1, h2, h3, h4, h5, h6, h7⟩
  · intro h
    obtain ⟨h, ht, hc⟩ := h
    simp only [List.forall_mem_cons, List.not_mem_nil, false_imp_iff, implies_true, and_true] at h
    obtain ⟨h1, h2, h3, h4, h5, h6, h7⟩ := h
    exact ⟨h1, h2, h3, h4, h5, ht, hc, h6, h7⟩

theorem readActuators_ok : ∀ (l : List (List (Key × J))) (i : Nat), (∃ a, readActuators i l = .ok a) ↔ ∀ d ∈ l, CompleteActuator d
  | [], _ => by simp [readActuators]
  | d :: rest, i => by
    unfold readActuators
    rw [List.forall_mem_cons, ← readActuators_ok rest (i + 1), ← readActuator_ok i]
    simp only [bind_ok]
    constructor
    · rintro ⟨a, ha, as, has, _⟩
      exact ⟨⟨a, ha⟩, as, has⟩
    · rintro ⟨⟨a, ha⟩, as, has⟩
      exact ⟨a, ha, as, has, _, rfl⟩

theorem readFacets_ok : ∀ (n : Nat) (l : List PaintFacet), (∃ a, readFacets n l = .ok a) ↔
    n ≤ l.length ∧ ∀ x ∈ l.take n, Usable x.translation ∧ Usable x.cantE ∧ Usable x.cantN
  | 0, l => by simp [readFacets]
  | n + 1, [] => by simp [readFacets]
  | n + 1, f :: fs => by
    have u : ∀ o : Option (List ℝ), Usable o ↔ ∃ l, o = some l ∧ ∃ v, row l = .ok v := by
      intro o; unfold Usable; simp only [row_ok]
    have ih := readFacets_ok n fs
    unfold readFacets
    simp only [bind_ok, need_ok, List.take_succ_cons, List.forall_mem_cons, List.length_cons, Nat.add_le_add_iff_right, u] at ih ⊢
    constructor
    · rintro ⟨a, ha, b, hb, c, hc, d, hd, e, he, g, hg, r, hr, _⟩
      obtain ⟨h1, h2⟩ := ih.1 ⟨r, hr⟩
      exact ⟨h1, ⟨⟨a, ha, b, hb⟩, ⟨c, hc, d, hd⟩, e, he, g, hg⟩, h2⟩
    · rintro ⟨h1, ⟨⟨a, ha, b, hb⟩, ⟨c, hc, d, hd⟩, e, he, g, hg⟩, h2⟩
      obtain ⟨r, hr⟩ := ih.2 ⟨h1, h2⟩
      exact ⟨a, ha, b, hb, c, hc, d, hd, e, he, g, hg, r, hr, _, rfl⟩

theorem readDeviations_ok (k : PaintKinematics) : (∃ d, readDeviations k = .ok d) ↔ (k.firstE ≠ none ∧ k.firstN ≠ none ∧ k.firstU ≠ none) ∧
    (k.secondE ≠ none ∧ k.secondN ≠ none ∧ k.secondU ≠ none) ∧ k.concentratorE ≠ none ∧ k.concentratorN ≠ none ∧ k.concentratorU ≠ none := by
  unfold readDeviations
  simp only [bind_ok, need_ok, Option.ne_none_iff_exists', exists_and_right, pure, Except.pure, Except.ok.injEq, exists_eq', and_true, and_assoc]

/-- C81: exactly the files with everything in them are accepted.  (Full claim: a file is accepted only if it has as many facets as it says and all
vectors have three components; it is false: `C81_surplus` and the one-component vectors of `Usable`.) -/
theorem C81_accepted_partial (plant : Geo.Wgs) (nu nv : Nat) (f : File) : (∃ c, heliostat plant nu nv f = .ok c) ↔ Accepted f := by
  unfold heliostat
  simp only [bind_ok, need_ok]
  constructor
  · rintro ⟨p, hp, v, hv, n, hn, c, hc⟩
    split at hc
    · cases hc
    · rename_i hneg
      have h2 := (bind_eq_ok _ _ _).1 hc
      obtain ⟨facets, hfac, h2⟩ := h2
      obtain ⟨dev, hdev, h2⟩ := (bind_eq_ok _ _ _).1 h2
      obtain ⟨o, ho, h2⟩ := (bind_eq_ok _ _ _).1 h2
      obtain ⟨o4, ho4, h2⟩ := (bind_eq_ok _ _ _).1 h2
      obtain ⟨a, ha, h2⟩ := (bind_eq_ok _ _ _).1 h2
      obtain ⟨as, has, -⟩ := (bind_eq_ok _ _ _).1 h2
      obtain ⟨d1, d2, d3⟩ := (readDeviations_ok _).1 ⟨_, hdev⟩
      refine ⟨⟨p, hp, (position4_ok plant p).1 ⟨v, hv⟩⟩, ⟨n.toNat, by rw [hn, Int.toNat_of_nonneg (by omega)], ?_⟩, d1, d2, d3,
        ⟨o, (need_ok _ _).1 ho, (direction4_ok o).1 ⟨_, ho4⟩⟩, a, (need_ok _ _).1 ha, (readActuators_ok a 0).1 ⟨_, has⟩⟩
      split at hfac
      · rename_i h0; left; simp [h0]
      · right
        obtain ⟨l, hl, hr⟩ := (bind_eq_ok _ _ _).1 hfac
        exact ⟨l, (need_ok _ _).1 hl, (readFacets_ok _ _).1 ⟨_, hr⟩⟩
  · intro h
    obtain ⟨p, hp, hp3⟩ := h.position
    obtain ⟨n, hn, hfac⟩ := h.facets
    obtain ⟨o, ho, ho3⟩ := h.orientation
    obtain ⟨a, ha, hac⟩ := h.actuators
    obtain ⟨v, hv⟩ := (position4_ok plant p).2 hp3
    obtain ⟨o4, ho4⟩ := (direction4_ok o).2 ho3
    obtain ⟨as, has⟩ := (readActuators_ok a 0).2 hac
    obtain ⟨d, hd⟩ := (readDeviations_ok f.kinematics).2 ⟨h.first, h.second, h.concentrator⟩
    have hf : ∃ r, (if (n : Int) = 0 then Except.ok [] else do
        let l ← need f.facets
        readFacets ((n : Int)).toNat l) = Except.ok r := by
      split
      · exact ⟨_, rfl⟩
      · rename_i h0
        rcases hfac with rfl | ⟨l, hl, hle, hx⟩
        · exact absurd rfl h0
        · obtain ⟨r, hr⟩ := (readFacets_ok n l).2 ⟨hle, hx⟩
          exact ⟨r, (bind_eq_ok _ _ _).2 ⟨l, (need_ok _ _).2 hl, by rw [Int.toNat_natCast]; exact hr⟩⟩
    obtain ⟨r, hr⟩ := hf
    refine ⟨p, hp, v, hv, n, hn, ?_⟩
    have hneg : ¬ ((n : Int) < 0) := by omega
    rw [if_neg hneg]
    exact ⟨_, (bind_eq_ok _ _ _).2 ⟨r, hr, (bind_eq_ok _ _ _).2 ⟨d, hd, (bind_eq_ok _ _ _).2 ⟨o, (need_ok _ _).2 ho, (bind_eq_ok _ _ _).2
      ⟨o4, ho4, (bind_eq_ok _ _ _).2 ⟨a, (need_ok _ _).2 ha, (bind_eq_ok _ _ _).2 ⟨as, has, rfl⟩⟩⟩⟩⟩⟩⟩

/-- C81, negation: facets beyond the stated number are dropped without a word. -/
theorem C81_surplus (plant : Geo.Wgs) (nu nv : Nat) (f : File) (n : Nat) (l : List PaintFacet) (hn : f.numberOfFacets = some (n : Int)) (hl : f.facets = some l) :
    heliostat plant nu nv f = heliostat plant nu nv { f with facets := some (l.take n) } := by
  unfold heliostat
  simp only [hn, hl, need, bind, Except.bind, Int.toNat_natCast, readFacets_take]

/-- C81: fewer facets than stated are rejected. -/
theorem C81_missing_facets (plant : Geo.Wgs) (nu nv : Nat) (f : File) (n : Nat) (l : List PaintFacet) (hn : f.numberOfFacets = some (n : Int)) (hl : f.facets = some l)
    (hlt : l.length < n) : ∃ e, heliostat plant nu nv f = .error e := by
  cases h : heliostat plant nu nv f with
  | error e => exact ⟨e, rfl⟩
  | ok c =>
    obtain ⟨m, hm, hx⟩ := ((C81_accepted_partial plant nu nv f).1 ⟨c, h⟩).facets
    rw [hn] at hm
    have : m = n := by
      have := Option.some.inj hm
      omega
    subst this
    rcases hx with rfl | ⟨l', hl', hle, _⟩
    · omega
    · rw [hl] at hl'; cases hl'; omega

/-- C81: two actuators of different types can be extracted and written, but not loaded. -/
theorem C81_mixed_actuators (plant : Geo.Wgs) (nu nv : Nat) {f : File} {M : Measured} (h : Describes f M)
    (hd : M.actuator₁.type ≠ M.actuator₂.type) : ∃ c, heliostat plant nu nv f = .ok c ∧
    KinConfig.load (KinConfig.write c.config) (KinConfig.actuatorKeys c.config) = .error .valueError := by
  refine ⟨_, heliostat_eq plant nu nv h, ?_⟩
  have hk : ∀ i : Fin 2, KinConfig.GoodKey ("actuator_".toList ++ Nat.toDigits 10 i) := by unfold KinConfig.GoodKey; decide +kernel
  have hn : ((M.cfg plant).actuators.map (·.key)).Nodup := by
    have : (M.cfg plant).actuators.map (·.key) = ["actuator_".toList ++ Nat.toDigits 10 0, "actuator_".toList ++ Nat.toDigits 10 1] := rfl
    rw [this]; decide +kernel
  have hg : ∀ a ∈ (M.cfg plant).actuators, KinConfig.GoodKey a.key := by
    intro a ha
    simp only [Measured.cfg, List.mem_cons, List.not_mem_nil, or_false] at ha
    rcases ha with rfl | rfl
    · exact hk 0
    · exact hk 1
  have hkeys : KinConfig.actuatorKeys (M.cfg plant) = [(M.actuator₁.cfg 0).key, (M.actuator₂.cfg 1).key] := by
    have : KinConfig.actuatorKeys (M.cfg plant) = (Field.h5order Field.lexLe [("actuator_".toList ++ Nat.toDigits 10 0, ()), ("actuator_".toList ++ Nat.toDigits 10 1, ())]).map (·.1) := rfl
    rw [this]
    have h2 : (Field.h5order Field.lexLe [("actuator_".toList ++ Nat.toDigits 10 0, ()), ("actuator_".toList ++ Nat.toDigits 10 1, ())]).map (·.1) =
      ["actuator_".toList ++ Nat.toDigits 10 0, "actuator_".toList ++ Nat.toDigits 10 1] := by decide +kernel
    rw [h2]; rfl
  have e4 : KinConfig.actuatorTypes (KinConfig.write (M.cfg plant)) [(M.actuator₁.cfg 0).key, (M.actuator₂.cfg 1).key] =
      .ok [M.actuator₁.type, M.actuator₂.type] := by
    unfold KinConfig.actuatorTypes KinConfig.actuatorTypes KinConfig.actuatorTypes
    rw [KinConfig.type_eq _ hn hg (M.actuator₁.cfg 0) (by simp [Measured.cfg]), KinConfig.type_eq _ hn hg (M.actuator₂.cfg 1) (by simp [Measured.cfg])]
    rfl
  have e1 : KinConfig.readVal (KinConfig.write (M.cfg plant)) ["kinematics".toList, "initial_orientation".toList] = .ok (.vec M.orientation.dir) := by
    have n1 : "initial_orientation".toList ≠ "type".toList := by decide +kernel
    unfold KinConfig.readVal
    rw [KinConfig.get_kinematics _ hn hg _ (by unfold KinConfig.GoodKey; decide +kernel)]
    unfold KinConfig.kinematicsDict
    rw [Flatten.Tree.lookup, if_neg n1, Flatten.Tree.lookup, if_pos rfl]
    rfl
  have e2 : KinConfig.readVal (KinConfig.write (M.cfg plant)) ["kinematics".toList, "type".toList] = .ok (.text "rigid_body".toList) := by
    unfold KinConfig.readVal
    rw [KinConfig.get_kinematics _ hn hg _ (by unfold KinConfig.GoodKey; decide +kernel)]
    unfold KinConfig.kinematicsDict
    rw [Flatten.Tree.lookup, if_pos rfl]
    rfl
  unfold KinConfig.load
  rw [hkeys, e1, e2, e4, KinConfig.C71_deviations _ hn hg]
  have hr : ¬ ("rigid_body".toList ≠ Field.rigidBody) := not_not.2 rfl
  have ht : ([M.actuator₂.type].any (fun x => decide (x ≠ M.actuator₁.type)) = true) := by simpa using fun h => hd h.symm
  simp only [bind, Except.bind]
  rw [if_neg hr, if_pos ht]

/-! ### Several heliostats -/

/-- C81, several files: every heliostat is the one of its own file, with its name, in order; the prototype is the heliostat of the last file. -/
theorem C81_list (plant : Geo.Wgs) (nu nv : Nat) (paths : List (Key × File)) (hs : List (Key × Heliostat)) (p : Heliostat) :
    processHeliostats plant nu nv paths = .ok (hs, p) ↔
      List.Forall₂ (fun a h => h.1 = a.1 ∧ heliostat plant nu nv a.2 = .ok h.2) paths hs ∧ hs.getLast?.map (·.2) = some p := by
  unfold processHeliostats
  rw [bind_eq_ok]
  simp only [← loop_ok]
  constructor
  · rintro ⟨hs', hl, h⟩
    cases hg : hs'.getLast? with
    | none => rw [hg] at h; cases h
    | some q => rw [hg] at h; cases h; exact ⟨hl, by rw [hg]; rfl⟩
  · rintro ⟨hl, hp⟩
    refine ⟨hs, hl, ?_⟩
    cases hg : hs.getLast? with
    | none => rw [hg] at hp; cases hp
    | some q => rw [hg] at hp; cases hp; rfl

/-- C81, several files: there is a result if and only if there is at least one file and all of them are accepted. -/
theorem C81_all_or_nothing (plant : Geo.Wgs) (nu nv : Nat) (paths : List (Key × File)) :
    (∃ r, processHeliostats plant nu nv paths = .ok r) ↔ paths ≠ [] ∧ ∀ a ∈ paths, Accepted a.2 := by
  constructor
  · rintro ⟨⟨hs, p⟩, h⟩
    obtain ⟨hl, hp⟩ := (C81_list plant nu nv paths hs p).1 h
    refine ⟨?_, ?_⟩
    · rintro rfl; cases hl; cases hp
    · intro a ha
      clear h hp
      induction hl with
      | nil => cases ha
      | cons hd _ ih =>
        rcases List.mem_cons.1 ha with rfl | ha
        · exact (C81_accepted_partial plant nu nv _).1 ⟨_, hd.2⟩
        · exact ih ha
  · rintro ⟨hne, ha⟩
    have : ∃ hs : List (Key × Heliostat), List.Forall₂ (fun a h => h.1 = a.1 ∧ heliostat plant nu nv a.2 = .ok h.2) paths hs := by
      clear hne
      induction paths with
      | nil => exact ⟨[], .nil⟩
      | cons x xs ih =>
        obtain ⟨hs, hh⟩ := ih (fun a h => ha a (List.mem_cons_of_mem _ h))
        obtain ⟨c, hc⟩ := (C81_accepted_partial plant nu nv _).2 (ha x (by simp))
        exact ⟨(x.1, c) :: hs, .cons ⟨rfl, hc⟩ hh⟩
    obtain ⟨hs, hh⟩ := this
    have hne' : hs ≠ [] := by rintro rfl; cases hh; exact hne rfl
    exact ⟨_, (C81_list plant nu nv paths hs (hs.getLast hne').2).2 ⟨hh, by rw [List.getLast?_eq_some_getLast hne']; rfl⟩⟩

/-! ### Example -/

/-- An actuator with different values everywhere. -/
noncomputable def actuatorExample (type : Key) : MeasuredActuator := ⟨type, true, 1, 60000, 154166, 3 / 10, 17 / 50, 1 / 3, 4 / 5⟩

/-- A heliostat with two facets. -/
noncomputable def measuredExample (type : Key) : Measured :=
  ⟨⟨50, 6, 90⟩, [((1, 2, 3), (1, 0, 0), (0, 1, 0)), ((-1, 2, 3), (1, 1 / 10, 0), (0, 1, 1 / 10))], (0, 0, 1 / 2), (1, 2, 3), (4, 5, 6), (0, -1, 0),
    actuatorExample type, { actuatorExample type with clockwise := false }⟩

def entryOf (m : MeasuredActuator) : List (Key × J) :=
  [("type_axis".toList, .text m.type), ("comment".toList, .flag true), ("clockwise_axis_movement".toList, .flag m.clockwise),
   ("min_increment".toList, .num m.lo), ("max_increment".toList, .num m.hi), ("increment".toList, .num m.increment), ("initial_stroke_length".toList, .num m.stroke),
   ("offset".toList, .num m.offset), ("pivot_radius".toList, .num m.pivot), ("initial_angle".toList, .num m.angle)]

theorem entryOf_describes (m : MeasuredActuator) : DescribesActuator (entryOf m) m := by
  constructor <;> rfl

/-- The file of a heliostat. -/
def fileOf (M : Measured) : File :=
  { position := some [M.position.lat, M.position.lon, M.position.alt], numberOfFacets := some (M.facets.length : Int)
    facets := some (M.facets.map fun t => ⟨some t.1.list, some t.2.1.list, some t.2.2.list⟩)
    kinematics := ⟨some M.first.1, some M.first.2.1, some M.first.2.2, some M.second.1, some M.second.2.1, some M.second.2.2,
      some M.concentrator.1, some M.concentrator.2.1, some M.concentrator.2.2⟩
    orientation := some M.orientation.list, actuators := some [entryOf M.actuator₁, entryOf M.actuator₂] }

/-- Every heliostat has a file: the hypotheses can be met, with linear and with ideal actuators. -/
example (M : Measured) : Describes (fileOf M) M := ⟨rfl, rfl, rfl, rfl, rfl, _, _, rfl, entryOf_describes _, entryOf_describes _⟩
example : (measuredExample "linear".toList).actuator₂.type = "linear".toList ∧ (measuredExample "linear".toList).facets.length = 2 := ⟨rfl, rfl⟩

/-- A file that states one facet and lists two is accepted. -/
example (plant : Geo.Wgs) : ∃ c, heliostat plant 10 10 { fileOf (measuredExample "linear".toList) with numberOfFacets := some 1 } = .ok c ∧ c.facets.length = 1 := by
  have h := C81_surplus plant 10 10 { fileOf (measuredExample "linear".toList) with numberOfFacets := some 1 } 1 _ rfl rfl
  have hd : Describes { fileOf { measuredExample "linear".toList with facets := [((1, 2, 3), (1, 0, 0), (0, 1, 0))] } with numberOfFacets := some 1 }
    { measuredExample "linear".toList with facets := [((1, 2, 3), (1, 0, 0), (0, 1, 0))] } :=
    ⟨rfl, rfl, rfl, rfl, rfl, _, _, rfl, entryOf_describes _, entryOf_describes _⟩
  obtain ⟨c, hc, hl⟩ := C81_facets plant 10 10 hd
  exact ⟨c, h.trans hc, by rw [hl]; rfl⟩

end Artist.PaintHeliostat
