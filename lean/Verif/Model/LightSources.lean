import Verif.Model.Field
import Verif.Spec.Flatten
import Mathlib.Data.Real.Sqrt
/-!
# Model of light sources: configuration, file, and the distortions of the sun

`artist/util/config.py` 292-421, `artist/scenario/h5_scenario_generator.py` 165-218, 272-281, `artist/scene/light_source_array.py` 47-98,
`artist/scene/sun.py`, `artist/scenario/scenario.py` 421-430.  Paths in the file are relative to the group of the light sources; reading a dataset gives
what was written; numbers are reals.
-/
namespace Artist.LightSources
open Artist Flatten

/-- What is stored in a dataset.  Source: the values in `config.py` 361-381. -/
inductive Val where
  | num (x : ℝ)
  | count (n : Int)
  | text (t : List Char)

/-- `constants.light_source_distribution_is_normal` (`constants.py` 37). -/
def normal : Key := "normal".toList

/-- `constants.sun_key`, the only key of `type_registry.light_source_type_mapping` (`type_registry.py` 19). -/
def sunKey : Key := "sun".toList

/-- `LightSourceConfig` (`config.py` 349-359). -/
structure SourceCfg where
  key : Key
  type : Key
  rays : Int
  distribution : Key
  mean : Option ℝ := none
  covariance : Option ℝ := none

/-- `LightSourceConfig.__init__` (`config.py` 317-359): only the type of the distribution is checked. -/
def construct (c : SourceCfg) : Except PyErr SourceCfg := if c.distribution ≠ normal then .error .valueError else .ok c

/-- `create_light_source_dict` (`config.py` 361-380): `mean` and `covariance` are always entered, as `None` (Lean `none`) if they were left out. -/
def sourceDict (c : SourceCfg) : Flatten.Tree (Option Val) :=
  .leaf "type".toList (some (.text c.type)) <| .leaf "number_of_rays".toList (some (.count c.rays)) <|
    .node "distribution_parameters".toList
      (.leaf "distribution_type".toList (some (.text c.distribution)) <| .leaf "mean".toList (c.mean.map .num) <|
        .leaf "covariance".toList (c.covariance.map .num) .nil) .nil

/-- `create_light_source_list_dict` (`config.py` 409-421); that keys are distinct is a hypothesis where it is needed. -/
def listDict : List SourceCfg → Flatten.Tree (Option Val)
  | [] => .nil
  | c :: rest => .node c.key (sourceDict c) (listDict rest)

/-- The datasets of the light sources by path (`h5_scenario_generator.py` 200-301, read in `light_source_array.py` 79-97 and `sun.py` 157-194). -/
abbrev File := List (Key × Val)

/-- `_include_parameters` (`h5_scenario_generator.py` 199-218): `file[path] = None` raises `TypeError` (`h5py` cannot create a dataset without data). -/
def store : List (Key × Option Val) → Except PyErr File
  | [] => .ok []
  | (_, none) :: _ => .error .typeError
  | (k, some v) :: rest => do
    let f ← store rest
    pure ((k, v) :: f)

/-- The light sources part of `generate_scenario` (`h5_scenario_generator.py` 273-281). -/
def write (cs : List SourceCfg) : Except PyErr File := store (flatten (listDict cs))

/-- A loaded `Sun` (`sun.py` 80-119): number of rays, and mean and covariance of its normal distribution, the same in both directions and uncorrelated. -/
structure Sun where
  rays : Int
  mean : ℝ
  covariance : ℝ

/-- What loading a light source can raise: an ordinary exception, or the `KeyError` with the message that the type is not supported
(`light_source_array.py` 94-97). -/
inductive Failure where
  | py (e : PyErr)
  | unsupported (type : Key)
  deriving DecidableEq

/-- `Sun.__init__` (`sun.py` 39-119) with the parameters read from a file.  `MultivariateNormal` raises `ValueError` unless the covariance matrix is
positive definite. -/
noncomputable def sunInit (rays : Int) (distribution : Key) (mean covariance : Option ℝ) : Except PyErr Sun :=
  if distribution ≠ normal then .error .valueError
  else
    match mean, covariance with
    | none, _ => .error .keyError
    | some _, none => .error .keyError
    | some m, some c => if 0 < c then .ok ⟨rays, m, c⟩ else .error .valueError

/-- An optional number of the file (`sun.py` 165-191). -/
def readOptional (f : File) (path : List Key) : Except PyErr (Option ℝ) :=
  match dictGet f (join path) with
  | none => .ok none
  | some (.num x) => .ok (some x)
  | some _ => .error .valueError

/-- `Sun.from_hdf5` (`sun.py` 121-197). -/
noncomputable def sunFromFile (f : File) (key : Key) : Except PyErr Sun :=
  match dictGet f (join [key, "number_of_rays".toList]) with
  | some (.count n) =>
    match dictGet f (join [key, "distribution_parameters".toList, "distribution_type".toList]) with
    | some (.text d) =>
      match readOptional f [key, "distribution_parameters".toList, "mean".toList],
        readOptional f [key, "distribution_parameters".toList, "covariance".toList] with
      | .ok m, .ok c => sunInit n d m c
      | _, _ => .error .valueError
    | none => .error .keyError
    | some _ => .error .typeError
  | none => .error .keyError
  | some _ => .error .typeError

/-- One iteration of the loop of `LightSourceArray.from_hdf5` (`light_source_array.py` 80-97): every `KeyError` while loading is reported as an
unsupported type. -/
noncomputable def loadOne (f : File) (key : Key) : Except Failure Sun :=
  match dictGet f (join [key, "type".toList]) with
  | none => .error (.py .keyError)
  | some (.text t) =>
    if t = sunKey then
      match sunFromFile f key with
      | .ok s => .ok s
      | .error .keyError => .error (.unsupported t)
      | .error e => .error (.py e)
    else .error (.unsupported t)
  | some _ => .error (.py .typeError)

/-- The loop of `LightSourceArray.from_hdf5` (`light_source_array.py` 77-98). -/
noncomputable def loadAll (f : File) : List Key → Except Failure (List Sun)
  | [] => .ok []
  | k :: ks => do
    let s ← loadOne f k
    let rest ← loadAll f ks
    pure (s :: rest)

/-- `sorted(config_file["lightsources"].keys())` (`light_source_array.py` 79). -/
def sourceKeys (cs : List SourceCfg) : List Key := (Field.h5order Field.lexLe (cs.map fun c => (c.key, c))).map (·.1)

/-- `set_number_of_rays` (`scenario.py` 421-430). -/
def setNumberOfRays (n : Int) : List Sun → Except PyErr (List Sun)
  | [] => .error .indexError
  | s :: rest => .ok ({ s with rays := n } :: rest)

/-- The light source used by the ray tracer (`heliostat_ray_tracer.py` 127-129). -/
def traced : List Sun → Except PyErr Sun
  | [] => .error .indexError
  | s :: _ => .ok s

/-- The random number generator of torch: its state, the state after `torch.manual_seed(seed)`, and one call that draws standard normal numbers in a tensor
of a given shape.  Which numbers these are is left open.  As used in `sun.py` 224-233. -/
structure Generator where
  State : Type
  seeded : Int → State
  normals : State → List Nat → (List Nat → ℝ) × State

/-- `torch.manual_seed(seed)` (and `torch.cuda.manual_seed(seed)`, `sun.py` 224-225): replaces whatever state the generator was in. -/
def manualSeed (g : Generator) (seed : Int) (_ : g.State) : g.State := g.seeded seed

/-- `Sun.get_distortions` (`sun.py` 199-234): `sample` draws `number_of_active_heliostats × rays × points × 2` standard normal numbers `z` and returns
`mean + L z` with the Cholesky factor `L` of the covariance matrix, here `√covariance` times the identity.  Results: the distortions in up and east direction
by heliostat, ray and point, and the state of the generator afterwards.  A negative number of rays raises in torch and is not modelled. -/
noncomputable def getDistortions (g : Generator) (s : Sun) (points heliostats : Nat) (seed : Int) (before : g.State) :
    (Nat → Nat → Nat → ℝ) × (Nat → Nat → Nat → ℝ) × g.State :=
  let z := g.normals (manualSeed g seed before) [heliostats, s.rays.toNat, points, 2]
  (fun h r p => s.mean + √s.covariance * z.1 [h, r, p, 0], fun h r p => s.mean + √s.covariance * z.1 [h, r, p, 1], z.2)

/-- What a program does with the global generator.  No counterpart in the code: `torch.manual_seed` and draws of a program, and the call in `sun.py` 199-234. -/
inductive Event where
  /-- The user calls `torch.manual_seed`. -/
  | seed (n : Int)
  /-- The user draws standard normal numbers. -/
  | draw (shape : List Nat)
  /-- A ray tracer is created for a group (`heliostat_ray_tracer.py` 131-139, `sampling.py` 49-53). -/
  | tracer (s : Sun) (points heliostats : Nat) (seed : Int)

/-- The state of the generator after one event.  Source: `sun.py` 224-233 for the call of `get_distortions`. -/
noncomputable def after (g : Generator) (st : g.State) : Event → g.State
  | .seed n => manualSeed g n st
  | .draw shape => (g.normals st shape).2
  | .tracer s p h n => (getDistortions g s p h n st).2.2

end Artist.LightSources
