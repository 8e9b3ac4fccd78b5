import Verif.Model.Py
/-!
# Model of loading PAINT data

`artist/io/paint_scenario_parser.py` 668-802, 913-1012, 1057-1135, `artist/io/paint_calibration_parser.py` 132-170, 217-286,
`artist/io/calibration_parser.py` 149-212.

Files are abstract values; reading a property file is a function that may raise.  The decoded contents of an image are represented by the image
file itself.
-/
namespace Artist.Paint
open Artist

/-! ## `build_heliostat_data_mapping` (`paint_scenario_parser.py` 1057-1135) -/

/-- A file name.  In `paint_scenario_parser.py` 1105-1122 and `paint_calibration_parser.py` 217-286. -/
abbrev Name := List Char

/-- `property_file.stem.split("-")[0]` (line 1116).  The part before the first hyphen; `stem` drops the suffix `.json`, which comes after the hyphen in
every name matched by the pattern (line 1105). -/
def identifier (file : Name) : Name := file.takeWhile (· ≠ '-')

/-- `f"{id_str}-{image_variant}.png"` (line 1117). -/
def imageName (variant : Name) (file : Name) : Name := identifier file ++ '-' :: variant ++ ['.', 'p', 'n', 'g']

/-- The loop over the property files of one heliostat (lines 1115-1124): `properties` collects the files with an image, and the loop ends when
exactly `number` are collected. -/
def select (number : Int) (hasImage : Name → Bool) : List Name → List Name → List Name
  | properties, [] => properties
  | properties, f :: fs =>
    if hasImage f then
      if ((properties ++ [f]).length : Int) = number then properties ++ [f] else select number hasImage (properties ++ [f]) fs
    else select number hasImage properties fs

/-- What `build_heliostat_data_mapping` finds on disk: per heliostat `none` without calibration directory, otherwise the property files (in the order of
the shuffle or sorted, lines 1108-1111) and the image files present. -/
structure Directory where
  properties : List Name
  images : List Name

/-- The property and image lists of one heliostat (lines 1113-1124). -/
def measurements (number : Int) (variant : Name) (d : Directory) : List Name × List Name :=
  let ps := select number (fun f => decide (imageName variant f ∈ d.images)) [] d.properties
  (ps, ps.map (imageName variant))

/-- `build_heliostat_data_mapping` (lines 1096-1135). -/
def dataMapping {H : Type} (number : Int) (variant : Name) (disk : H → Option Directory) (names : List H) :
    List (H × List Name × List Name) :=
  names.filterMap fun name =>
    match disk name with
    | none => none
    | some d =>
      let m := measurements number variant d
      if m.1 ≠ [] ∧ m.2 ≠ [] then some (name, m.1, m.2) else none

/-! ## `parse_data_for_reconstruction` -/
section
variable {H P I C : Type} [DecidableEq H]

/-- `paths[:n]` with Python's meaning of a negative `n`.  As used in `paint_calibration_parser.py` 227. -/
def slice {A : Type} (l : List A) (n : Int) : List A :=
  if 0 ≤ n then l.take n.toNat else l.take ((l.length : Int) + n).toNat

/-- `min(len(paths), self.sample_limit or len(paths))` (`paint_calibration_parser.py` 226, `calibration_parser.py` 164-167, 184):
`None or n` and `0 or n` are `n`. -/
def numberOf (limit : Option Int) (length : Nat) : Int :=
  match limit with
  | none => length
  | some l => if l = 0 then length else min (length : Int) l

/-- `dict(pairs)`.  As used in `calibration_parser.py` 149-212. -/
def toDict {V : Type} (pairs : List (H × V)) : List (H × V) := pairs.foldl (fun d p => dictSet d p.1 p.2) []

/-- `load_flux_from_png` (`calibration_parser.py` 162-212).  A negative number of rows makes `torch.empty` raise `RuntimeError`. -/
def loadFlux (limit : Option Int) (mapping : List (H × List I)) (names : List H) : Except PyErr (List I) :=
  let paths := fun name => (dictGet (toDict mapping) name).getD []
  let total : Int := (names.map (fun name => numberOf limit (paths name).length)).sum
  if total = 0 then .ok []
  else if total < 0 then .error .runtimeError
  else .ok (names.flatMap (fun name => slice (paths name) (numberOf limit (paths name).length)))

/-- Reading the property files of one entry (`paint_calibration_parser.py` 226-251), appended to what is known of the heliostat. -/
def readAll (read : P → Except PyErr C) (name : H) : List P → List (H × List C) → Except PyErr (List (H × List C))
  | [], d => .ok d
  | p :: ps, d =>
    match read p with
    | .error e => .error e
    | .ok c => readAll read name ps (dictAppend d name c)

/-- The loop over the entries (lines 225-251).  `replication_counter` always equals the number of rows collected. -/
def readEntries (limit : Option Int) (read : P → Except PyErr C) :
    List (H × List P) → List (H × List C) → Except PyErr (List (H × List C))
  | [], d => .ok d
  | (name, paths) :: rest, d =>
    match readAll read name (slice paths (numberOf limit paths.length)) d with
    | .error e => .error e
    | .ok d' => readEntries limit read rest d'

/-- `_parse_calibration_data` (lines 217-286): the rows (target index, focal spot, sun position, motor positions of a file together) and the mask.  The
conversions in lines 288-303 act on every row separately. -/
def parseCalibration (limit : Option Int) (read : P → Except PyErr C) (mapping : List (H × List P)) (names : List H) :
    Except PyErr (List C × List Nat) :=
  match readEntries limit read mapping [] with
  | .error e => .error e
  | .ok d =>
    .ok (names.flatMap (fun name => (dictGet d name).getD []), names.map (fun name => ((dictGet d name).getD []).length))

/-- `parse_data_for_reconstruction` (lines 132-170): measured fluxes, rows of calibration data and mask. -/
def parse (limit : Option Int) (read : P → Except PyErr C) (mapping : List (H × List P × List I)) (names : List H) :
    Except PyErr (List I × List C × List Nat) :=
  let known := mapping.filter (fun m => decide (m.1 ∈ names))
  match loadFlux limit (known.map (fun m => (m.1, m.2.2))) names with
  | .error e => .error e
  | .ok fluxes =>
    match parseCalibration limit read (known.map (fun m => (m.1, m.2.1))) names with
    | .error e => .error e
    | .ok (rows, mask) => .ok (fluxes, rows, mask)
end

/-! ## Heliostats with and without deflectometry data -/
section
variable {N P D : Type}

/-- An entry of `paths`: name, property file and, in the third position if present, a deflectometry file or `None`.  Source: `paint_scenario_parser.py` 668-671 and 709-722. -/
structure Entry (N P D : Type) where
  name : N
  properties : P
  deflectometry : Option D
  deriving DecidableEq, Repr

/-- A `HeliostatConfig` with the parts relevant here: `fitted` is the deflectometry file the surface was fitted to, `none` for an ideal surface.  Source: `paint_scenario_parser.py` 771-780. -/
structure Heliostat (N P D : Type) where
  name : N
  id : Nat
  properties : P
  fitted : Option D
  deriving DecidableEq, Repr

/-- `_process_heliostats_from_paths` (`paint_scenario_parser.py` 705-802).  `surface` is the surface generator.  The prototype is that of the last
heliostat; with no entries the prototype variables are unbound. -/
def processPaths (surface : Entry N P D → Option D) (paths : List (Entry N P D)) :
    Except PyErr (List (Heliostat N P D) × Heliostat N P D) :=
  let list := paths.zipIdx.map (fun (e, i) => (⟨e.name, i, e.properties, surface e⟩ : Heliostat N P D))
  match list.getLast? with
  | none => .error .unboundLocal
  | some prototype => .ok (list, prototype)

/-- `extract_paint_heliostats_ideal_surface` (lines 835-841): the third element is ignored. -/
def loadIdeal (paths : List (Entry N P D)) := processPaths (fun _ => none) paths

/-- `extract_paint_heliostats_fitted_surface` (lines 897-910), for entries with a deflectometry file. -/
def loadFitted (paths : List (Entry N P D)) := processPaths (fun e => e.deflectometry) paths

/-- `extract_paint_heliostats_mixed_surface` (lines 969-1012). -/
def loadMixed (paths : List (Entry N P D)) : Except PyErr (List (Heliostat N P D) × Heliostat N P D) :=
  let fittedPaths := paths.filter (fun e => e.deflectometry.isSome)
  let idealPaths := paths.filter (fun e => !e.deflectometry.isSome)
  match loadIdeal idealPaths with
  | .error e => .error e
  | .ok (ideal, prototype) =>
    match loadFitted fittedPaths with
    | .error e => .error e
    | .ok (fitted, _) => .ok (ideal ++ fitted, prototype)
end

end Artist.Paint
