import Verif.Model.Py
/-!
# Model of the flattening of scenario dictionaries

`artist/scenario/h5_scenario_generator.py` 165-197.  Keys are lists of characters.
-/
namespace Artist.Flatten
open Artist

/-- A key of a dictionary (`h5_scenario_generator.py` 165-197), as a list of characters. -/
abbrev Key := List Char

/-- What a nested dictionary may contain: `isinstance(v, MutableMapping)` (`h5_scenario_generator.py` 194) or anything else.  Nested python
dictionaries in insertion order; that the keys of one dictionary are distinct is a hypothesis where it is needed. -/
inductive Tree (V : Type) where
  /-- An empty dictionary. -/
  | nil
  /-- A dictionary whose first item has the key `k` and the value `v`, not a dictionary. -/
  | leaf (k : Key) (v : V) (rest : Tree V)
  /-- A dictionary whose first item has the key `k` and the dictionary `sub` as value. -/
  | node (k : Key) (sub : Tree V) (rest : Tree V)
  deriving DecidableEq

/-- `parent_key + sep + k if parent_key else k` (`h5_scenario_generator.py` 193). -/
def newKey (sep : Char) (parent k : Key) : Key := if parent ≠ [] then parent ++ [sep] ++ k else k

/-- `_flatten_dict_gen` (`h5_scenario_generator.py` 187-197): the pairs yielded.  The separator is one character (it is always `"/"`). -/
def gen {V : Type} (sep : Char) (parent : Key) : Tree V → List (Key × V)
  | .nil => []
  | .leaf k v rest => (newKey sep parent k, v) :: gen sep parent rest
  | .node k sub rest => gen sep (newKey sep parent k) sub ++ gen sep parent rest

/-- `dict(pairs)`: later pairs replace earlier ones with the same key.  As used in `h5_scenario_generator.py` 185. -/
def toDict {V : Type} (pairs : List (Key × V)) : List (Key × V) := pairs.foldl (fun d p => dictSet d p.1 p.2) []

/-- `_flatten_dict` (`h5_scenario_generator.py` 165-185) with its defaults `parent_key=""`, `sep="/"`. -/
def flatten {V : Type} (t : Tree V) : List (Key × V) := toDict (gen '/' [] t)

end Artist.Flatten
