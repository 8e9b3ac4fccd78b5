import Verif.Model.Flatten
/-!
# Specification of nested dictionaries

What it means to look up a value by a path of keys, independent of how the dictionary is flattened.
-/
namespace Artist.Flatten

variable {V : Type}

/-- The keys of the outermost dictionary. -/
def Tree.keys : Tree V → List Key
  | .nil => []
  | .leaf k _ rest => k :: rest.keys
  | .node k _ rest => k :: rest.keys

/-- The value found by indexing with the keys of a path one after the other: `d[path[0]][path[1]]...`. -/
def Tree.lookup : Tree V → List Key → Option V
  | .nil, _ => none
  | .leaf k v rest, path =>
    match path with
    | [] => none
    | [p] => if p = k then some v else rest.lookup [p]
    | p :: q :: ps => if p = k then none else rest.lookup (p :: q :: ps)
  | .node k sub rest, path =>
    match path with
    | [] => none
    | p :: ps => if p = k then sub.lookup ps else rest.lookup (p :: ps)

/-- Keys of every dictionary are distinct (as in every python dictionary), non-empty and free of the separator. -/
def Tree.Proper : Tree V → Prop
  | .nil => True
  | .leaf k _ rest => k ≠ [] ∧ '/' ∉ k ∧ k ∉ rest.keys ∧ rest.Proper
  | .node k sub rest => k ≠ [] ∧ '/' ∉ k ∧ k ∉ rest.keys ∧ sub.Proper ∧ rest.Proper

/-- No dictionary inside is empty. -/
def Tree.NoEmpty : Tree V → Prop
  | .nil => True
  | .leaf _ _ rest => rest.NoEmpty
  | .node _ sub rest => sub ≠ .nil ∧ sub.NoEmpty ∧ rest.NoEmpty

/-- A path written with separators: `"/".join(path)`. -/
def join : List Key → Key
  | [] => []
  | [k] => k
  | k :: ks => k ++ '/' :: join ks

end Artist.Flatten
