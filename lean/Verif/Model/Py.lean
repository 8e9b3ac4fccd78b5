/-!
# Python helpers shared by the models

Exceptions are values (`Except PyErr`), dictionaries are association lists in insertion order.
-/
namespace Artist

/-- Python exceptions that the modelled code can raise.  Only the class matters.  Raised for example in `scenario.py` 332-338 (ValueError), `env.py` 157-228 (any), `blocking.py` 975 (RuntimeError). -/
inductive PyErr where
  | stopIteration
  | valueError
  | indexError
  | keyError
  | typeError
  | runtimeError
  | assertionError
  | zeroDivision
  | unboundLocal
  deriving DecidableEq, Repr

deriving instance DecidableEq for Except

/-- `defaultdict(list)`: `d[key].append(x)`.  Appends to the list stored under `key`; a missing key is
inserted at the end with the list `[x]` (python dictionaries keep insertion order).  As used in `scenario.py` 400, `env.py` 120-123, `heliostat_field.py` 140. -/
def dictAppend {K V : Type} [DecidableEq K] (d : List (K × List V)) (key : K) (x : V) :
    List (K × List V) :=
  match d with
  | [] => [(key, [x])]
  | (k, vs) :: rest => if k = key then (k, vs ++ [x]) :: rest else (k, vs) :: dictAppend rest key x

/-- `d.get(key)` on an association list.  As used in `scenario.py` 408. -/
def dictGet {K V : Type} [DecidableEq K] (d : List (K × V)) (key : K) : Option V :=
  match d with
  | [] => none
  | (k, v) :: rest => if k = key then some v else dictGet rest key

/-- `d[key] = v`: replaces in place or inserts at the end.  As used in `solar_tower.py` 84. -/
def dictSet {K V : Type} [DecidableEq K] (d : List (K × V)) (key : K) (v : V) : List (K × V) :=
  match d with
  | [] => [(key, v)]
  | (k, w) :: rest => if k = key then (k, v) :: rest else (k, w) :: dictSet rest key v

/-- `list(itertools.islice(itertools.cycle(all), n))`, with `rest` the part of the current pass not yet
consumed.  `cycle([])` is the empty iterator.  As used in `env.py` 260. -/
def cycleTakeFrom {α : Type} (all : List α) : List α → Nat → List α
  | _, 0 => []
  | x :: xs, n + 1 => x :: cycleTakeFrom all xs n
  | [], n + 1 =>
    match all with
    | [] => []
    | y :: ys => y :: cycleTakeFrom all ys n

/-- `torch.repeat_interleave(rows, counts, dim=0)`: row `i` repeated `counts[i]` times, in order. -/
def repeatInterleave {α : Type} : List α → List Nat → List α
  | x :: xs, c :: cs => List.replicate c x ++ repeatInterleave xs cs
  | _, _ => []

end Artist

namespace Artist

/-- Python slice `l[::k]` for `k ≥ 1`: the entries at positions `0, k, 2k, ...`.
`countdown` is the number of entries still to skip. -/
def strideFrom {α : Type} (k : Nat) : Nat → List α → List α
  | _, [] => []
  | 0, x :: xs => x :: strideFrom k (k - 1) xs
  | c + 1, _ :: xs => strideFrom k c xs

/-- Python slice `l[::k]`.  As used in `surface_generator.py` 316-321. -/
def stride {α : Type} (k : Nat) (l : List α) : List α := strideFrom k 0 l

end Artist
