import Verif.Model.LBVH
import Mathlib.Algebra.BigOperators.Group.Finset.Basic
/-!
Specification vocabulary for the bounding-volume hierarchy (C09-C11): paths in a child table, and the
brute-force filter the hierarchy is meant to accelerate.
-/
namespace Artist.LBVH
open Artist

/-- `c` is stored as left or right child of `a`. -/
def IsChild (left right : List Int) (a c : Nat) : Prop :=
  left[a]? = some (c : Int) ∨ right[a]? = some (c : Int)

/-- There is a path of `k` child links from `a` to `b`. -/
inductive Path (left right : List Int) : Nat → Nat → Nat → Prop
  | refl (a : Nat) : Path left right a a 0
  | step {a c b k : Nat} : IsChild left right a c → Path left right c b k → Path left right a b (k + 1)

/-- Testing every ray against the box of every primitive: the primitives hit by some ray that does not belong to
them. -/
def bruteForce {K : Type} [Field K] [LinearOrder K] (boxes : List (Box K)) (rays : List (Ray K)) : List Nat :=
  (List.range boxes.length).filter (fun p =>
    rays.any (fun ray => decide (ray.owner ≠ p) && hits ray (boxes.getD p zeroBox)))

/-- The code array is the stated one for the tree: is primitive `p`'s leaf below the root? -/
def LeafReachable {K : Type} (tree : Tree K) (p : Nat) : Prop :=
  ∃ node k, Path tree.left tree.right 0 node k ∧ tree.isLeaf[node]? = some true ∧
    tree.primitiveIndex[node]? = some (p : Int)

/-- Following child links from the root one can come back to a node already passed. -/
def HasLoop {K : Type} (tree : Tree K) : Prop :=
  ∃ node k m, Path tree.left tree.right 0 node k ∧ Path tree.left tree.right node node (m + 1)

/-- Every box has its minimum corner below its maximum corner. -/
def Box.Proper {K : Type} [Field K] [LinearOrder K] (b : Box K) : Prop :=
  b.mn.e ≤ b.mx.e ∧ b.mn.n ≤ b.mx.n ∧ b.mn.u ≤ b.mx.u

/-- Does the box contain the point? -/
def Box.Contains {K : Type} [Field K] [LinearOrder K] (b : Box K) (p : V3 K) : Prop :=
  (b.mn.e ≤ p.e ∧ p.e ≤ b.mx.e) ∧ (b.mn.n ≤ p.n ∧ p.n ≤ b.mx.n) ∧ (b.mn.u ≤ p.u ∧ p.u ≤ b.mx.u)

/-- The cells of the 1024³ grid over the field in which the primitives' centres lie. -/
def gridCells {K : Type} [Field K] [LinearOrder K] [IsStrictOrderedRing K] [FloorRing K]
    (corners : List (V3 K × V3 K × V3 K × V3 K)) : List (V3 Int) :=
  match corners.map centroid with
  | [] => []
  | c :: cs => Morton.quantised (1 / 10 ^ 6) c cs

/-- No value stands at three (or more) positions. -/
def NoThree {α : Type} (l : List α) : Prop :=
  ∀ (i j k : Nat) (x : α), i ≠ j → j ≠ k → i ≠ k → l[i]? = some x → l[j]? = some x → l[k]? = some x → False

/-- `o` is the sum of some of the numbers `m / 2`, `m / 4`, `m / 8`, … (rounded down).  For `m = 8` these are all numbers up to 7, for `m = 6` only 0, 1, 3 and 4. -/
def SumOfHalves (m o : Nat) : Prop := ∃ S : Finset Nat, o = ∑ k ∈ S, m / 2 ^ (k + 1)

/-- Of `n` codes in ascending order, those at the positions `a` to `b` form a group that divides after position `s`: with `dl j k` the number of leading digits that the codes at `j` and `k`
share, neighbours inside the group share more digits than `s` and `s + 1` do, and the neighbours at its ends fewer. -/
structure IsGroup (n : Nat) (dl : Nat → Int → Int) (a s b : Nat) : Prop where
  le : a ≤ s
  lt : s < b
  bound : b < n
  inside : ∀ j : Nat, a ≤ j → j < b → j ≠ s → dl s (s + 1 : Nat) < dl j (j + 1 : Nat)
  before : 0 < a → dl (a - 1) (a : Int) < dl s (s + 1 : Nat)
  after : b + 1 < n → dl b ((b + 1 : Nat) : Int) < dl s (s + 1 : Nat)

/-- How far the division of a group lies from its end on the side of the neighbour that shares more digits with it (-1 digits are shared across the ends of the list). -/
def offset (dl : Nat → Int → Int) (a s b : Nat) : Nat :=
  if dl b ((b : Int) + 1) ≤ dl a ((a : Int) - 1) then s - a else b - (s + 1)

end Artist.LBVH
