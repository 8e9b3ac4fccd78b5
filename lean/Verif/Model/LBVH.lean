import Verif.Model.Morton
import Mathlib.Data.List.Sort
/-!
# Model of the linear bounding volume hierarchy
(`artist/raytracing/blocking.py` 513-995)

Tensors over all nodes are lists; the element-wise loops are modelled element by element.  This is exact:
in every loop of the code an element that is finished is left unchanged by the remaining passes made
for other elements (`torch.where` with a false mask, or adding `t = 0`).
-/
namespace Artist.LBVH
open Artist Artist.Morton

/-! ## Tree topology

`dl i j` stands for `longest_common_prefix(codes, i, j)`. -/

/-- `direction_to_similar_codes` (line 595). -/
def direction (dl : Nat → Int → Int) (i : Nat) : Int := if dl i (i + 1) > dl i (i - 1) then 1 else -1

/-- `delta_min` (line 600). -/
def deltaMin (dl : Nat → Int → Int) (i : Nat) : Int := min (dl i (i - 1)) (dl i (i + 1))

/-- The doubling loop for `l_max` (lines 604-615); the first argument bounds the number of passes. -/
def expandLoop (dl : Nat → Int → Int) (i : Nat) (d dmin : Int) : Nat → Nat → Nat
  | 0, l => l
  | fuel + 1, l => if dl i (i + l * d) > dmin then expandLoop dl i d dmin fuel (l * 2) else l

/-- The two binary-search loops (lines 619-628 and 641-650): `while t >= 1`, add `t` if the prefix is
longer than the threshold, then halve `t` (`t // 2`).  The first argument bounds the number of passes; `t`
itself is always enough because `t` is at least halved. -/
def searchLoop (dl : Nat → Int → Int) (i : Nat) (d thr : Int) : Nat → Nat → Nat → Nat
  | 0, l, _ => l
  | fuel + 1, l, t =>
    if 1 ≤ t then
      searchLoop dl i d thr fuel (if dl i (i + (l + t : Nat) * d) > thr then l + t else l) (t / 2)
    else l

/-- `l_` (lines 604-628) for `n` codes. -/
def rangeLength (n : Nat) (dl : Nat → Int → Int) (i : Nat) : Nat :=
  let d := direction dl i
  let dmin := deltaMin dl i
  let lmax := expandLoop dl i d dmin n 2
  searchLoop dl i d dmin (lmax / 2) 0 (lmax / 2)

/-- `farthest_index` (line 630). -/
def farthest (n : Nat) (dl : Nat → Int → Int) (i : Nat) : Int :=
  i + rangeLength n dl i * direction dl i

/-- `split` (lines 635-650): starts with `t = (l_ + 1) // 2`. -/
def split (n : Nat) (dl : Nat → Int → Int) (i : Nat) : Nat :=
  let t := (rangeLength n dl i + 1) / 2
  searchLoop dl i (direction dl i) (dl i (farthest n dl i)) t 0 t

/-- `gamma` (lines 652-656). -/
def gamma (n : Nat) (dl : Nat → Int → Int) (i : Nat) : Int :=
  i + split n dl i * direction dl i + min (direction dl i) 0

/-- left child of internal node `i` (lines 686-693): a leaf (stored from position `n - 1` on) if the
range starts at `gamma`, else the internal node `gamma`. -/
def leftChild (n : Nat) (dl : Nat → Int → Int) (i : Nat) : Int :=
  if min (i : Int) (farthest n dl i) = gamma n dl i then ((n : Int) - 1) + gamma n dl i
  else gamma n dl i

/-- right child of internal node `i` (lines 695-699). -/
def rightChild (n : Nat) (dl : Nat → Int → Int) (i : Nat) : Int :=
  if max (i : Int) (farthest n dl i) = gamma n dl i + 1 then ((n : Int) - 1) + gamma n dl i + 1
  else gamma n dl i + 1

/-- The arrays `left`, `right` (lines 664-665, 701-702): children of the `n - 1` internal nodes, then `-1`
for the `n` leaves. -/
def leftArray (n : Nat) (dl : Nat → Int → Int) : List Int :=
  (List.range (n - 1)).map (leftChild n dl) ++ List.replicate n (-1)

/-- See `leftArray`.  Source: `blocking.py` 695-702. -/
def rightArray (n : Nat) (dl : Nat → Int → Int) : List Int :=
  (List.range (n - 1)).map (rightChild n dl) ++ List.replicate n (-1)

/-! ## Depth -/

/-- The loop of `compute_lbvh_max_depth` (lines 813-828): `stack` has its top first.  `none` means that the
given number of passes was not enough. -/
def depthLoop (left right : List Int) : Nat → List (Nat × Nat) → Nat → Option (Except PyErr Nat)
  | 0, _, _ => none
  | _ + 1, [], maxDepth => some (.ok maxDepth)
  | fuel + 1, (node, depth) :: rest, maxDepth =>
    match left[node]?, right[node]? with
    | some l, some r =>
      let stack := if 0 ≤ l then (l.toNat, depth + 1) :: rest else rest
      let stack := if 0 ≤ r then (r.toNat, depth + 1) :: stack else stack
      depthLoop left right fuel stack (max maxDepth depth)
    | _, _ => some (.error .indexError)

/-- `compute_lbvh_max_depth` (lines 794-828) run for at most `fuel` passes. -/
def maxDepth (left right : List Int) (fuel : Nat) : Option (Except PyErr Nat) :=
  depthLoop left right fuel [(0, 1)] 1

/-! ## Boxes -/

section
variable {K : Type}

/-- Axis-aligned box: `aabb_min`, `aabb_max`.  Source: `blocking.py` 666-667 and 679-680. -/
structure Box (K : Type) where
  mn : V3 K
  mx : V3 K
  deriving DecidableEq, Repr

variable [Field K] [LinearOrder K]

/-- `torch.minimum` / `torch.maximum` of two boxes (lines 726-731). -/
def Box.union (a b : Box K) : Box K := ⟨V3.map₂ min a.mn b.mn, V3.map₂ max a.mx b.mx⟩

/-- Box of a primitive given by its four corners (lines 568-569). -/
def cornerBox (c : V3 K × V3 K × V3 K × V3 K) : Box K :=
  ⟨V3.map₂ min (V3.map₂ min (V3.map₂ min c.1 c.2.1) c.2.2.1) c.2.2.2,
   V3.map₂ max (V3.map₂ max (V3.map₂ max c.1 c.2.1) c.2.2.1) c.2.2.2⟩

/-- `blocking_primitives_corners.mean(dim=1)` (line 570). -/
def centroid (c : V3 K × V3 K × V3 K × V3 K) : V3 K :=
  ⟨(c.1.e + c.2.1.e + c.2.2.1.e + c.2.2.2.e) / 4,
   (c.1.n + c.2.1.n + c.2.2.1.n + c.2.2.2.n) / 4,
   (c.1.u + c.2.1.u + c.2.2.1.u + c.2.2.2.u) / 4⟩

/-- The zero box every internal node starts with (lines 666-667). -/
def zeroBox : Box K := ⟨⟨0, 0, 0⟩, ⟨0, 0, 0⟩⟩

/-- Is child `c` finished?  Leaves (`c ≥ internal_count`) always are (lines 712-718). -/
def childDone (internalCount : Nat) (done : List Bool) (c : Int) : Bool :=
  if 0 ≤ c ∧ c < internalCount then done.getD c.toNat false else true

/-- `nodes_to_compute` (line 720). -/
def ready (internalCount : Nat) (left right : List Int) (done : List Bool) (i : Nat) : Bool :=
  !(done.getD i false) && childDone internalCount done (left.getD i (-1))
    && childDone internalCount done (right.getD i (-1))

/-- The rounds that fill in the boxes of internal nodes (lines 716-733); the first argument is the number
of rounds still allowed (`internal_count * 2` at the start). -/
def boxRounds (internalCount : Nat) (left right : List Int) :
    Nat → List (Box K) → List Bool → List (Box K) × List Bool
  | 0, boxes, done => (boxes, done)
  | rounds + 1, boxes, done =>
    if done.all id then (boxes, done)
    else if (List.range internalCount).any (ready internalCount left right done) then
      let boxes' := boxes.mapIdx (fun i b =>
        if i < internalCount ∧ ready internalCount left right done i = true then
          Box.union (boxes.getD (left.getD i (-1)).toNat zeroBox)
            (boxes.getD (right.getD i (-1)).toNat zeroBox)
        else b)
      let done' := (List.range internalCount).map (fun i =>
        done.getD i false || ready internalCount left right done i)
      boxRounds internalCount left right rounds boxes' done'
    else (boxes, done)

/-- `aabb_min`, `aabb_max` of all nodes (lines 666-740), given the leaf boxes in sorted order. -/
def nodeBoxes (left right : List Int) (leafBoxes : List (Box K)) : List (Box K) :=
  let internalCount := leafBoxes.length - 1
  (boxRounds internalCount left right (internalCount * 2)
    (List.replicate internalCount zeroBox ++ leafBoxes) (List.replicate internalCount false)).1

/-! ## Ray/box test -/

/-- `ray_aabb_intersect` (lines 752-791) for one ray and box. -/
def rayAabb (origin inv : V3 K) (b : Box K) : K × K :=
  let mn : V3 K := V3.map₂ (· * ·) (b.mn - origin) inv
  let mx : V3 K := V3.map₂ (· * ·) (b.mx - origin) inv
  let lo := V3.map₂ min mn mx
  let hi := V3.map₂ max mn mx
  (max (max lo.e lo.n) lo.u, min (min hi.e hi.n) hi.u)

/-- A ray as the filter sees it: origin, direction, owner and distance to the target.  Source: `blocking.py` 884-890 and 912. -/
structure Ray (K : Type) where
  origin : V3 K
  dir : V3 K
  owner : Nat
  targetDistance : K

/-- `mask_hit` (lines 912, 922-932), with `inverse_directions = 1 / (direction + 1e-12)`. -/
def hits (ray : Ray K) (b : Box K) : Bool :=
  let inv : V3 K := ⟨1 / (ray.dir.e + 1 / 10 ^ 12), 1 / (ray.dir.n + 1 / 10 ^ 12), 1 / (ray.dir.u + 1 / 10 ^ 12)⟩
  let t := rayAabb ray.origin inv b
  decide (t.2 ≥ t.1) && decide (t.2 > 1 / 10 ^ 6) && decide (t.1 ≤ ray.targetDistance)
end

/-! ## Traversal -/

/-- The built hierarchy (lines 742-749). -/
structure Tree (K : Type) where
  left : List Int
  right : List Int
  boxes : List (Box K)
  isLeaf : List Bool
  primitiveIndex : List Int

/-- Traversal of one ray (lines 916-993): `stack` has its top first; `hit` tells whether the ray hits the
box of a node; the result collects the primitives marked for this ray.  The code runs all rays in
lockstep; rays only share the monotone hit flags, so they are modelled one at a time.
`none`: the number of passes was not enough.  A push beyond `capacity` raises `RuntimeError`. -/
def traverse (left right : List Int) (isLeaf : List Bool) (prim : List Int) (hit : Nat → Bool)
    (owner : Nat) (capacity : Nat) : Nat → List Nat → List Nat → Option (Except PyErr (List Nat))
  | 0, _, _ => none
  | _ + 1, [], found => some (.ok found)
  | fuel + 1, node :: rest, found =>
    if hit node then
      if isLeaf.getD node false then
        let p := prim.getD node (-1)
        let found := if (owner : Int) ≠ p then found ++ [p.toNat] else found
        traverse left right isLeaf prim hit owner capacity fuel rest found
      else
        let l := left.getD node (-1)
        let r := right.getD node (-1)
        let hasLeft := decide (0 ≤ l)
        let hasRight := decide (0 ≤ r)
        let indexLeft := rest.length
        let indexRight := rest.length + (if hasLeft then 1 else 0)
        if (hasLeft ∧ capacity ≤ indexLeft) ∨ (hasRight ∧ capacity ≤ indexRight) then
          some (.error .runtimeError)
        else
          let stack := if hasLeft then l.toNat :: rest else rest
          let stack := if hasRight then r.toNat :: stack else stack
          traverse left right isLeaf prim hit owner capacity fuel stack found
    else traverse left right isLeaf prim hit owner capacity fuel rest found

section
variable {K : Type} [Field K] [LinearOrder K]

/-- Traversal of all rays: union of the marked primitives, first error wins, `none` if some ray does not
finish within `fuel` passes.  `hit` is the test of a ray against a box.  Source: `blocking.py` 898-995. -/
def traverseAll (hit : Ray K → Box K → Bool) (tree : Tree K) (capacity fuel : Nat) : List (Ray K) → Option (Except PyErr (List Nat))
  | [] => some (.ok [])
  | ray :: rays =>
    match traverse tree.left tree.right tree.isLeaf tree.primitiveIndex
        (fun node => hit ray (tree.boxes.getD node zeroBox)) ray.owner capacity fuel [0] [] with
    | none => none
    | some (.error e) => some (.error e)
    | some (.ok found) =>
      match traverseAll hit tree capacity fuel rays with
      | none => none
      | some (.error e) => some (.error e)
      | some (.ok more) => some (.ok (found ++ more))

/-- `torch.sort(codes)` (line 573): codes with their original positions, sorted by code.  `torch.sort` leaves the order of equal codes open; here they keep their order. -/
def sortCodes (codes : List (BitVec 32)) : List (BitVec 32 × Nat) :=
  codes.zipIdx.mergeSort (fun a b => decide (a.1.toInt ≤ b.1.toInt))

/-- The hierarchy for sorted codes and the primitives' boxes (lines 574-749). -/
def buildFromCodes (codes : List (BitVec 32)) (boxes : List (Box K)) : Tree K :=
  let sorted := sortCodes codes
  let sortedCodes := sorted.map Prod.fst
  let perm := sorted.map Prod.snd
  let n := codes.length
  let left := leftArray n (lcp sortedCodes)
  let right := rightArray n (lcp sortedCodes)
  { left := left
    right := right
    boxes := nodeBoxes left right (perm.map (fun p => boxes.getD p zeroBox))
    isLeaf := List.replicate (n - 1) false ++ List.replicate n true
    primitiveIndex := List.replicate (n - 1) (-1) ++ perm.map (fun (p : Nat) => (p : Int)) }

/-- The filter once codes and boxes are known (lines 877-995), with at most `fuel` passes per loop.  The
result is the ascending list of marked primitives (`torch.nonzero`).  `hit` is the test of a ray against a box. -/
def filterWith (hit : Ray K → Box K → Bool) (codes : List (BitVec 32)) (boxes : List (Box K)) (rays : List (Ray K)) (fuel : Nat) :
    Option (Except PyErr (List Nat)) :=
  let tree := buildFromCodes codes boxes
  match maxDepth tree.left tree.right fuel with
  | none => none
  | some (.error e) => some (.error e)
  | some (.ok depth) =>
    match traverseAll hit tree depth fuel rays with
    | none => none
    | some (.error e) => some (.error e)
    | some (.ok found) => some (.ok ((List.range codes.length).filter (fun p => decide (p ∈ found))))

/-- The filter with the ray/box test in exact arithmetic (lines 877-995). -/
def filterFromCodes (codes : List (BitVec 32)) (boxes : List (Box K)) (rays : List (Ray K)) (fuel : Nat) :
    Option (Except PyErr (List Nat)) := filterWith hits codes boxes rays fuel

variable [IsStrictOrderedRing K] [FloorRing K]

/-- `lbvh_filter_blocking_planes` (lines 831-995) including `build_linear_bounding_volume_hierarchies`
(lines 513-749).  Without primitives the arrays are empty and the depth computation raises
`IndexError`. -/
def lbvhFilter (corners : List (V3 K × V3 K × V3 K × V3 K)) (rays : List (Ray K)) (fuel : Nat) :
    Option (Except PyErr (List Nat)) :=
  match corners.map centroid with
  | [] => if fuel = 0 then none else some (.error .indexError)
  | c :: cs =>
    match mortonCodes (1 / 10 ^ 6) c cs with
    | .error e => some (.error e)
    | .ok codes => filterFromCodes codes (corners.map cornerBox) rays fuel
end

end Artist.LBVH
