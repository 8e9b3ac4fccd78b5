import Mathlib.Algebra.Order.Field.Basic
import Mathlib.Tactic.Ring
/-!
# Three-component vectors over a field

Stands for the last tensor dimension `(e, n, u)` (`artist/util/indices.py`: e = 0, n = 1, u = 2) of
3D points and directions.
-/
namespace Artist

/-- A vector `(e, n, u)`.  Source: `indices.py` 165-169. -/
@[ext] structure V3 (K : Type) where
  e : K
  n : K
  u : K
  deriving DecidableEq, Repr

namespace V3
variable {K : Type}

/-- component-wise map.  Component-wise tensor arithmetic, for example `raytracing/geometry.py` 34-42. -/
def map₂ (f : K → K → K) (a b : V3 K) : V3 K := ⟨f a.e b.e, f a.n b.n, f a.u b.u⟩

instance [Add K] : Add (V3 K) := ⟨fun a b => ⟨a.e + b.e, a.n + b.n, a.u + b.u⟩⟩
instance [Sub K] : Sub (V3 K) := ⟨fun a b => ⟨a.e - b.e, a.n - b.n, a.u - b.u⟩⟩
instance [Neg K] : Neg (V3 K) := ⟨fun a => ⟨-a.e, -a.n, -a.u⟩⟩
instance [Zero K] : Zero (V3 K) := ⟨⟨0, 0, 0⟩⟩
instance [Mul K] : SMul K (V3 K) := ⟨fun c a => ⟨c * a.e, c * a.n, c * a.u⟩⟩

@[simp] theorem add_e [Add K] (a b : V3 K) : (a + b).e = a.e + b.e := rfl
@[simp] theorem add_n [Add K] (a b : V3 K) : (a + b).n = a.n + b.n := rfl
@[simp] theorem add_u [Add K] (a b : V3 K) : (a + b).u = a.u + b.u := rfl
@[simp] theorem sub_e [Sub K] (a b : V3 K) : (a - b).e = a.e - b.e := rfl
@[simp] theorem sub_n [Sub K] (a b : V3 K) : (a - b).n = a.n - b.n := rfl
@[simp] theorem sub_u [Sub K] (a b : V3 K) : (a - b).u = a.u - b.u := rfl
@[simp] theorem neg_e [Neg K] (a : V3 K) : (-a).e = -a.e := rfl
@[simp] theorem neg_n [Neg K] (a : V3 K) : (-a).n = -a.n := rfl
@[simp] theorem neg_u [Neg K] (a : V3 K) : (-a).u = -a.u := rfl
@[simp] theorem zero_e [Zero K] : (0 : V3 K).e = 0 := rfl
@[simp] theorem zero_n [Zero K] : (0 : V3 K).n = 0 := rfl
@[simp] theorem zero_u [Zero K] : (0 : V3 K).u = 0 := rfl
@[simp] theorem smul_e [Mul K] (c : K) (a : V3 K) : (c • a).e = c * a.e := rfl
@[simp] theorem smul_n [Mul K] (c : K) (a : V3 K) : (c • a).n = c * a.n := rfl
@[simp] theorem smul_u [Mul K] (c : K) (a : V3 K) : (c • a).u = c * a.u := rfl

/-- dot product.  As used in `raytracing/geometry.py` 35-40. -/
def dot [Add K] [Mul K] (a b : V3 K) : K := a.e * b.e + a.n * b.n + a.u * b.u

/-- `torch.cross`.  As used in `blocking.py` 113, `nurbs/surfaces.py` 615, `raytracing/geometry.py` 299. -/
def cross [Sub K] [Mul K] (a b : V3 K) : V3 K :=
  ⟨a.n * b.u - a.u * b.n, a.u * b.e - a.e * b.u, a.e * b.n - a.n * b.e⟩

/-- squared Euclidean norm.  As used in `blocking.py` 318-319 and `nurbs/surfaces.py` 659. -/
def normSq [Add K] [Mul K] (a : V3 K) : K := dot a a

end V3
end Artist
