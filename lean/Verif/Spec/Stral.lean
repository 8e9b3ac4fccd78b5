/-!
# The STRAL file format

Written from the point of view of a program that writes such files: a header with five floats, the numbers of facets in both directions
and two more floats; then per facet a header with an identifier, position, two canting vectors and the number of points; then per
point its position, its normal and one more float.
-/
namespace Artist.StralFormat

/-- The bit pattern of a float, or an integer. -/
abbrev Number := BitVec 32

structure Vector where
  x : Number
  y : Number
  z : Number
  deriving DecidableEq, Repr

structure Point where
  position : Vector
  normal : Vector
  extra : Number
  deriving DecidableEq, Repr

structure Facet where
  identifier : Number
  position : Vector
  cantingE : Vector
  cantingN : Vector
  points : List Point
  deriving DecidableEq, Repr

structure Surface where
  header : Number × Number × Number × Number × Number
  facetsX : Number
  facetsY : Number
  more : Number × Number
  facets : List Facet
  deriving DecidableEq, Repr

/-- Least significant byte first. -/
def number (w : Number) : List (BitVec 8) :=
  [w.extractLsb' 0 8, w.extractLsb' 8 8, w.extractLsb' 16 8, w.extractLsb' 24 8]

def vector (v : Vector) : List (BitVec 8) := number v.x ++ number v.y ++ number v.z

def point (p : Point) : List (BitVec 8) := vector p.position ++ vector p.normal ++ number p.extra

def facet (f : Facet) : List (BitVec 8) :=
  number f.identifier ++ vector f.position ++ vector f.cantingE ++ vector f.cantingN ++ number (BitVec.ofNat 32 f.points.length) ++
    f.points.flatMap point

def head (s : Surface) : List (BitVec 8) :=
  number s.header.1 ++ number s.header.2.1 ++ number s.header.2.2.1 ++ number s.header.2.2.2.1 ++ number s.header.2.2.2.2 ++
    number s.facetsX ++ number s.facetsY ++ number s.more.1 ++ number s.more.2

/-- The file. -/
def file (s : Surface) : List (BitVec 8) := head s ++ s.facets.flatMap facet

/-- A surface that can be written: the number of facets is the product of the two numbers in the header, and all numbers of points fit. -/
def Writable (s : Surface) : Prop :=
  s.facets.length = s.facetsX.toNat * s.facetsY.toNat ∧ ∀ f ∈ s.facets, f.points.length < 2 ^ 32

end Artist.StralFormat
