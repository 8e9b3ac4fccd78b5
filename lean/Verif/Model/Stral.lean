import Verif.Model.Py
/-!
# Model of the STRAL reader

`artist/io/stral_scenario_parser.py` 46-132 with the indices of `artist/util/indices.py` 63-96.

A file is a list of bytes.  Numbers are 32-bit patterns in little-endian order (the format strings start with `=`: native order, standard
size, no padding; every machine `torch` is distributed for is little-endian).  A `float` of the file becomes a `float32` entry with the
same bits, so patterns are kept as they are.  `torch.empty` leaves rows undefined until they are assigned: `none`.
-/
namespace Artist.Stral
open Artist

/-- One byte of the file (`stral_scenario_parser.py` 53-56). -/
abbrev Byte := BitVec 8
/-- A four-byte number of the structures in `stral_scenario_parser.py` 49-51, as its bit pattern. -/
abbrev Word := BitVec 32

/-- The reader fails with `struct.error` only.  Raised by the calls in `stral_scenario_parser.py` 54, 70 and 100. -/
inductive Failure
  | structError
  deriving DecidableEq, Repr

/-- Four bytes as one little-endian number.  As used in `stral_scenario_parser.py` 49-51. -/
def word (a b c d : Byte) : Word := (d ++ c ++ b ++ a : BitVec 32)

/-- Consecutive numbers of a buffer (all fields of the three structures, lines 49-51, have four bytes). -/
def words : List Byte → List Word
  | a :: b :: c :: d :: rest => word a b c d :: words rest
  | _ => []

/-- `struct.unpack_from(buffer)` for a structure of `n` numbers: the buffer must be long enough.  As used in `stral_scenario_parser.py` 54-56 and 70-72. -/
def unpackFrom (n : Nat) (buffer : List Byte) : Except Failure (List Word) :=
  if buffer.length < 4 * n then .error .structError else .ok (words (buffer.take (4 * n)))

/-- Groups of seven numbers.  Source: `iter_unpack` in `stral_scenario_parser.py` 100-102. -/
def groups : List Word → List (List Word)
  | a :: b :: c :: d :: e :: f :: g :: rest => [a, b, c, d, e, f, g] :: groups rest
  | _ => []

/-- `points_on_facet_struct.iter_unpack(buffer)`: the length must be a multiple of the size, `=7f` has 28 bytes. -/
def iterUnpack (buffer : List Byte) : Except Failure (List (List Word)) :=
  if buffer.length % 28 ≠ 0 then .error .structError else .ok (groups (words buffer))

/-- `tuple[start:end]`.  As used in `stral_scenario_parser.py` 59-61, 74-91, 104-115. -/
def slice (l : List Word) (start stop : Nat) : List Word := (l.take stop).drop start

/-- What is returned for one facet.  Source: `stral_scenario_parser.py` 69-117. -/
structure Facet where
  translation : List Word
  canting : List (List Word)
  points : List (Option (List Word))
  normals : List (Option (List Word))
  deriving DecidableEq, Repr

/-- One iteration of the loop over facets (lines 70-112): header `=i9fI` of 44 bytes, then the points; also the rest of the file.
`convert_3d_directions_to_4d_format` (lines 115-118) appends 0. -/
def readFacet (file : List Byte) : Except Failure (Facet × List Byte) :=
  match unpackFrom 11 (file.take 44) with
  | .error e => .error e
  | .ok header =>
    let file := file.drop 44
    let numberOfPoints := (header.getD 10 0).toNat
    match iterUnpack (file.take (28 * numberOfPoints)) with
    | .error e => .error e
    | .ok pointsData =>
      .ok ({ translation := slice header 1 4 ++ [0]
             canting := [slice header 4 7 ++ [0], slice header 7 10 ++ [0]]
             points := (List.range numberOfPoints).map (fun i => pointsData[i]?.map (fun d => slice d 0 3))
             normals := (List.range numberOfPoints).map (fun i => pointsData[i]?.map (fun d => slice d 3 6)) },
        file.drop (28 * numberOfPoints))

/-- The loop over facets (line 70). -/
def readFacets : Nat → List Byte → Except Failure (List Facet)
  | 0, _ => .ok []
  | n + 1, file =>
    match readFacet file with
    | .error e => .error e
    | .ok (facet, rest) =>
      match readFacets n rest with
      | .error e => .error e
      | .ok facets => .ok (facet :: facets)

/-- `extract_stral_deflectometry_data` (lines 46-132): the header `=5f2I2f` of 36 bytes gives the number of facets (lines 58-62). -/
def extract (file : List Byte) : Except Failure (List Facet) :=
  match unpackFrom 9 (file.take 36) with
  | .error e => .error e
  | .ok header =>
    let nxy := slice header 5 7
    readFacets ((nxy.getD 0 0).toNat * (nxy.getD 1 0).toNat) (file.drop 36)

end Artist.Stral
