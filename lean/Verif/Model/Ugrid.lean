/-
UGRID files: /repo/src/meshio/ugrid/_ugrid.py.

The same code writes text, C binary and Fortran binary files; what differs is a *medium*: how numbers are put into the file
and taken from it.  Arrays in memory are int64 and float64.
-/
import Verif.Base.File
import Verif.Base.Lines
import Verif.Base.ByteIO
import Verif.Base.Dict
import Verif.Model.Types

namespace Meshio
namespace Ugrid
open Types Tables

/-- `file_types`, /repo/src/meshio/ugrid/_ugrid.py:26-38: kind, big-endian, bytes of a float, bytes of an integer.
(In text files numbers are read as `f` and `i`: four bytes.) -/
inductive Kind where
  | ascii
  | c
  | fortran
deriving DecidableEq, Repr

structure FileType where
  kind : Kind
  big : Bool
  fsize : Nat
  isize : Nat
deriving DecidableEq, Repr

def fileTypes : List (String × FileType) :=
  [("ascii", ⟨.ascii, false, 4, 4⟩),
   ("b8l", ⟨.c, true, 8, 8⟩), ("b8", ⟨.c, true, 8, 4⟩), ("b4", ⟨.c, true, 4, 4⟩),
   ("lb8l", ⟨.c, false, 8, 8⟩), ("lb8", ⟨.c, false, 8, 4⟩), ("lb4", ⟨.c, false, 4, 4⟩),
   ("r8", ⟨.fortran, true, 8, 4⟩), ("r4", ⟨.fortran, true, 4, 4⟩),
   ("lr8", ⟨.fortran, false, 8, 4⟩), ("lr4", ⟨.fortran, false, 4, 4⟩)]

/-- `determine_file_type`, /repo/src/meshio/ugrid/_ugrid.py:41-48. -/
def fileType (filename : List Char) : FileType :=
  let parts := splitOnC '.' filename
  let dflt : FileType := ⟨.ascii, false, 4, 4⟩
  if 1 < parts.length then
    match parts[parts.length - 2]? with
    | some s => (find fileTypes (String.ofList s)).getD dflt
    | none => dflt
  else dflt

/-- How arrays are stored, `_read_section` and `_write_section`, /repo/src/meshio/ugrid/_ugrid.py:58-61,159-165; `α` is a
character or a byte. -/
structure Medium (α F : Type) where
  putInts : List (List Int) → List α
  putFlts : List (List F) → List α
  getInts : Nat → List α → List Int × List α
  getFlts : Nat → List α → List F × List α

/-- Floats in files: text of full precision, `single` is the rounding to four bytes; `parse` reads a number as a
four-byte float. -/
structure FileFloat (F : Type) where
  single : F → F
  fmt : F → List Char
  tok : ∀ x, IsTok (fmt x)
  parse : List Char → Option F
  parse_fmt : ∀ x, parse (fmt x) = some (single x)
  enc : Bool → Nat → F → List Byte
  dec : Bool → Nat → List Byte → F
  len : ∀ big k x, (enc big k x).length = k
  dec_enc8 : ∀ big x, dec big 8 (enc big 8 x) = x
  dec_enc4 : ∀ big x, dec big 4 (enc big 4 x) = single x

/-- Text: `np.savetxt(f, array, fmt="%r %r ...")` and `np.fromfile(f, count, dtype, sep=" ")`. -/
def textMedium {F : Type} (io : FileFloat F) : Medium Char F where
  putInts rows := linesText (rows.map fun r => joinWith ' ' (r.map fmtInt))
  putFlts rows := linesText (rows.map fun r => joinWith ' ' (r.map io.fmt))
  getInts n s := scan parseInt n s
  getFlts n s := scan io.parse n s

/-- Bytes: `array.astype(dtype).tofile(f)` and `np.fromfile(f, count, dtype)`, which returns fewer items at the end of the
file. -/
def byteMedium {F : Type} (io : FileFloat F) (t : FileType) : Medium Byte F where
  putInts rows := rows.flatten.flatMap (intEnc t.big t.isize)
  putFlts rows := rows.flatten.flatMap (io.enc t.big t.fsize)
  getInts n s := ((items t.isize (min n (s.length / t.isize)) s).map (intDec t.big), s.drop (t.isize * n))
  getFlts n s := ((items t.fsize (min n (s.length / t.fsize)) s).map (io.dec t.big t.fsize), s.drop (t.fsize * n))

variable {α F : Type}

/-- One block and its tags. -/
structure Blk where
  type : String
  rows : List (List Int)
  ref : List Int
deriving DecidableEq, Repr

/-- Blocks of node numbers, /repo/src/meshio/ugrid/_ugrid.py:98-108,120-137 (`out - 1`, and the order of the pyramid). -/
def readBlocks (m : Medium α F) : List (String × Nat × Nat) → List α → Res (List (String × List (List Int)) × List α)
  | [], s => .ok ([], s)
  | (t, n, w) :: l, s =>
    if n = 0 then readBlocks m l s
    else
      match reshape n w (m.getInts (n * w) s).1 with
      | .error e => .error e
      | .ok rows =>
        match mapRes (ugridRead t) rows with
        | .error e => .error e
        | .ok rows =>
          match readBlocks m l (m.getInts (n * w) s).2 with
          | .error e => .error e
          | .ok (bs, s') => .ok ((t, rows.map fun r => r.map (· - 1)) :: bs, s')

/-- The tags, /repo/src/meshio/ugrid/_ugrid.py:110-116. -/
def readTags (m : Medium α F) : List Nat → List α → List (List Int) × List α
  | [], s => ([], s)
  | n :: l, s =>
    if n = 0 then readTags m l s
    else ((m.getInts n s).1 :: (readTags m l (m.getInts n s).2).1, (readTags m l (m.getInts n s).2).2)

/-- Pass over a record marker of a Fortran file. -/
def skipMark (m : Medium α F) (fortran : Bool) (s : List α) : List α := if fortran then (m.getInts 1 s).2 else s

/-- `read_buffer`, /repo/src/meshio/ugrid/_ugrid.py:64-156; the check at the end is that of the `Mesh` constructor.
Negative counts are left out. -/
def read (m : Medium α F) (fortran : Bool) (s : List α) : Res (List (List F) × List Blk) :=
  match m.getInts 7 (skipMark m fortran s) with
  | ([n0, n1, n2, n3, n4, n5, n6], s) =>
    if n0 < 0 ∨ n1 < 0 ∨ n2 < 0 ∨ n3 < 0 ∨ n4 < 0 ∨ n5 < 0 ∨ n6 < 0 then .error .unmodelled
    else
      let s := skipMark m fortran (skipMark m fortran s)
      match reshape n0.toNat 3 (m.getFlts (n0.toNat * 3) s).1 with
      | .error e => .error e
      | .ok points =>
        match readBlocks m [("triangle", n1.toNat, 3), ("quad", n2.toNat, 4)] (m.getFlts (n0.toNat * 3) s).2 with
        | .error e => .error e
        | .ok (surf, s) =>
          let t := readTags m [n1.toNat, n2.toNat] s
          match readBlocks m [("tetra", n3.toNat, 4), ("pyramid", n4.toNat, 5), ("wedge", n5.toNat, 6), ("hexahedron", n6.toNat, 8)] t.2 with
          | .error e => .error e
          | .ok (vol, _) =>
            if (surf.map fun b => b.2.length) ≠ t.1.map (·.length) then .error .valueError
            else .ok (points, (surf.zip t.1).map (fun bt => ⟨bt.1.1, bt.1.2, bt.2⟩) ++
              vol.map fun b => ⟨b.1, b.2, List.replicate b.2.length 0⟩)
  | _ => .error .readError

/-! ## Writing -/

/-- The types of the format in its order. -/
def surfTypes : List String := ["triangle", "quad"]
def volTypes : List String := ["tetra", "pyramid", "wedge", "hexahedron"]

/-- The loop over the blocks, /repo/src/meshio/ugrid/_ugrid.py:200-213: type and block found so far. -/
def register (d : List (String × List (List Int))) (b : String × List (List Int)) : Res (List (String × List (List Int))) :=
  if b.1 ∈ surfTypes ++ volTypes then
    if ((d.lookup b.1).getD []).length > 0 then .error .valueError
    else .ok ((b.1, b.2) :: d)
  else .ok d

/-- Connectivity as it is stored, /repo/src/meshio/ugrid/_ugrid.py:243-244,270-273. -/
def stored (t : String) (rows : List (List Int)) : Res (List (List Int)) := mapRes (fun r => ugridWrite t (r.map (· + 1))) rows

/-- Rows of the last block of a type. -/
def rowsOf (d : List (String × List (List Int))) (t : String) : List (List Int) := (d.lookup t).getD []

/-- Bytes of an int64 array of rows. -/
def nbytes (rows : List (List Int)) : Nat := 8 * rows.flatten.length

/-- `_write_buffer`, /repo/src/meshio/ugrid/_ugrid.py:175-278.  `intData` says that there is an integer cell data array:
then `labels` is a list, which has no `reshape`. -/
def write (m : Medium α F) (fortran : Bool) (isize : Nat) (intData : Bool) (points : List (List F))
    (cells : List (String × List (List Int))) : Res (List α) :=
  match foldRes register [] cells with
  | .error e => .error e
  | .ok d =>
    let counts : List Int := (points.length : Int) :: (surfTypes ++ volTypes).map fun t => ((rowsOf d t).length : Int)
    let mark (n : Nat) : List α := if fortran then m.putInts [[(n : Int)]] else []
    let head := mark (7 * 8) ++ m.putInts [counts] ++ mark (7 * 8)
    let size := 8 * points.flatten.length + (cells.map fun b => nbytes b.2).sum +
      (surfTypes.map fun t => (rowsOf d t).length * isize).sum
    match mapRes (fun t => stored t (rowsOf d t)) surfTypes with
    | .error e => .error e
    | .ok surf =>
      if intData && surfTypes.any (fun t => decide ((rowsOf d t).length ≠ 0)) then .error .attributeError
      else
        match mapRes (fun t => stored t (rowsOf d t)) volTypes with
        | .error e => .error e
        | .ok vol =>
          .ok (head ++ mark size ++ m.putFlts points ++ surf.flatMap m.putInts ++
            surfTypes.flatMap (fun t => m.putInts (List.replicate (rowsOf d t).length [1])) ++
            vol.flatMap m.putInts ++ mark size)

end Ugrid
end Meshio
