/-
What an SU2 file means, apart from the code that reads it.
-/
import Verif.Model.Su2
namespace Meshio.Spec
open Su2

variable {F : Type}

/-- Element codes of the format with the name of the type and the number of its nodes. -/
def su2Type : Int → Option (String × Nat)
  | 3 => some ("line", 2)
  | 5 => some ("triangle", 3)
  | 9 => some ("quad", 4)
  | 10 => some ("tetra", 4)
  | 12 => some ("hexahedron", 8)
  | 13 => some ("wedge", 6)
  | 14 => some ("pyramid", 5)
  | _ => none

/-- All codes, ascending. -/
def su2Codes : List Int := [3, 5, 9, 10, 12, 13, 14]

/-- One element line: code, nodes, and possibly an element number after them. -/
structure Su2Cell where
  code : Int
  nodes : List Int
  extra : List Int
deriving DecidableEq, Repr

/-- Cells of a section: all lines with (`e = 1`) or all lines without (`e = 0`) a number at the end. -/
def Su2Cell.Ok (e : Nat) (c : Su2Cell) : Prop := ∃ t, su2Type c.code = some (t, c.nodes.length) ∧ c.extra.length = e

/-- The numbers of a line. -/
def Su2Cell.numbers (c : Su2Cell) : List Int := c.code :: (c.nodes ++ c.extra)

/-- The blocks of one section: for each code in it one block with all cells of that code, in their order. -/
def su2Groups (tag : Int) (cs : List Su2Cell) : List Blk :=
  (su2Codes.filter fun x => decide (x ∈ cs.map (·.code))).map fun x =>
    ⟨((su2Type x).map (·.1)).getD "", (cs.filter fun c => decide (c.code = x)).map (·.nodes),
      List.replicate (cs.filter fun c => decide (c.code = x)).length tag⟩

/-- Elements of a boundary marker. -/
structure Su2Marker where
  name : List Char
  cells : List Su2Cell
deriving DecidableEq, Repr

/-- The tag of a marker: its number; a name that is no number counts on from the tag before. -/
def su2Tag (prev : Int) (m : Su2Marker) : Int := (parseInt m.name).getD (prev + 1)

/-- The blocks of the markers. -/
def su2Markers : Int → List Su2Marker → List Blk
  | _, [] => []
  | prev, m :: ms => su2Groups (su2Tag prev m) m.cells ++ su2Markers (su2Tag prev m) ms

/-- The lines of elements. -/
def su2ElemLines (cs : List Su2Cell) : List (List Char) := cs.map fun c => joinWith ' ' (c.numbers.map fmtInt)

/-- The lines of a marker. -/
def su2MarkerLines (m : Su2Marker) : List (List Char) :=
  ["MARKER_TAG= ".toList ++ m.name, "MARKER_ELEMS= ".toList ++ fmtNat m.cells.length] ++ su2ElemLines m.cells

/-- The lines of a file. -/
def su2Lines (fio : FloatIO F) (dim : Nat) (pts : List (List F)) (inner : List Su2Cell) (markers : List Su2Marker) :
    List (List Char) :=
  ["NDIME= ".toList ++ fmtNat dim, "NPOIN= ".toList ++ fmtNat pts.length] ++
    (pts.map fun p => joinWith ' ' (p.map fio.fmt)) ++
    ["NELEM= ".toList ++ fmtNat inner.length] ++ su2ElemLines inner ++
    ["NMARK= ".toList ++ fmtNat markers.length] ++ markers.flatMap su2MarkerLines

end Meshio.Spec
