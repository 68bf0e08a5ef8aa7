/-
What PERMAS files say, and what is written.
-/
import Verif.Model.Permas
namespace Meshio.Spec
open Meshio Permas

variable {F : Type}

/-- The names of the element types: type of cells and number of nodes. -/
def permasNames : List (String × String × Nat) :=
  [("PLOT1", "vertex", 1), ("PLOTL2", "line", 2), ("FLA2", "line", 2), ("BECOS", "line", 2), ("BECOC", "line", 2),
   ("BETAC", "line", 2), ("BECOP", "line", 2), ("BETOP", "line", 2), ("BEAM2", "line", 2), ("FSCPIPE2", "line", 2),
   ("FLA3", "line3", 3), ("PLOTL3", "line3", 3), ("PLOTA3", "triangle", 3), ("SHELL3", "triangle", 3), ("TRIA3", "triangle", 3),
   ("TRIA3K", "triangle", 3), ("TRIA3S", "triangle", 3), ("TRIMS3", "triangle", 3), ("LOADA6", "triangle6", 6),
   ("TRIMS6", "triangle6", 6), ("LOADA4", "quad", 4), ("PLOTA4", "quad", 4), ("QUAD4", "quad", 4), ("QUAD4S", "quad", 4),
   ("QUAMS4", "quad", 4), ("SHELL4", "quad", 4), ("PLOTA8", "quad8", 8), ("LOADA8", "quad8", 8), ("QUAMS8", "quad8", 8),
   ("PLOTA9", "quad9", 9), ("LOADA9", "quad9", 9), ("QUAMS9", "quad9", 9), ("TET4", "tetra", 4), ("TET10", "tetra10", 10),
   ("PYRA5", "pyramid", 5), ("PENTA6", "wedge", 6), ("HEXE8", "hexahedron", 8), ("HEXFO8", "hexahedron", 8),
   ("HEXE20", "hexahedron20", 20), ("HEXE27", "hexahedron27", 27)]

/-- A line with these words, one blank between them. -/
def IsWords (line : List Char) (words : List (List Char)) : Prop := strip line = joinWith ' ' words ∧ '\n' ∉ line

/-- A line that starts no section the reader knows: after the dollar signs there is, in either case of letters, none of the four
names. -/
def IsOther (line : List Char) : Prop :=
  '\n' ∉ line ∧ line.head? = some '$' ∧
    ∀ w ∈ ["COOR", "ELEMENT", "NSET", "ESET"], ¬ w.toList <+: (line.dropWhile (· == '$')).map Char.toUpper

/-- A part of a file after the nodes. -/
inductive PermasPart where
  /-- a comment -/
  | comment (line : List Char)
  /-- a line of another section -/
  | other (line : List Char)
  /-- cells of the type `name`, further options in the line of the section, numbered rows, and empty comments -/
  | cells (name : String) (type : String) (options : List Char) (rows : List (List Char × Int × List Int)) (marks : Nat)

def PermasPart.lines : PermasPart → List (List Char)
  | .comment l => [l]
  | .other l => [l]
  | .cells name _ o rows k => ("$ELEMENT TYPE=".toList ++ name.toList ++ o) :: rows.map (·.1) ++ List.replicate k ['!']

/-- Well-formed parts; all nodes of cells have numbers among `numbers`. -/
def PermasPart.Ok (numbers : List Int) : PermasPart → Prop
  | .comment l => l.head? = some '!' ∧ '\n' ∉ l
  | .other l => IsOther l
  | .cells name type o rows _ => (o = [] ∨ o.head? = some ' ') ∧ '\n' ∉ o ∧ ∃ n, (name, type, n) ∈ permasNames ∧
      ∀ r ∈ rows, IsWords r.1 (fmtInt r.2.1 :: r.2.2.map fmtInt) ∧ r.2.2.length = n ∧ ∀ k ∈ r.2.2, k ∈ numbers

/-- No comment right after cells. -/
def permasParts : List PermasPart → Prop
  | .cells .. :: .comment _ :: _ => False
  | _ :: ps => permasParts ps
  | [] => True

/-- The file: comments and other lines, the numbered nodes, then the other parts. -/
structure PermasFile (F : Type) where
  before : List (List Char)
  nodes : List (List Char × Int × List F)
  parts : List PermasPart

def PermasFile.lines (f : PermasFile F) : List (List Char) :=
  f.before ++ ["$COOR".toList] ++ f.nodes.map (·.1) ++ f.parts.flatMap (·.lines)

/-- Nodes have distinct numbers, in any order, and the same number of coordinates. -/
structure PermasFile.Ok (fmt : F → List Char) (f : PermasFile F) : Prop where
  before : ∀ l ∈ f.before, IsOther l ∨ (l.head? = some '!' ∧ '\n' ∉ l)
  nodes : ∀ r ∈ f.nodes, IsWords r.1 (fmtInt r.2.1 :: r.2.2.map fmt)
  dim : ∃ d, ∀ r ∈ f.nodes, r.2.2.length = d
  distinct : (f.nodes.map (·.2.1)).Nodup
  parts : f.parts ≠ [] ∧ permasParts f.parts ∧ ∀ p ∈ f.parts, p.Ok (f.nodes.map (·.2.1))

/-- The cells of a part: the number `k` stands for the node that carries it. -/
def PermasPart.block (numbers : List Int) : PermasPart → Option (String × List (List Int))
  | .cells _ t _ rows _ => some (t, rows.map fun r => r.2.2.map fun k => ((numbers.idxOf k : Nat) : Int))
  | _ => none

/-- The cells of a file. -/
def PermasFile.cells (f : PermasFile F) : List (String × List (List Int)) := f.parts.filterMap (·.block (f.nodes.map (·.2.1)))

/-! ## Writing -/

/-- The name written for a type. -/
def permasWritten : List (String × String × Nat) :=
  [("vertex", "PLOT1", 1), ("line", "FSCPIPE2", 2), ("line3", "PLOTL3", 3), ("triangle", "TRIMS3", 3), ("triangle6", "TRIMS6", 6),
   ("quad", "SHELL4", 4), ("quad8", "QUAMS8", 8), ("quad9", "QUAMS9", 9), ("tetra", "TET4", 4), ("tetra10", "TET10", 10),
   ("pyramid", "PYRA5", 5), ("wedge", "PENTA6", 6), ("hexahedron", "HEXFO8", 8), ("hexahedron20", "HEXE20", 20),
   ("hexahedron27", "HEXE27", 27)]

/-- The name of a type. -/
def permasName (t : String) : String := ((permasWritten.find? fun a => a.1 == t).map (·.2.1)).getD ""

/-- The order in which the nodes of a cell are written: along the edges for three types. -/
def permasOrder (t : String) (r : List Int) : List Int :=
  match t, r with
  | "triangle6", [a, b, c, ab, bc, ca] => [a, ab, b, bc, c, ca]
  | "tetra10", [a, b, c, d, ab, bc, ca, ad, bd, cd] => [a, ab, b, bc, c, ca, ad, bd, cd, d]
  | "quad9", [a, b, c, d, ab, bc, cd, da, m] => [a, ab, b, da, m, bc, d, cd, c]
  | _, r => r

/-- Points in the plane or in space, blocks of known types with rows of the right size that refer to points. -/
structure PermasIn (m : In F) : Prop where
  points : (m.dim = 2 ∨ m.dim = 3) ∧ ∀ p ∈ m.points, p.length = m.dim
  cells : ∀ b ∈ m.cells, ∃ name n, (b.1, name, n) ∈ permasWritten ∧
    ∀ r ∈ b.2, r.length = n ∧ ∀ i ∈ r, 0 ≤ i ∧ i < m.points.length

/-- Points in space. -/
def permasSpace (zero : F) (m : In F) : List (List F) := m.points.map fun p => if p.length = 2 then p ++ [zero] else p

/-- The number of the first cell of a block. -/
def permasStart (m : In F) (k : Nat) : Int := 1 + (((m.cells.take k).map fun b => b.2.length).sum : Nat)

/-- The lines written for a mesh. -/
def permasLines (io : FloatIO F) (zero : F) (version : List Char) (m : In F) : List (List Char) :=
  ["!PERMAS DataFile Version 18.0".toList, "!written by meshio v".toList ++ version, "$ENTER COMPONENT NAME=DFLT_COMP".toList,
    "$STRUCTURE".toList, "$COOR".toList] ++
  ((permasSpace zero m).zipIdx.map fun pi => joinWith ' ' (fmtInt (1 + (pi.2 : Int)) :: pi.1.map io.fmt)) ++
  (m.cells.zipIdx.flatMap fun bk =>
    [['!'], "$ELEMENT TYPE=".toList ++ (permasName bk.1.1).toList] ++
      bk.1.2.zipIdx.map fun ri => joinWith ' ' (fmtInt (permasStart m bk.2 + ri.2) ::
        (permasOrder bk.1.1 ri.1).map fun z => fmtInt (z + 1))) ++
  ["$END STRUCTURE".toList, "$EXIT COMPONENT".toList, "$FIN".toList]

end Meshio.Spec
