/-
What an MDPA file says: sections of nodes (number, coordinates) and sections of entities (number, property, numbers of nodes), the
kind of which is given by a name; everything else is skipped.
-/
import Verif.Model.Mdpa
import Verif.Spec.Runs
namespace Meshio.Spec
open Mdpa

variable {F : Type}

/-- Names of entities: meshio's type, number of nodes. -/
def mdpaNames : List (String × String × Nat) :=
  [("Point2D", "vertex", 1), ("Point3D", "vertex", 1), ("Line2D2", "line", 2), ("Line3D2", "line", 2), ("Line2D3", "line3", 3),
   ("Line3D3", "line3", 3), ("Triangle2D3", "triangle", 3), ("Triangle3D3", "triangle", 3), ("Triangle2D6", "triangle6", 6),
   ("Triangle3D6", "triangle6", 6), ("Quadrilateral2D4", "quad", 4), ("Quadrilateral3D4", "quad", 4),
   ("Quadrilateral2D8", "quad8", 8), ("Quadrilateral3D8", "quad8", 8), ("Quadrilateral2D9", "quad9", 9),
   ("Quadrilateral3D9", "quad9", 9), ("Tetrahedra3D4", "tetra", 4), ("Tetrahedra3D10", "tetra10", 10), ("Prism3D6", "wedge", 6),
   ("Hexahedra3D8", "hexahedron", 8), ("Hexahedra3D20", "hexahedron20", 20), ("Hexahedra3D27", "hexahedron27", 27)]

/-- A name which contains one of these names, and no name of another type. -/
def MdpaNamed (name : List Char) (t : String) (n : Nat) : Prop :=
  (∃ k ∈ mdpaNames, k.2 = (t, n) ∧ k.1.toList <:+: name) ∧ ∀ k ∈ mdpaNames, k.1.toList <:+: name → k.2 = (t, n)

/-- A line of words, however they are separated. -/
def IsRow (line : List Char) (words : List (List Char)) : Prop := splitWs line = words ∧ '\n' ∉ line

/-- Sections of a file.  Lines are given with what they say. -/
inductive MdpaPart (F : Type) where
  /-- any other line -/
  | other (line : List Char)
  /-- nodes: line, number, coordinates -/
  | nodes (rows : List (List Char × Int × List F))
  /-- elements or conditions: name, type, entities (line, number, property, numbers of nodes) -/
  | cells (conditions : Bool) (name : List Char) (type : String) (rows : List (List Char × Int × Int × List Int))

/-- `Elements` or `Conditions` -/
def mdpaKind (conditions : Bool) : List Char := if conditions then "Conditions".toList else "Elements".toList

/-- The lines of a section. -/
def MdpaPart.lines : MdpaPart F → List (List Char)
  | .other l => [l]
  | .nodes rows => ["Begin Nodes".toList] ++ rows.map (·.1) ++ ["End Nodes".toList]
  | .cells c name _ rows =>
    ["Begin ".toList ++ mdpaKind c ++ ' ' :: name] ++ rows.map (·.1) ++ ["End ".toList ++ mdpaKind c]

/-- The lines say what they are said to say. -/
def MdpaPart.Ok (fmt : F → List Char) : MdpaPart F → Prop
  | .other l => '\n' ∉ l ∧ ∀ w ∈ ["Begin Nodes", "Begin Elements", "Begin Conditions"], ¬ w.toList <+: strip l
  | .nodes rows => ∀ r ∈ rows, IsRow r.1 (fmtInt r.2.1 :: r.2.2.map fmt) ∧ r.2.2.length = 3
  | .cells _ name t rows => strip name = name ∧ '\n' ∉ name ∧ ∃ n, MdpaNamed name t n ∧
      ∀ r ∈ rows, IsRow r.1 (fmtInt r.2.1 :: fmtInt r.2.2.1 :: r.2.2.2.map fmtInt) ∧ r.2.2.2.length = n

/-- The points: those of the last section of nodes. -/
def mdpaPoints (f : List (MdpaPart F)) : List (List F) :=
  ((f.filterMap fun p => match p with
    | .nodes rows => some (rows.map fun r => r.2.2)
    | _ => none).getLast?).getD []

/-- The cells in the order of the file.  Node number `k` is the `k`-th node. -/
def mdpaCells (f : List (MdpaPart F)) : List (String × List Int) :=
  f.flatMap fun p => match p with
    | .cells _ _ t rows => rows.map fun r => (t, r.2.2.2.map (· - 1))
    | _ => []

/-! ### What is written for a mesh -/

/-- Name of a type in a mesh of plane or solid cells. -/
def mdpaName (solid : Bool) (t : String) : List Char :=
  match t with
  | "vertex" => if solid then "Point3D".toList else "Point2D".toList
  | "line" => if solid then "Line3D2".toList else "Line2D2".toList
  | "line3" => if solid then "Line3D3".toList else "Line2D3".toList
  | "triangle" => if solid then "Triangle3D3".toList else "Triangle2D3".toList
  | "triangle6" => if solid then "Triangle3D6".toList else "Triangle2D6".toList
  | "quad" => if solid then "Quadrilateral3D4".toList else "Quadrilateral2D4".toList
  | "quad8" => if solid then "Quadrilateral3D8".toList else "Quadrilateral2D8".toList
  | "quad9" => if solid then "Quadrilateral3D9".toList else "Quadrilateral2D9".toList
  | "tetra" => "Tetrahedra3D4".toList
  | "tetra10" => "Tetrahedra3D10".toList
  | "wedge" => "Prism3D6".toList
  | "hexahedron" => "Hexahedra3D8".toList
  | "hexahedron20" => "Hexahedra3D20".toList
  | "hexahedron27" => "Hexahedra3D27".toList
  | _ => []

/-- Number of nodes of the types that can be written. -/
def mdpaTypes : List (String × Nat) :=
  [("vertex", 1), ("line", 2), ("line3", 3), ("triangle", 3), ("triangle6", 6), ("quad", 4), ("quad8", 8), ("quad9", 9),
   ("tetra", 4), ("tetra10", 10), ("wedge", 6), ("hexahedron", 8), ("hexahedron20", 20), ("hexahedron27", 27)]

/-- The types of solid cells. -/
def mdpaSolid : List String := ["tetra", "tetra10", "wedge", "hexahedron", "hexahedron20", "hexahedron27"]

/-- Does the mesh have solid cells? -/
def mdpaIsSolid (m : In F) : Bool := m.cells.any fun b => b.1 ∈ mdpaSolid

/-- Points in the plane or in space, blocks of known types with rows of the right size, arrays without line breaks in their names;
a cell data array has a part for each block. -/
structure MdpaIn (m : In F) : Prop where
  points : (m.dim = 2 ∨ m.dim = 3) ∧ ∀ p ∈ m.points, p.length = m.dim
  cells : ∀ b ∈ m.cells, ∃ n, (b.1, n) ∈ mdpaTypes ∧ ∀ r ∈ b.2, r.length = n
  pointData : ∀ kv ∈ m.pointData, '\n' ∉ kv.1.toList ∧ kv.2.tail.length ≤ 1
  cellData : ∀ kv ∈ m.cellData, '\n' ∉ kv.1.toList ∧ kv.2 ≠ [] ∧ ∃ tail, tail.length ≤ 1 ∧ ∀ a ∈ kv.2, a.tail = tail

/-- Points in space. -/
def mdpaSpace (zero : F) (m : In F) : List (List F) := m.points.map fun p => if p.length = 2 then p ++ [zero] else p

/-- Lines of a table of data. -/
def mdpaTable (repr : F → List Char) (tag : List Char) (name : String) (rows : List (List F)) : List (List Char) :=
  ["Begin ".toList ++ tag ++ ' ' :: name.toList, []] ++
    rows.zipIdx.map (fun ri => joinWith ' ' (fmtInt (1 + (ri.2 : Int)) :: ri.1.map repr)) ++
    ["End ".toList ++ tag ++ ' ' :: name.toList, []]

/-- The number of the first cell of a block. -/
def mdpaStart (m : In F) (k : Nat) : Int := 1 + (((m.cells.take k).map fun b => b.2.length).sum : Nat)

/-- The sections written for a mesh. -/
def mdpaFile (io : MdpaFloat F) (m : In F) : List (MdpaPart F) :=
  ["Begin ModelPartData".toList, "//  VARIABLE_NAME value".toList, "End ModelPartData".toList, [],
    "Begin Properties 0".toList, "End Properties".toList, []].map .other ++
  [.nodes ((mdpaSpace io.zero m).zipIdx.map fun pi =>
    (' ' :: joinWith ' ' (fmtInt (1 + (pi.2 : Int)) :: pi.1.map io.fmt), 1 + (pi.2 : Int), pi.1)), .other []] ++
  (m.cells.zipIdx.flatMap fun bk =>
    [.cells false (mdpaName (mdpaIsSolid m) bk.1.1) bk.1.1 (bk.1.2.zipIdx.map fun ri =>
      (' ' :: (fmtInt (mdpaStart m bk.2 + ri.2) ++ " 0  ".toList ++ joinWith ' ' (ri.1.map fun z => fmtInt (z + 1))),
        mdpaStart m bk.2 + ri.2, 0, ri.1.map (· + 1))), .other []]) ++
  ((m.pointData.flatMap fun kv => mdpaTable io.repr "NodalData".toList kv.1 kv.2.rows) ++
   (m.cellData.flatMap fun kv => mdpaTable io.repr "ElementalData".toList kv.1 (kv.2.flatMap (·.rows)))).map .other

end Meshio.Spec
