/-
What DOLFIN XML documents say, independently of the reader, which meshes can be written, and which files belong to a mesh.
-/
import Verif.Model.Dolfin
namespace Meshio.Spec
open Meshio.Dolfin (Data)

variable {F : Type}

/-- The attribute `k` of the element is a text that means `x`. -/
def SaysAttr {α : Type} (parse : List Char → Option α) (e : XmlElem) (k : String) (x : α) : Prop :=
  ∃ s, e.attr? k = some s ∧ parse s.toList = some x

/-- The element says what row `k` is: `index` is `k`, and the entries are the attributes with the given names. -/
structure SaysRow {α : Type} (parse : List Char → Option α) (tag : String) (names : List String) (rows : List (List α)) (e : XmlElem)
    (k : Nat) : Prop where
  okTag : e.tag = tag
  alone : e.kids = []
  index : SaysAttr parseInt e "index" (k : Int)
  row : ∃ r, rows[k]? = some r ∧ r.length = names.length ∧ ∀ (j : Nat) (n : String) (x : α), names[j]? = some n → r[j]? = some x → SaysAttr parse e n x

/-- The element lists rows: `size` is their number, every child says one of them, in any order, and every row is said. -/
structure SaysRows {α : Type} (parse : List Char → Option α) (listTag tag : String) (names : List String) (rows : List (List α))
    (e : XmlElem) : Prop where
  okTag : e.tag = listTag
  size : SaysAttr parseInt e "size" (rows.length : Int)
  each : ∀ c ∈ e.kids, ∃ k, SaysRow parse tag names rows c k
  all : ∀ k < rows.length, ∃ c ∈ e.kids, SaysRow parse tag names rows c k

/-- The elements of a mesh file. -/
def dolfinTags : List String := ["dolfin", "mesh", "vertices", "vertex", "cells", "triangle", "tetrahedron"]

/-- Elements that have nothing to do with the mesh, inside and out. -/
def Foreign : Xml → Prop
  | .nil => True
  | .cons t _ _ ch r => t ∉ dolfinTags ∧ Foreign ch ∧ Foreign r

/-- The two kinds of cells: name in DOLFIN, name in meshio, names of the attributes. -/
def dolfinKinds : List (String × String × List String) :=
  [("triangle", "triangle", ["v0", "v1", "v2"]), ("tetrahedron", "tetra", ["v0", "v1", "v2", "v3"])]

/-- The names of the coordinates in two and three dimensions. -/
def dolfinCoords (dim : Nat) : List String := if dim = 2 then ["x", "y"] else ["x", "y", "z"]

/-- The document holds a mesh of the dimension `dim` with these points and cells of this kind.  Vertices and cells come in any order, and
other elements may be next to them. -/
structure DolfinDoc (fio : FloatIO F) (root : XmlElem) (dim : Nat) (kind : String × String × List String) (points : List (List F))
    (cells : List (List Int)) : Prop where
  okDim : dim = 2 ∨ dim = 3
  okKind : kind ∈ dolfinKinds
  okRoot : root.tag = "dolfin"
  body : ∃ m a v b c d, root.kids = [m] ∧ m.tag = "mesh" ∧ SaysAttr parseInt m "dim" (dim : Int) ∧ m.attr? "celltype" = some kind.1 ∧
    (m.kids = a ++ v :: (b ++ c :: d) ∨ m.kids = a ++ c :: (b ++ v :: d)) ∧
    (∀ e, e ∈ a ∨ e ∈ b ∨ e ∈ d → e.tag ∉ dolfinTags ∧ Foreign e.children) ∧
    SaysRows fio.parse "vertices" "vertex" (dolfinCoords dim) points v ∧
    SaysRows parseInt "cells" kind.1 kind.2.2 cells c

/-- The entries of an array are the values of the elements `entity`. -/
structure SaysValues {α : Type} (parse : List Char → Option α) (vals : List α) (e : XmlElem) : Prop where
  size : SaysAttr parseInt e "size" (vals.length : Int)
  each : ∀ c ∈ e.kids, c.tag = "entity" ∧ ∃ (k : Nat) (x : α), vals[k]? = some x ∧ SaysAttr parseInt c "index" (k : Int) ∧ SaysAttr parse c "value" x
  all : ∀ (k : Nat) (x : α), vals[k]? = some x → ∃ c ∈ e.kids, SaysAttr parseInt c "index" (k : Int) ∧ SaysAttr parse c "value" x

/-- The file holds the array: one `mesh_function` with the type of the numbers and their values. -/
def FunctionDoc (fio : FloatIO F) (s : List Char) (d : Data Int F) : Prop :=
  ∃ root f, parseXml s = some root ∧ root.kids = [f] ∧ f.tag = "mesh_function" ∧
    match d with
    | .ints u l => f.attr? "type" = some (if u then "uint" else "int") ∧ SaysValues parseInt l f
    | .floats l => f.attr? "type" = some "float" ∧ SaysValues fio.parse l f
    | .other _ => False

/-- Base names without characters that mean something in a regular expression. -/
def PlainBase (base : List Char) : Prop := ∀ c ∈ base, c ∉ ".^$*+?{}[]\\|()".toList

/-- The file belongs to the mesh `base.xml` and holds the cell data `n`. -/
def IsDataFile (base : List Char) (f n : String) : Prop :=
  n.toList ≠ [] ∧ '.' ∉ n.toList ∧ ∃ rest, f.toList = base ++ '_' :: (n.toList ++ (".xml".toList ++ rest))

/-- All entries are set. -/
def fullData : Data Int F → Data (Option Int) (Option F)
  | .ints u l => .ints u (l.map some)
  | .floats l => .floats (l.map some)
  | .other n => .other n

/-- Rows all of whose entries are set. -/
def fullRows {α : Type} (rows : List (List α)) : List (List (Option α)) := rows.map (·.map some)

/-- Printed numbers contain nothing that XML would need escaped. -/
def XmlFloats (fio : FloatIO F) : Prop := ∀ x, ∀ c ∈ fio.fmt x, c ≠ '"' ∧ c ≠ '<' ∧ c ≠ '&'

/-- The cells of all blocks of one type, one after the other. -/
def dolfinCells (t : String) (m : Meshio.Dolfin.In F) : List (List Int) := (m.blocks.filter fun b => b.1 = t).flatMap (·.2)

/-- A mesh whose points and cells can be written: `kind` is that of the tetrahedra if there are any, else that of the triangles; blocks of
other types may be present. -/
structure DolfinMesh (m : Meshio.Dolfin.In F) (kind : String × String × List String) : Prop where
  okDim : m.dim = 2 ∨ m.dim = 3
  okKind : kind ∈ dolfinKinds
  some : ∃ b ∈ m.blocks, b.1 = kind.2.1
  tetraFirst : kind.2.1 = "triangle" → ∀ b ∈ m.blocks, b.1 ≠ "tetra"
  points : ∀ p ∈ m.points, p.length = m.dim
  cells : ∀ r ∈ dolfinCells kind.2.1 m, r.length = kind.2.2.length

/-- A name of cell data that the reader can find again. -/
def DataName (n : String) : Prop := n.toList ≠ [] ∧ '.' ∉ n.toList ∧ '/' ∉ n.toList

/-- `repr` of numpy before version 2 prints numbers only. -/
def OldRepr (fio : FloatIO F) (r : Meshio.Dolfin.Repr F) : Prop := (∀ i, r.int i = fmtInt i) ∧ ∀ x, r.float x = fio.fmt x

/-- `repr` of numpy since version 2: the name of the type around the number. -/
def newRepr (fio : FloatIO F) : Meshio.Dolfin.Repr F :=
  ⟨fun i => "np.int64(".toList ++ fmtInt i ++ [')'], fun x => "np.float64(".toList ++ fio.fmt x ++ [')']⟩

end Meshio.Spec
