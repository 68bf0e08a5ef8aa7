/-
What an AVS-UCD file says: a line of counts, lines of nodes (number, coordinates), lines of cells (number, material, type,
numbers of nodes), and tables of data.
-/
import Verif.Model.Avsucd
import Verif.Spec.Runs
namespace Meshio.Spec
open Avsucd

variable {F : Type}

/-- meshio's name, name in the file, number of nodes. -/
def avsTypes : List (String × String × Nat) :=
  [("vertex", "pt", 1), ("line", "line", 2), ("triangle", "tri", 3), ("quad", "quad", 4), ("tetra", "tet", 4),
   ("pyramid", "pyr", 5), ("wedge", "prism", 6), ("hexahedron", "hex", 8)]

/-- Node order of the file: tetrahedra are turned, pyramids begin with the apex, prisms and hexahedra with the top. -/
def avsOrder {α : Type} (t : String) (r : List α) : List α :=
  match t, r with
  | "tetra", [a, b, c, d] => [a, b, d, c]
  | "pyramid", [a, b, c, d, e] => [e, a, b, c, d]
  | "wedge", [a, b, c, d, e, f] => [d, e, f, a, b, c]
  | "hexahedron", [a, b, c, d, e, f, g, h] => [e, f, g, h, a, b, c, d]
  | _, r => r

/-- A cell: number in the file, material, type, and its nodes as positions in the list of nodes, in meshio's order. -/
structure AvsCell where
  id : Int
  material : Int
  type : String
  row : List Nat

/-- Name of a type in the file. -/
def avsName (t : String) : List Char := (((avsTypes.lookup t).map (·.1)).getD "").toList

/-- The type is known, and the nodes exist. -/
def AvsCell.Ok (n : Nat) (c : AvsCell) : Prop :=
  ((avsTypes.lookup c.type).map (·.2)) = some c.row.length ∧ ∀ p ∈ c.row, p < n

/-- The words on the line of a cell, when the nodes have the numbers `ids`. -/
def AvsCell.words (ids : List Int) (c : AvsCell) : List (List Char) :=
  fmtInt c.id :: fmtInt c.material :: avsName c.type :: (avsOrder c.type (c.row.map fun p => ids.getD p 0)).map fmtInt

/-- A table of data: arrays, the text after the names, and the order of the entities in the table. -/
structure AvsData (F : Type) where
  arrays : List (DataIn F)
  unit : List Char
  order : List Nat

/-- Names without commas and line breaks which differ once blanks are replaced; rows of the right size; every entity
occurs once. -/
structure AvsData.Ok (n : Nat) (d : AvsData F) : Prop where
  names : ∀ a ∈ d.arrays, ',' ∉ a.name ∧ strip a.name = a.name ∧ '\n' ∉ a.name
  unit : '\n' ∉ d.unit
  distinct : (d.arrays.map fun a => underscores a.name).Nodup
  rows : ∀ a ∈ d.arrays, a.rows.length = n ∧ ∀ r ∈ a.rows, r.length = a.width
  order : d.order.Perm (List.range n)
  widths : (d.arrays.map (·.width)).sum ≠ 0 ∨ d.arrays = []

/-- The lines of a table of entities with numbers `ids`; without arrays there is no table. -/
def AvsData.lines (fmt : F → List Char) (ids : List Int) (d : AvsData F) : List (List Char) :=
  if d.arrays = [] then []
  else
    joinWith ' ' (fmtNat d.arrays.length :: d.arrays.map fun a => fmtNat a.width) ::
      (d.arrays.map (fun a => a.name ++ ',' :: d.unit) ++
        d.order.map fun p =>
          joinWith ' ' (fmtInt (ids.getD p 0) :: (d.arrays.flatMap fun a => a.rows.getD p []).map fmt))

/-- A file: comment lines, numbers and coordinates of the nodes, cells, tables. -/
structure AvsFile (F : Type) where
  comments : List (List Char)
  ids : List Int
  points : List (List F)
  cells : List AvsCell
  pointData : AvsData F
  cellData : AvsData F

/-- Numbers are distinct, the cells are known, tables fit. -/
structure AvsFile.Ok (f : AvsFile F) : Prop where
  comments : ∀ l ∈ f.comments, splitWs (l.takeWhile (· ≠ '#')) = [] ∧ '\n' ∉ l
  ids : f.ids.Nodup ∧ f.ids.length = f.points.length
  points : ∃ w, ∀ p ∈ f.points, p.length = w
  cells : ∀ c ∈ f.cells, c.Ok f.points.length
  cellIds : (f.cells.map (·.id)).Nodup
  pointData : f.pointData.Ok f.points.length
  cellData : f.cellData.Ok f.cells.length

/-- The lines of the file. -/
def AvsFile.lines (f : AvsFile F) (fmt fmtData : F → List Char) : List (List Char) :=
  f.comments ++
  joinWith ' ' [fmtNat f.points.length, fmtNat f.cells.length, fmtNat (f.pointData.arrays.map (·.width)).sum,
    fmtNat (f.cellData.arrays.map (·.width)).sum, ['0']] ::
  (List.zipWith (fun i p => joinWith ' ' (fmtInt i :: p.map fmt)) f.ids f.points ++
  (f.cells.map (fun c => joinWith ' ' (c.words f.ids)) ++
  (f.pointData.lines fmtData f.ids ++ f.cellData.lines fmtData (f.cells.map (·.id)))))

/-- Blocks of the mesh: neighbouring cells of equal type, with their materials. -/
def AvsFile.blocks (f : AvsFile F) : List (String × List (List Int × Int)) :=
  groupRuns (f.cells.map fun c => (c.type, c.row.map Int.ofNat, c.material))

/-- The arrays of a table as they are read. -/
def AvsData.out (round : F → F) (d : AvsData F) : List (DataOut F) :=
  d.arrays.map fun a => ⟨underscores a.name, a.width, a.rows.map fun r => some (r.map round)⟩

/-! ### What is written for a mesh -/

/-- Blocks of known types with rows of the right size and nodes that exist; a material for each cell; tables that fit.  Without
blocks there is no cell data. -/
structure AvsIn (m : In F) : Prop where
  points : (∀ p ∈ m.points, p.length = 3) ∨ (∀ p ∈ m.points, p.length = 2)
  cells : ∀ b ∈ m.cells, ∃ n, ((avsTypes.lookup b.1).map (·.2)) = some n ∧
    ∀ r ∈ b.2, r.length = n ∧ ∀ z ∈ r, 0 ≤ z ∧ z < m.points.length
  material : ∀ l, m.material = some l → l.length = (rowsOf m.cells).length ∧ m.cells ≠ []
  pointData : (⟨m.pointData, [], List.range m.points.length⟩ : AvsData F).Ok m.points.length
  cellData : (⟨m.cellData, [], List.range (rowsOf m.cells).length⟩ : AvsData F).Ok (rowsOf m.cells).length
  noCells : m.cells = [] → m.cellData = []

/-- The materials: those of the mesh, or zeros. -/
def avsMaterial (m : In F) : List Int := m.material.getD (List.replicate (rowsOf m.cells).length 0)

/-- Points in space: a zero is appended to points of the plane. -/
def avsPoints (zero : F) (m : In F) : List (List F) := m.points.map fun p => if p.length = 2 then p ++ [zero] else p

/-- The file for a mesh: nodes and cells are numbered from one, blocks follow each other. -/
def avsFile (version : List Char) (zero : F) (m : In F) : AvsFile F where
  comments := ["# Written by meshio v".toList ++ version]
  ids := numbersFrom 1 m.points.length
  points := avsPoints zero m
  cells := (rowsOf m.cells).zipIdx.map fun ri => ⟨1 + (ri.2 : Int), (avsMaterial m).getD ri.2 0, ri.1.1, ri.1.2.map Int.toNat⟩
  pointData := ⟨m.pointData, " real".toList, List.range m.points.length⟩
  cellData := ⟨m.cellData, " real".toList, List.range (rowsOf m.cells).length⟩

/-- The cells of a mesh with their materials. -/
def avsCells (m : In F) : List (String × List Int × Int) :=
  List.zipWith (fun r k => (r.1, r.2, k)) (rowsOf m.cells) (avsMaterial m)

end Meshio.Spec
