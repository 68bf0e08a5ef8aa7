/-
Specifications for the VTK cell stream: what a list of cells means, independently of
offsets and breaks.
-/
import Verif.Spec.Mesh
import Verif.Spec.Runs
import Verif.Model.Tables
namespace Meshio.Spec

/-- A cell in a VTK file: type number and node list in VTK order. -/
abbrev VtkCell := Nat × List Int

/-- Name of a VTK type number, if meshio knows it: the entry in the table. -/
def vtkName (code : Nat) : Option String :=
  (Tables.vtkToMeshio.find? (fun e => e.1 == code)).map (·.2)

/-- VTK types with a varying number of nodes that meshio reads. -/
def varSize : List Nat := [7, 68, 69, 70, 71, 72, 73, 74]

/-- VTK node order to meshio node order: only the wedge (13) differs; its triangles
are turned around. -/
def fromVtk (code : Nat) (nodes : List Int) : List Int :=
  match code, nodes with
  | 13, [a, b, c, d, e, f] => [a, c, b, d, f, e]
  | _, nodes => nodes

/-- The file's connectivity: all node lists one after the other. -/
def connectivityOf (cs : List VtkCell) : List Int := cs.flatMap (·.2)

/-- End positions of the cells. -/
def endsFrom : Nat → List VtkCell → List Int
  | _, [] => []
  | i, c :: cs => ((i + c.2.length : Nat) : Int) :: endsFrom (i + c.2.length) cs

/-- A cell that can be read: either its type is not known at all (such cells are
skipped), or meshio has a block type of that name, and the cell has the right number
of nodes unless its type has variable size. -/
def Readable (c : VtkCell) : Prop :=
  vtkName c.1 = none ∨
    ∃ t, vtkName c.1 = some t ∧ KnownType t ∧
      (c.1 ∈ varSize ∨ numNodesPerCell.get? t = some c.2.length)

/-- Runs of neighbouring cells of the same type and size. -/
def vtkRuns (cs : List VtkCell) : List (List VtkCell) := runsBy (fun c => (c.1, c.2.length)) cs

/-- The block made of a run. -/
def vtkBlock (run : List VtkCell) : Option (String × List (List Int)) :=
  match run with
  | [] => none
  | c :: _ => (vtkName c.1).map (fun t => (t, run.map (fun c => fromVtk c.1 c.2)))

/-- The blocks of a file. -/
def vtkBlocks (cs : List VtkCell) : List (String × List (List Int)) :=
  (vtkRuns cs).filterMap vtkBlock

/-- The data rows of a run of cells, if the cells are read. -/
def vtkRunData {R : Type} (run : List (VtkCell × R)) : Option (List R) :=
  match run with
  | [] => none
  | c :: _ => (vtkName c.1.1).map (fun _ => run.map (·.2))

/-- The data of a file by block: the rows travel with their cells. -/
def vtkData {R : Type} (cs : List VtkCell) (d : List R) : List (List R) :=
  (runsBy (fun c => (c.1.1, c.1.2.length)) (cs.zip d)).filterMap vtkRunData

/-- The cell stream of a legacy file: each cell's node count and then its nodes. -/
def streamOf (cs : List VtkCell) : List Int := cs.flatMap (fun c => (c.2.length : Int) :: c.2)

/-- A cell of a type for which the table of node counts has a positive entry, with that
number of nodes. -/
def FixedCell (c : VtkCell) : Prop :=
  Tables.vtkNumNodes[c.1]? = some (c.2.length : Int) ∧ 0 < c.2.length

instance (c : VtkCell) : Decidable (FixedCell c) := by unfold FixedCell; exact inferInstance

/-- A cell of a known type; a wedge has six nodes. -/
def StreamCell (c : VtkCell) : Prop :=
  (∃ t, vtkName c.1 = some t) ∧ (c.1 = 13 → c.2.length = 6)

/-- meshio node order to VTK node order: only wedges change. -/
def toVtk (t : String) (nodes : List Int) : List Int :=
  if t = "wedge" then
    match nodes with
    | [a, b, c, d, e, f] => [a, c, b, d, f, e]
    | other => other
  else nodes

/-- The VTK code of a meshio type: the entry whose value is the name. -/
def vtkCode (t : String) : Option Nat :=
  (Tables.vtkToMeshio.find? (fun e => e.2 == t)).map (·.1)

/-- Blocks as they come back from a file: rows in order, neighbouring rows of the same
type and size in one block (so equal neighbours fuse and empty blocks vanish). -/
def fuse (bs : List (String × List (List Int))) : List (String × List (List Int)) :=
  (runsBy (fun x => (x.1, x.2.length)) (rowsOf bs)).filterMap
    (fun r => r.head?.map (fun x => (x.1, r.map (·.2))))

/-- The data of the fused blocks: rows travel with their cells. -/
def fuseData {R : Type} (bs : List (String × List (List Int))) (d : List R) : List (List R) :=
  (runsBy (fun x => (x.1.1, x.1.2.length)) ((rowsOf bs).zip d)).map (fun r => r.map (·.2))

end Meshio.Spec
