/-
What H5M files hold.
-/
import Verif.Model.H5m
namespace Meshio.Spec
open Meshio Meshio.H5m

variable {F : Type}

/-- Names of the groups of elements and the types of cells, in the order of the names. -/
def h5mGroups : List (String × String) :=
  [("Edge2", "line"), ("Hex8", "hexahedron"), ("Prism6", "wedge"), ("Pyramid5", "pyramid"), ("Quad4", "quad"), ("Tet4", "tetra"), ("Tri3", "triangle")]

/-- Types that are written, with the name and the number of MOAB's element type. -/
def h5mWritten : List (String × String × Nat) := [("line", "Edge2", 1), ("tetra", "Tet4", 5), ("triangle", "Tri3", 2)]

/-- The blocks that are written, ordered by the names of their groups. -/
def h5mKept (cells : List (String × List (List Int))) : List (String × List (List Int)) :=
  ["line", "tetra", "triangle"].flatMap fun t => cells.filter fun b => b.1 = t

/-- Ranges of numbers (start, length) that follow each other without gaps from `start` up to, and without, `stop`. -/
def Contiguous : Nat → List (Nat × Nat) → Nat → Prop
  | start, [], stop => start = stop
  | start, r :: rs, stop => r.1 = start ∧ Contiguous (start + r.2) rs stop

/-- The point data that are written. -/
def h5mTags (ids : Bool) (m : H5m.In F) : List (List Char × Arr F) :=
  if ids = true ∧ ∀ d ∈ m.pointData, d.1 ≠ "GLOBAL_ID".toList then
    m.pointData ++ [("GLOBAL_ID".toList, .ints ((List.range' 1 m.points.length).map fun i => ((i : Nat) : Int)))]
  else m.pointData

/-- A mesh that H5M can hold: at most one block of each type that is written, no cell data, distinct plain names of point data, and at most two
axes. -/
structure H5mMesh (m : H5m.In F) : Prop where
  okCells : ∀ t ∈ ["line", "tetra", "triangle"], (m.cells.filter fun b => b.1 = t).length ≤ 1
  okCellData : ∀ d ∈ m.cellData, d.2 = 0
  okNames : (m.pointData.map (·.1)).Nodup
  okPlain : ∀ d ∈ m.pointData, d.1 ≠ [] ∧ d.1 ≠ ['.'] ∧ '/' ∉ d.1
  okAxes : ∀ d ∈ m.pointData, d.2 ≠ .more

end Meshio.Spec
