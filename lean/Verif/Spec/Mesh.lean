/-
Specifications for meshes, written without the model's helper functions.
-/
import Verif.Model.Mesh
namespace Meshio.Spec
variable {P R : Type}

/-- A cell type meshio knows: any `polyhedron…`, or a type with a topological dimension. -/
def KnownType (t : String) : Prop :=
  (∃ rest, t.toList = "polyhedron".toList ++ rest) ∨ t ∈ topologicalDimension.map (·.1)

/-- Every point data array has one row per point. -/
def PointDataOk (numPoints : Nat) (pd : Dict (DataArr R)) : Prop :=
  ∀ kv ∈ pd, kv.2.arr.rows.length = numPoints

/-- Every cell data entry has one array per block with one row per cell
(`lens` are the block lengths). -/
def CellDataOk (lens : List Nat) (cd : Dict (List (DataArr R))) : Prop :=
  ∀ kl ∈ cd, kl.2.map (fun a => a.arr.rows.length) = lens

/-- Data arrays match points and cells in number and length. -/
def Consistent (m : Mesh P R) : Prop :=
  PointDataOk m.points.length m.pointData ∧
    CellDataOk (m.cells.map (fun c => c.data.rows.length)) m.cellData

/-- Each cell set has one member list per block. -/
def SetsOk (m : Mesh P R) : Prop :=
  ∀ km ∈ m.cellSets, km.2.length = m.cells.length

/-- All cells of type `t`, block by block. -/
def cellsOfType (m : Mesh P R) (t : String) : List (List Int) :=
  (m.cells.filter (fun c => decide (c.type = t))).flatMap (fun c => c.data.rows)

/-- All cells with type and data row, block by block. -/
def cellsWithData (cells : List CellBlock) (data : List (DataArr R)) :
    List (String × List Int × Val R) :=
  (cells.zip data).flatMap (fun cd =>
    (cd.1.data.rows.zip cd.2.arr.rows).map (fun rv => (cd.1.type, rv)))

/-- The tag of item `j` for a family of sets (in order): the number of the last set
containing `j`, or -1 if there is none.  A missing member list contains nothing. -/
def IsTag (sets : List (Option (List Nat))) (j : Nat) (v : Int) : Prop :=
  (v = -1 ∧ ∀ (i : Nat) (cc : List Nat), sets[i]? = some (some cc) → j ∉ cc) ∨
  (∃ (i : Nat) (cc : List Nat), v = (i : Int) ∧ sets[i]? = some (some cc) ∧ j ∈ cc ∧
    ∀ (i' : Nat) (cc' : List Nat), i < i' → sets[i']? = some (some cc') → j ∉ cc')

end Meshio.Spec

namespace Meshio.Spec
variable {P R : Type}

/-- Cell `j` of block `k` belongs to the set with member lists `ml`. -/
def InSet (ml : List (Option (List Nat))) (k j : Nat) : Prop :=
  ∃ ms, ml[k]? = some (some ms) ∧ j ∈ ms

/-- All members of all cell sets are cells of the mesh. -/
def CellSetsInRange (m : Mesh P R) : Prop :=
  ∀ km ∈ m.cellSets, ∀ k j, InSet km.2 k j →
    ∃ c, m.cells[k]? = some c ∧ j < c.data.rows.length

/-- The cell sets are non-empty, in range, disjoint and cover all cells. -/
structure CellPartition (m : Mesh P R) : Prop where
  nonempty : m.cellSets ≠ []
  sets : SetsOk m
  range : CellSetsInRange m
  cover : ∀ (k : Nat) c j, m.cells[k]? = some c → j < c.data.rows.length →
    ∃ km ∈ m.cellSets, InSet km.2 k j
  disjoint : ∀ (k j i i' : Nat) km km', m.cellSets[i]? = some km → m.cellSets[i']? = some km' →
    InSet km.2 k j → InSet km'.2 k j → i = i'
  inhabited : ∀ km ∈ m.cellSets, ∃ k j, InSet km.2 k j

/-- The point sets are non-empty, in range, disjoint and cover all points. -/
structure PointPartition (m : Mesh P R) : Prop where
  nonempty : m.pointSets ≠ []
  range : ∀ km ∈ m.pointSets, ∀ j ∈ km.2, j < m.points.length
  cover : ∀ j, j < m.points.length → ∃ km ∈ m.pointSets, j ∈ km.2
  disjoint : ∀ (j i i' : Nat) km km', m.pointSets[i]? = some km → m.pointSets[i']? = some km' →
    j ∈ km.2 → j ∈ km'.2 → i = i'
  inhabited : ∀ km ∈ m.pointSets, km.2 ≠ []

end Meshio.Spec
