/-
Gmsh files of version 4.0: the description of what is written for a mesh.
-/
import Verif.Spec.Gmsh40
namespace Meshio.Spec
open Types Tables Gmsh
open Gmsh41 (dimOf)

variable {F : Type}

/-! ### A text for every description -/

/-- The word for a number. -/
def Tok.word (io : GmshFloat F) : Tok F → List Char
  | .int z => fmtInt z
  | .size n => fmtNat n
  | .flt x => io.fmt x

/-- A section of nodes. -/
def msh40NodesText (io : GmshFloat F) (ascii : Bool) (rows : List (List (Tok F))) : List Char :=
  if ascii then linesText (["$Nodes".toList] ++ rows.map (fun r => joinWith ' ' (r.map (Tok.word io))) ++ ["$EndNodes".toList])
  else linesText ["$Nodes".toList] ++ rows.flatten.flatMap (Tok.bytes io 8) ++ linesText [[], "$EndNodes".toList]

/-- The other sections. -/
def msh40SecText (io : GmshFloat F) (ascii : Bool) : Msh4Sec F → List Char
  | .periodic l => msh40Periodic io ascii l
  | x => x.text io ascii 8

/-- The numbers of the elements. -/
def msh40ElemToks (f : Msh4File F) : List (Tok F) := [.size f.blocks.length, .size f.numElems] ++ f.blocks.flatMap (msh40Block f.ids)

/-- The text of a file, where `types` are the types of the nodes. -/
def msh40Text (io : GmshFloat F) (ascii : Bool) (f : Msh4File F) (types : List Int) : List Char :=
  msh40Header ascii ++ (f.pre.flatMap (msh40SecText io ascii) ++
    ((match f.ents with
      | none => []
      | some l => numSecText io ascii 8 "Entities" (msh4Entities l)) ++
    (f.mid0.flatMap (msh40SecText io ascii) ++ (msh40NodesText io ascii (msh40Nodes f types) ++
      (f.mid.flatMap (msh40SecText io ascii) ++ (numSecText io ascii 8 "Elements" (msh40ElemToks f) ++
        f.post.flatMap (msh40SecText io ascii)))))))

/-- All numbers fit in their bytes. -/
def Msh40Fits (f : Msh4File F) (types : List Int) : Prop :=
  ∀ t ∈ f.entToks ++ (msh40Nodes f types).flatten ++ msh40ElemToks f, t.Fits 8

/-! ### What is written for a mesh -/

/-- Meshes that can be written and read: points of the plane or of space, blocks of known types whose nodes exist, data that fits,
with one, three or nine components, names without quotes, links without transformations (and in binary files no links). -/
structure Msh40In (lim : Nat) (binary : Bool) (m : Gmsh40.In F) : Prop where
  points : m.points ≠ [] ∧ ((m.dim = 3 ∧ ∀ p ∈ m.points, p.length = 3) ∨ (m.dim = 2 ∧ ∀ p ∈ m.points, p.length = 2))
  cells : ∀ b ∈ m.cells, b.2 ≠ [] ∧ (find meshioToGmsh b.1).isSome ∧
    ∀ r ∈ b.2, Dict.get? numNodesPerCell b.1 = some r.length ∧ ∀ z ∈ r, 0 ≤ z ∧ z < m.points.length
  known : ∀ b ∈ m.cells, KnownType b.1
  pointData : (m.pointData.map (·.1)).Nodup ∧
    ∀ kv ∈ m.pointData, ('"' ∉ kv.1.toList ∧ '\n' ∉ kv.1.toList) ∧ MshArray m.points.length kv.2
  cellData : (m.cellData.map (·.1)).Nodup ∧
    ∀ kv ∈ m.cellData, ('"' ∉ kv.1.toList ∧ '\n' ∉ kv.1.toList) ∧
      kv.2 ≠ [] ∧ kv.2.map (·.rows.length) = m.cells.map (·.2.length) ∧ (∀ a ∈ kv.2, a.tail = (mshConcat kv.2).tail) ∧
      MshArray (m.cells.map fun b => b.2.length).sum (mshConcat kv.2)
  fieldData : (m.fieldData.map (·.1)).Nodup ∧
    ∀ kv ∈ m.fieldData, kv.2.length = 2 ∧ '"' ∉ kv.1.toList ∧ '\\' ∉ kv.1.toList ∧ '\n' ∉ kv.1.toList
  periodic : ∀ l, m.periodic = some l → (binary = true → l = []) ∧ ∀ p ∈ l, p.affine = none
  size : m.points.length < lim ∧ (m.cells.map fun b => b.2.length).sum < lim ∧ m.points.length < 2 ^ 31 - 1 ∧
    (m.cells.map fun b => b.2.length).sum < 2 ^ 31 ∧ m.cells.length < 2 ^ 31

/-- Points of the plane get a zero. -/
def msh40Points (zero : F) (m : Gmsh40.In F) : List (List F) := m.points.map fun p => if p.length = 2 then p ++ [zero] else p

/-- The blocks of elements from element `start` on: the entity has tag one. -/
def msh40Blocks : Nat → List (String × List (List Int)) → List Msh4Block
  | _, [] => []
  | start, (t, rows) :: cells =>
    ⟨dimOf t, 1, t, rows.zipIdx.map fun ri => (start + ri.2, ri.1.map Int.toNat)⟩ :: msh40Blocks (start + rows.length) cells

/-- The file for a mesh, with its names in the order `names`: one block of nodes, numbered from one; the elements are numbered
from zero.  Version 4.0 does not list smallest and largest numbers. -/
def msh40File (zero : F) (m : Gmsh40.In F) (names : List (Int × Int × List Char)) : Msh4File F where
  pre := if names = [] then [] else [.names names]
  ents := none
  mid0 := []
  nodes := [⟨0, 1, (msh40Points zero m).zipIdx.map fun p => (p.2 + 1, p.1)⟩]
  nodeRange := (1, m.points.length)
  mid := []
  blocks := msh40Blocks 0 m.cells
  elemRange := (0, (m.cells.map fun b => b.2.length).sum - 1)
  post := m.periodic.toList.map .periodic ++
    (m.pointData.map (fun kv => .nodeData (numbersFrom 1 m.points.length) (mshData kv.1 kv.2)) ++
      m.cellData.map fun kv => .elemData (numbersFrom 1 (m.cells.map fun b => b.2.length).sum) (mshData kv.1 (mshConcat kv.2)))

end Meshio.Spec
