/-
Gmsh files of version 4.1: a text for every description, and the description of what is written for a mesh.
-/
import Verif.Spec.Gmsh41
namespace Meshio.Spec
open Types Tables Gmsh Gmsh41

variable {F : Type}

/-! ### A text for every description -/

/-- A number, in text files followed by a blank. -/
def Tok.text (io : GmshFloat F) (ascii : Bool) (k : Nat) (t : Tok F) : List Char :=
  if ascii then
    (match t with
      | .int z => fmtInt z
      | .size n => fmtNat n
      | .flt x => io.fmt x) ++ [' ']
  else t.bytes io k

/-- A section of numbers. -/
def numSecText (io : GmshFloat F) (ascii : Bool) (k : Nat) (name : String) (toks : List (Tok F)) : List Char :=
  '$' :: name.toList ++ '\n' :: (toks.flatMap (Tok.text io ascii k) ++ '\n' :: ("$End".toList ++ name.toList ++ ['\n']))

def Msh4Sec.text (io : GmshFloat F) (ascii : Bool) (k : Nat) : Msh4Sec F → List Char
  | .names l => linesText (["$PhysicalNames".toList, fmtNat l.length] ++ l.map mshName ++ ["$EndPhysicalNames".toList])
  | .periodic l => numSecText io ascii k "Periodic" (.size l.length :: l.flatMap msh4Link)
  | .nodeData nums d => d.text io ascii "NodeData".toList nums
  | .elemData nums d => d.text io ascii "ElementData".toList nums
  | .other name lines => linesText (['$' :: name] ++ lines ++ ["$End".toList ++ name])

/-- The numbers of the sections of entities, nodes and elements. -/
def Msh4File.entToks (f : Msh4File F) : List (Tok F) := f.ents.elim [] msh4Entities

def Msh4File.nodeToks (f : Msh4File F) : List (Tok F) :=
  [.size f.nodes.length, .size f.points.length, .size f.nodeRange.1, .size f.nodeRange.2] ++ f.nodes.flatMap Msh4Nodes.toks

def Msh4File.elemToks (f : Msh4File F) : List (Tok F) :=
  [.size f.blocks.length, .size f.numElems, .size f.elemRange.1, .size f.elemRange.2] ++ f.blocks.flatMap (Msh4Block.toks f.ids)

def Msh4Sec.toks : Msh4Sec F → List (Tok F)
  | .periodic l => .size l.length :: l.flatMap msh4Link
  | _ => []

/-- All numbers fit in their bytes. -/
def Msh4File.Fits (k : Nat) (f : Msh4File F) : Prop :=
  (∀ t ∈ f.entToks ++ f.nodeToks ++ f.elemToks, t.Fits k) ∧ ∀ x ∈ f.secs, ∀ t ∈ x.toks, t.Fits k

/-- The text of a file. -/
def Msh4File.text (io : GmshFloat F) (ascii : Bool) (k : Nat) (f : Msh4File F) : List Char :=
  msh4Header ascii k ++ (f.pre.flatMap (Msh4Sec.text io ascii k) ++
    ((match f.ents with
      | none => []
      | some l => numSecText io ascii k "Entities" (msh4Entities l)) ++
    (f.mid0.flatMap (Msh4Sec.text io ascii k) ++ (numSecText io ascii k "Nodes" f.nodeToks ++
      (f.mid.flatMap (Msh4Sec.text io ascii k) ++ (numSecText io ascii k "Elements" f.elemToks ++
        f.post.flatMap (Msh4Sec.text io ascii k)))))))

/-! ### What is written for a mesh -/

/-- The first tag of block `i`. -/
def msh4Tag (l : Option (List (List Int))) (i : Nat) : Int := ((l.getD []).getD i []).headD 0

/-- The entity (dimension and tag) of block `i`: the tag is the geometrical tag, or zero. -/
def msh4Owner (m : In F) (bi : (String × List (List Int)) × Nat) : Int × Int := (dimOf bi.1.1, msh4Tag m.geometrical bi.2)

/-- The entities of the nodes: those given, or that of the first block with tag zero. -/
def msh4NodeOwners (m : In F) : List (Int × Int) :=
  m.dimTags.getD (List.replicate m.points.length ((dimOf (m.cells.map (·.1)).head!, 0)))

/-- Tags that are the same for all cells of a block. -/
def Msh4Tags (m : In F) (l : List (List Int)) : Prop :=
  l.map (·.length) = m.cells.map (·.2.length) ∧ ∀ x ∈ l, ∀ z ∈ x, IsInt 4 z ∧ z = x.headD 0

/-- Meshes that can be written and read: points of the plane or of space, non-empty blocks of known types whose nodes exist, data
that fits, with one, three or nine components, names without quotes.  The tags are the same for all cells of a block.  Without
entities of the nodes there is one block.  With them each block has geometrical and physical tags and its own entity, which some
node belongs to; boundaries are given for the blocks of positive dimension. -/
structure Msh4In (lim : Nat) (m : In F) : Prop where
  points : m.points ≠ [] ∧ ((m.dim = 3 ∧ ∀ p ∈ m.points, p.length = 3) ∨ (m.dim = 2 ∧ ∀ p ∈ m.points, p.length = 2))
  cells : ∀ b ∈ m.cells, b.2 ≠ [] ∧ (find meshioToGmsh b.1).isSome ∧
    ∀ r ∈ b.2, Dict.get? numNodesPerCell b.1 = some r.length ∧ ∀ z ∈ r, 0 ≤ z ∧ z < m.points.length
  known : ∀ b ∈ m.cells, KnownType b.1
  tags : ∀ l, m.geometrical = some l ∨ m.physical = some l → Msh4Tags m l
  single : m.dimTags = none → m.cells.length = 1
  ents : ∀ dt, m.dimTags = some dt → dt.length = m.points.length ∧ (∀ e ∈ dt, 0 ≤ e.1 ∧ e.1 ≤ 3 ∧ IsInt 4 e.2) ∧
    m.geometrical.isSome ∧ m.physical.isSome ∧ (m.cells.zipIdx.map (msh4Owner m)).Nodup ∧ ∀ bi ∈ m.cells.zipIdx, msh4Owner m bi ∈ dt
  bounds : ∀ l, m.dimTags.isSome → m.bounding = some l → l.length = m.cells.length ∧
    ∀ bi ∈ m.cells.zipIdx, (0 < dimOf bi.1.1 → ∃ b, l[bi.2]? = some (some b) ∧ b.length < 2 ^ 31 ∧ ∀ z ∈ b, IsInt 4 z)
  pointData : (m.pointData.map (·.1)).Nodup ∧
    ∀ kv ∈ m.pointData, kv.1 ≠ "gmsh:dim_tags" ∧ ('"' ∉ kv.1.toList ∧ '\n' ∉ kv.1.toList) ∧ MshArray m.points.length kv.2
  cellData : (m.cellData.map (·.1)).Nodup ∧
    ∀ kv ∈ m.cellData, (kv.1 ≠ "gmsh:physical" ∧ kv.1 ≠ "gmsh:geometrical") ∧ ('"' ∉ kv.1.toList ∧ '\n' ∉ kv.1.toList) ∧
      kv.2 ≠ [] ∧ kv.2.map (·.rows.length) = m.cells.map (·.2.length) ∧ (∀ a ∈ kv.2, a.tail = (mshConcat kv.2).tail) ∧
      MshArray (m.cells.map fun b => b.2.length).sum (mshConcat kv.2)
  fieldData : (m.fieldData.map (·.1)).Nodup ∧
    ∀ kv ∈ m.fieldData, kv.1 ≠ "gmsh:bounding_entities" ∧ kv.2.length = 2 ∧ '"' ∉ kv.1.toList ∧ '\\' ∉ kv.1.toList ∧ '\n' ∉ kv.1.toList
  periodic : ∀ l, m.periodic = some l → l.length < 2 ^ 31 ∧ ∀ p ∈ l, (IsInt 4 p.dim ∧ IsInt 4 p.slave ∧ IsInt 4 p.master) ∧
    (p.affine.getD []).length < 2 ^ 31 ∧ p.pairs.length < 2 ^ 31 ∧ ∀ q ∈ p.pairs, 0 ≤ q.1 ∧ q.1 < 2 ^ 31 ∧ 0 ≤ q.2 ∧ q.2 < 2 ^ 31
  size : m.points.length < lim ∧ (m.cells.map fun b => b.2.length).sum < lim ∧ m.points.length < 2 ^ 31 ∧
    (m.cells.map fun b => b.2.length).sum < 2 ^ 31 ∧ m.cells.length < 2 ^ 31

/-- Entities in order: by dimension, then by tag. -/
def EntLt (a b : Int × Int) : Prop := a.1 < b.1 ∨ (a.1 = b.1 ∧ a.2 < b.2)

/-- Node `i` is written before node `j`: its entity comes first, or it is the same and `i` is smaller. -/
def Msh4Before (m : In F) (i j : Nat) : Prop :=
  EntLt ((msh4NodeOwners m).getD i (0, 0)) ((msh4NodeOwners m).getD j (0, 0)) ∨
    ((msh4NodeOwners m).getD i (0, 0) = (msh4NodeOwners m).getD j (0, 0) ∧ i < j)

/-- Points of the plane get a zero. -/
def msh4Points (zero : F) (m : In F) : List (List F) := m.points.map fun p => if p.length = 2 then p ++ [zero] else p

/-- The order in which the nodes are written: entity by entity. -/
def msh4Order (m : In F) : List Nat :=
  (pairUnique (msh4NodeOwners m)).flatMap fun e =>
    (List.range m.points.length).filter fun i => decide ((msh4NodeOwners m)[i]? = some e)

/-- The position of node `i` in the file. -/
def msh4Pos (m : In F) (i : Nat) : Nat := (msh4Order m).idxOf i

/-- The blocks that belong to an entity. -/
def msh4Blocks (m : In F) (e : Int × Int) : List ((String × List (List Int)) × Nat) :=
  m.cells.zipIdx.filter fun bi => decide (msh4Owner m bi = e)

/-- The boundary given for block `i`. -/
def msh4Bounds (m : In F) (i : Nat) : List Int := ((m.bounding.bind fun l => l[i]?).bind id).getD []

/-- An entity with the tags of the block that belongs to it. -/
def msh4Entity (zero : F) (m : In F) (e : Int × Int) : Msh4Entity F where
  dim := e.1.toNat
  tag := e.2
  box := List.replicate (if e.1 = 0 then 3 else 6) zero
  phys := (msh4Blocks m e).map fun bi => msh4Tag m.physical bi.2
  bounds := if e.1 = 0 then [] else (msh4Blocks m e).flatMap fun bi => msh4Bounds m bi.2

/-- The blocks of elements from block `ci`, element `start` on. -/
def msh4ElemBlocks (m : In F) : Nat → Nat → List (String × List (List Int)) → List Msh4Block
  | _, _, [] => []
  | ci, start, (t, rows) :: cells =>
    ⟨dimOf t, msh4Tag m.geometrical ci, t, rows.zipIdx.map fun ri => (start + ri.2, ri.1.map fun z => msh4Pos m z.toNat)⟩ ::
      msh4ElemBlocks m (ci + 1) (start + rows.length) cells

/-- A link without a transformation has an empty one. -/
def msh4Periodic (p : Periodic F) : Periodic F := { p with affine := some (p.affine.getD []) }

/-- The file for a mesh, with its names in the order `names`. -/
def msh4File (zero : F) (m : In F) (names : List (Int × Int × List Char)) : Msh4File F where
  pre := if names = [] then [] else [.names names]
  ents := m.dimTags.map fun dt => (pairUnique dt).map (msh4Entity zero m)
  mid0 := []
  nodes := (pairUnique (msh4NodeOwners m)).map fun e => ⟨e.1, e.2,
    ((List.range m.points.length).filter fun i => decide ((msh4NodeOwners m)[i]? = some e)).map fun i =>
      (i + 1, (msh4Points zero m).getD i [])⟩
  nodeRange := (1, m.points.length)
  mid := []
  blocks := msh4ElemBlocks m 0 1 m.cells
  elemRange := (1, (m.cells.map fun b => b.2.length).sum)
  post := m.periodic.toList.map (fun l => .periodic (l.map msh4Periodic)) ++
    (m.pointData.map (fun kv => .nodeData (numbersFrom 1 m.points.length) (mshData kv.1 kv.2)) ++
      m.cellData.map fun kv => .elemData (numbersFrom 1 (m.cells.map fun b => b.2.length).sum) (mshData kv.1 (mshConcat kv.2)))

end Meshio.Spec
