/-
What a Gmsh file of version 4.0 says.  Entities and elements are streams of numbers as in version 4.1: integers of four bytes,
floats and sizes of eight.  The nodes of text files stand on lines.  A file is described like one of version 4.1; smallest and
largest numbers are not part of it.
-/
import Verif.Model.Gmsh40
import Verif.Spec.Gmsh41W
namespace Meshio.Spec
open Types Tables Gmsh

variable {F : Type}

/-- Entities have a box of six numbers whatever their dimension; points have no boundary. -/
structure Msh40Entity (e : Msh4Entity F) : Prop where
  dim : e.dim ≤ 3
  box : e.box.length = 6
  bounds : e.dim = 0 → e.bounds = []

/-- Two lists of the same length whose members belong together. -/
def Matched {α β : Type} (R : α → β → Prop) : List α → List β → Prop
  | [], [] => True
  | a :: l, b :: m => R a b ∧ Matched R l m
  | _, _ => False

/-- A line with these numbers. -/
def NumLine (io : GmshFloat F) (toks : List (Tok F)) (line : List Char) : Prop :=
  '\n' ∉ line ∧ Matched (fun t w => t.Text io w) toks (splitWs line)

/-- The lines of a block of nodes: tag, dimension, type of node and number of nodes; for each node number and coordinates. -/
def msh40NodeBlock (bt : Msh4Nodes F × Int) : List (List (Tok F)) :=
  [.int bt.1.tag, .int bt.1.dim, .int bt.2, .size bt.1.nodes.length] :: bt.1.nodes.map fun p => .int p.1 :: p.2.map .flt

/-- The lines of the nodes: number of blocks and of nodes; the blocks. -/
def msh40Nodes (f : Msh4File F) (types : List Int) : List (List (Tok F)) :=
  [.size f.nodes.length, .size f.points.length] :: (f.nodes.zip types).flatMap msh40NodeBlock

/-- The section of nodes: lines, perhaps followed by others, or bytes followed by a line break. -/
def Msh40NodeSec (io : GmshFloat F) (ascii : Bool) (rows : List (List (Tok F))) (s rest : List Char) : Prop :=
  if ascii then
    ∃ ls more, Matched (NumLine io) rows ls ∧ (∀ l ∈ more, '\n' ∉ l ∧ strip (l ++ ['\n']) ≠ "$EndNodes".toList) ∧
      s = linesText (["$Nodes".toList] ++ ls ++ more ++ ["$EndNodes".toList]) ++ rest
  else
    (∀ t ∈ rows.flatten, t.Fits 8) ∧
      s = linesText ["$Nodes".toList] ++ rows.flatten.flatMap (Tok.bytes io 8) ++ linesText [[], "$EndNodes".toList] ++ rest

/-- A block of elements: tag, dimension, type, number of elements; for each element its number and nodes in Gmsh's order. -/
def msh40Block (ids : List Nat) (b : Msh4Block) : List (Tok F) :=
  [.int b.tag, .int b.dim, .int (gmshCode b.type), .size b.elems.length] ++
    b.elems.flatMap fun e => (e.1 :: gmshRow b.type (e.2.map fun p => ids.getD p 0)).map fun (i : Nat) => .int i

/-- The number of pairs of a link in a binary file, or minus one, sixteen numbers and the number of pairs. -/
def msh40LinkHead (io : GmshFloat F) (p : Gmsh22.Periodic F) : List Char :=
  match p.affine with
  | none => putInt 8 p.pairs.length
  | some a => putInt 8 (-1) ++ a.flatMap (putF io) ++ toChars (natEnc false 8 p.pairs.length)

/-- A link in a binary file: dimension and tags; transformation and number of pairs; the pairs. -/
def msh40Link (io : GmshFloat F) (p : Gmsh22.Periodic F) : List Char :=
  putInts 4 [p.dim, p.slave, p.master] ++ msh40LinkHead io p ++ p.pairs.flatMap fun q => putInts 4 [q.1 + 1, q.2 + 1]

/-- The links: in text files as in version 2.2. -/
def msh40Periodic (io : GmshFloat F) (ascii : Bool) (l : List (Gmsh22.Periodic F)) : List Char :=
  linesText ["$Periodic".toList] ++
    (if ascii then linesText (fmtNat l.length :: l.flatMap (mshLink io)) else putInt 4 l.length ++ l.flatMap (msh40Link io) ++ ['\n']) ++
    linesText ["$EndPeriodic".toList]

/-- In binary files the numbers fit in their bytes and transformations have sixteen of them. -/
def Msh40Links (ascii : Bool) (l : List (Gmsh22.Periodic F)) : Prop :=
  ascii = false → l.length < 2 ^ 31 ∧ ∀ p ∈ l, (IsInt 4 p.dim ∧ IsInt 4 p.slave ∧ IsInt 4 p.master) ∧ p.pairs.length < 2 ^ 31 ∧
    (∀ a, p.affine = some a → a.length = 16) ∧ ∀ q ∈ p.pairs, IsInt 4 (q.1 + 1) ∧ IsInt 4 (q.2 + 1)

def Msh40Sec.Ok (lim : Nat) (ascii : Bool) (n k : Nat) : Msh4Sec F → Prop
  | .periodic l => Msh40Links ascii l
  | x => x.Ok lim ascii n k

/-- The text `s` begins with the section; then comes `rest`. -/
def Msh40Sec.Says (io : GmshFloat F) (ascii : Bool) (s rest : List Char) : Msh4Sec F → Prop
  | .periodic l => s = msh40Periodic io ascii l ++ rest
  | x => x.Says io ascii 8 s rest

/-- Several sections. -/
def msh40Says (io : GmshFloat F) (ascii : Bool) : List (Msh4Sec F) → List Char → List Char → Prop
  | [], s, rest => s = rest
  | x :: l, s, rest => ∃ s', Msh40Sec.Says io ascii s s' x ∧ msh40Says io ascii l s' rest

/-- The header. -/
def msh40Header (ascii : Bool) : List Char :=
  linesText ["$MeshFormat".toList, if ascii then "4.0 0 8".toList else "4.0 1 8".toList] ++
    ((if ascii then [] else putInt 4 1 ++ ['\n']) ++ linesText ["$EndMeshFormat".toList])

/-- The text of the file. -/
def Msh40Says (io : GmshFloat F) (ascii : Bool) (f : Msh4File F) (s : List Char) : Prop :=
  ∃ s1 s2 s3 s4 s5 s6 s7 types, s = msh40Header ascii ++ s1 ∧ msh40Says io ascii f.pre s1 s2 ∧
    (match f.ents with
      | none => s2 = s3
      | some l => NumSec io ascii 8 "Entities" (msh4Entities l) s2 s3) ∧
    msh40Says io ascii f.mid0 s3 s4 ∧
    (types.length = f.nodes.length ∧ Msh40NodeSec io ascii (msh40Nodes f types) s4 s5) ∧
    msh40Says io ascii f.mid s5 s6 ∧
    NumSec io ascii 8 "Elements" ([.size f.blocks.length, .size f.numElems] ++ f.blocks.flatMap (msh40Block f.ids)) s6 s7 ∧
    msh40Says io ascii f.post s7 []

/-- Entities exist for all blocks if there are any; node numbers are distinct; elements are known; the entities
of all blocks have physical tags or none; names are distinct; data fits. -/
structure Msh40Ok (lim : Nat) (ascii : Bool) (f : Msh4File F) : Prop where
  ents : ∀ l, f.ents = some l → (∀ e ∈ l, Msh40Entity e) ∧ ∀ b ∈ f.blocks, (f.entity b).isSome
  nodes : f.ids.Nodup ∧ f.ids ≠ [] ∧ ∀ p ∈ f.points, p.length = 3
  blocks : ∀ b ∈ f.blocks, b.Ok f.points.length
  physical : (∀ b ∈ f.blocks, f.phys b = []) ∨ ∀ b ∈ f.blocks, f.phys b ≠ []
  secs : ∀ x ∈ f.secs, Msh40Sec.Ok lim ascii f.points.length f.numElems x
  names : (f.names.map fun e => e.2.2).Nodup
  nodeData : (f.nodeData.map (·.name)).Nodup
  elemData : (f.elemData.map (·.name)).Nodup
  noElems : f.blocks = [] → f.elemData = []

/-- Data of the elements whose name is taken by the tags of the entities. -/
def msh40Hidden (f : Msh4File F) (d : MshData F) : Prop :=
  (d.name = "gmsh:geometrical".toList ∧ f.blocks ≠ []) ∨ (d.name = "gmsh:physical".toList ∧ ∃ b ∈ f.blocks, f.phys b ≠ [])

instance (f : Msh4File F) (d : MshData F) : Decidable (msh40Hidden f d) := by unfold msh40Hidden; infer_instance

/-- The mesh the file describes: each block of elements is a block of cells, whose tags are those of its entity.  Of several
physical tags the first is kept. -/
def msh40Mesh (f : Msh4File F) : Gmsh40.Out F where
  points := f.points
  cells := f.blocks.map fun b => (b.type, b.elems.map fun e => e.2.map Int.ofNat)
  pointData := f.nodeData.map fun d => (String.ofList d.name, d.array)
  cellData := (f.elemData.filter fun d => decide (¬ msh40Hidden f d)).map fun d =>
    (String.ofList d.name, d.array.tail, cut (f.blocks.map fun b => b.elems.length) d.rows)
  physical := if ∀ b ∈ f.blocks, f.phys b = [] then [] else f.blocks.map fun b => b.elems.map fun _ => (f.phys b).headD 0
  geometrical := f.blocks.map fun b => b.elems.map fun _ => b.tag
  fieldData := f.names.map fun e => (String.ofList e.2.2, e.2.1, e.1)
  periodic := (f.secs.filterMap Msh4Sec.periodic?).getLast?

end Meshio.Spec
