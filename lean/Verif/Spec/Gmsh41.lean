/-
What a Gmsh file of version 4.1 says.  The sections of entities, nodes, elements and periodic links are streams of numbers:
in text files separated by white space of any kind, in binary files of four bytes (integers), eight bytes (floats) or as many
bytes as the header says (sizes and numbers of nodes and elements).
-/
import Verif.Model.Gmsh41
import Verif.Spec.Gmsh22
namespace Meshio.Spec
open Types Tables Gmsh Gmsh41

variable {F : Type}

/-- A number in a section. -/
inductive Tok (F : Type) where
  | int (z : Int)
  | size (n : Nat)
  | flt (x : F)

/-- The words that stand for a number. -/
def Tok.Text (io : GmshFloat F) (t : Tok F) (x : List Char) : Prop :=
  IsTok x ∧ match t with
    | .int z => parseInt x = some z
    | .size n => parseInt x = some (n : Int)
    | .flt v => io.parse x = some v

/-- The bytes of a number; sizes have `k` bytes. -/
def Tok.bytes (io : GmshFloat F) (k : Nat) : Tok F → List Char
  | .int z => putInt 4 z
  | .size n => toChars (natEnc false k n)
  | .flt x => putF io x

/-- The number fits in its bytes. -/
def Tok.Fits (k : Nat) : Tok F → Prop
  | .int z => IsInt 4 z
  | .size n => n < 256 ^ k
  | .flt _ => True

/-- The text `s` gives the numbers, perhaps followed by white space; then comes `rest`. -/
def NumStream (io : GmshFloat F) (ascii : Bool) (k : Nat) : List (Tok F) → List Char → List Char → Prop
  | [], s, rest => ∃ w, (∀ c ∈ w, isWs c = true) ∧ s = w ++ rest
  | t :: ts, s, rest =>
    if ascii then
      ∃ w x c s', (∀ c ∈ w, isWs c = true) ∧ t.Text io x ∧ isWs c = true ∧ s = w ++ (x ++ c :: s') ∧
        NumStream io ascii k ts (c :: s') rest
    else t.Fits k ∧ ∃ s', s = t.bytes io k ++ s' ∧ NumStream io ascii k ts s' rest

/-- A geometric entity: dimension, tag, bounding box, physical tags, tags of the entities on its boundary. -/
structure Msh4Entity (F : Type) where
  dim : Nat
  tag : Int
  box : List F
  phys : List Int
  bounds : List Int

/-- Points have three coordinates and no boundary, others a box of six numbers. -/
structure Msh4Entity.Ok (e : Msh4Entity F) : Prop where
  dim : e.dim ≤ 3
  box : e.box.length = if e.dim = 0 then 3 else 6
  bounds : e.dim = 0 → e.bounds = []

def Msh4Entity.toks (e : Msh4Entity F) : List (Tok F) :=
  [.int e.tag] ++ e.box.map .flt ++ [.size e.phys.length] ++ e.phys.map .int ++
    (if e.dim = 0 then [] else [.size e.bounds.length] ++ e.bounds.map .int)

/-- The entities: how many of each dimension, then those of dimension zero, one, two and three. -/
def msh4Entities (l : List (Msh4Entity F)) : List (Tok F) :=
  ([0, 1, 2, 3].map fun d => .size (l.filter fun e => decide (e.dim = d)).length) ++
    [0, 1, 2, 3].flatMap fun d => (l.filter fun e => decide (e.dim = d)).flatMap Msh4Entity.toks

/-- The nodes of one entity: number and coordinates. -/
structure Msh4Nodes (F : Type) where
  dim : Int
  tag : Int
  nodes : List (Nat × List F)

/-- Dimension, tag, "not parametric", number of nodes; their numbers; their coordinates. -/
def Msh4Nodes.toks (b : Msh4Nodes F) : List (Tok F) :=
  [.int b.dim, .int b.tag, .int 0, .size b.nodes.length] ++ b.nodes.map (fun p => .size p.1) ++
    b.nodes.flatMap fun p => p.2.map .flt

/-- The elements of one entity: number, and the nodes as positions among all nodes of the file, in meshio's order. -/
structure Msh4Block where
  dim : Nat
  tag : Int
  type : String
  elems : List (Nat × List Nat)

/-- The type is known, the nodes exist. -/
structure Msh4Block.Ok (n : Nat) (b : Msh4Block) : Prop where
  dim : b.dim ≤ 3
  code : (find meshioToGmsh b.type).isSome
  known : KnownType b.type
  some : b.elems ≠ []
  elems : ∀ e ∈ b.elems, Dict.get? numNodesPerCell b.type = .some e.2.length ∧ ∀ p ∈ e.2, p < n

/-- Dimension, tag, type, number of elements; for each element its number and nodes in Gmsh's order. -/
def Msh4Block.toks (ids : List Nat) (b : Msh4Block) : List (Tok F) :=
  [.int b.dim, .int b.tag, .int (gmshCode b.type), .size b.elems.length] ++
    b.elems.flatMap fun e => (e.1 :: gmshRow b.type (e.2.map fun p => ids.getD p 0)).map .size

/-- A periodic link: dimension, tags, the affine transformation, pairs of nodes (given as number minus one). -/
def msh4Link (p : Periodic F) : List (Tok F) :=
  [.int p.dim, .int p.slave, .int p.master, .size (p.affine.getD []).length] ++ (p.affine.getD []).map .flt ++
    [.size p.pairs.length] ++ p.pairs.flatMap fun q => [.size (q.1 + 1).toNat, .size (q.2 + 1).toNat]

/-- Sections other than entities, nodes and elements; data comes with the numbers of the nodes or elements. -/
inductive Msh4Sec (F : Type) where
  | names (l : List (Int × Int × List Char))
  | periodic (l : List (Periodic F))
  | nodeData (nums : List Int) (d : MshData F)
  | elemData (nums : List Int) (d : MshData F)
  | other (name : List Char) (lines : List (List Char))

/-- The names of the sections that are understood. -/
def msh4Known : List String := ["PhysicalNames", "Entities", "Nodes", "Elements", "Periodic", "NodeData", "ElementData"]

/-- Numbers of nodes or elements in a section of data: in binary files they count from one. -/
def Msh4Nums (lim : Nat) (ascii : Bool) (n : Nat) (nums : List Int) : Prop :=
  nums.length = n ∧ if ascii then ∀ i ∈ nums, i.natAbs < lim else nums = numbersFrom 1 n ∧ n < 2 ^ 31

/-- Names without quotes, backslashes and line breaks; links with a transformation; data for `n` nodes and `k` elements;
unknown sections have other names and end once. -/
def Msh4Sec.Ok (lim : Nat) (ascii : Bool) (n k : Nat) : Msh4Sec F → Prop
  | .names l => ∀ e ∈ l, '"' ∉ e.2.2 ∧ '\\' ∉ e.2.2 ∧ '\n' ∉ e.2.2
  | .periodic l => ∀ p ∈ l, p.affine.isSome ∧ ∀ q ∈ p.pairs, 0 ≤ q.1 ∧ 0 ≤ q.2
  | .nodeData nums d => d.Ok n ∧ Msh4Nums lim ascii n nums
  | .elemData nums d => d.Ok k ∧ Msh4Nums lim ascii k nums
  | .other name lines =>
    IsTok name ∧ String.ofList name ∉ msh4Known ∧ ∀ l ∈ lines, '\n' ∉ l ∧ strip (l ++ ['\n']) ≠ "$End".toList ++ name

/-- A section of numbers between `$Name` and `$EndName`. -/
def NumSec (io : GmshFloat F) (ascii : Bool) (k : Nat) (name : String) (toks : List (Tok F)) (s rest : List Char) : Prop :=
  ∃ b, s = '$' :: name.toList ++ '\n' :: b ∧ NumStream io ascii k toks b ("$End".toList ++ name.toList ++ '\n' :: rest)

/-- The text `s` begins with the section; then comes `rest`. -/
def Msh4Sec.Says (io : GmshFloat F) (ascii : Bool) (k : Nat) (s rest : List Char) : Msh4Sec F → Prop
  | .names l => s = linesText (["$PhysicalNames".toList, fmtNat l.length] ++ l.map mshName ++ ["$EndPhysicalNames".toList]) ++ rest
  | .periodic l => NumSec io ascii k "Periodic" (.size l.length :: l.flatMap msh4Link) s rest
  | .nodeData nums d => s = d.text io ascii "NodeData".toList nums ++ rest
  | .elemData nums d => s = d.text io ascii "ElementData".toList nums ++ rest
  | .other name lines => s = linesText (['$' :: name] ++ lines ++ ["$End".toList ++ name]) ++ rest

/-- Several sections. -/
def msh4Says (io : GmshFloat F) (ascii : Bool) (k : Nat) : List (Msh4Sec F) → List Char → List Char → Prop
  | [], s, rest => s = rest
  | x :: l, s, rest => ∃ s', x.Says io ascii k s s' ∧ msh4Says io ascii k l s' rest

/-- A file: sections before the entities, the entities if any, sections before the nodes, blocks of nodes, sections between
nodes and elements, blocks of elements, and the sections after them; smallest and largest numbers of nodes and elements as they
are given in the file. -/
structure Msh4File (F : Type) where
  pre : List (Msh4Sec F)
  ents : Option (List (Msh4Entity F))
  mid0 : List (Msh4Sec F)
  nodes : List (Msh4Nodes F)
  nodeRange : Nat × Nat
  mid : List (Msh4Sec F)
  blocks : List Msh4Block
  elemRange : Nat × Nat
  post : List (Msh4Sec F)

def Msh4File.ids (f : Msh4File F) : List Nat := f.nodes.flatMap fun b => b.nodes.map (·.1)

def Msh4File.points (f : Msh4File F) : List (List F) := f.nodes.flatMap fun b => b.nodes.map (·.2)

def Msh4File.numElems (f : Msh4File F) : Nat := (f.blocks.map fun b => b.elems.length).sum

def Msh4File.secs (f : Msh4File F) : List (Msh4Sec F) := f.pre ++ f.mid0 ++ f.mid ++ f.post

/-- The header. -/
def msh4Header (ascii : Bool) (k : Nat) : List Char :=
  linesText ["$MeshFormat".toList, (if ascii then "4.1 0 ".toList else "4.1 1 ".toList) ++ fmtNat k] ++
    ((if ascii then [] else putInt 4 1 ++ ['\n']) ++ linesText ["$EndMeshFormat".toList])

/-- The text of the file. -/
def Msh4File.Says (io : GmshFloat F) (ascii : Bool) (k : Nat) (f : Msh4File F) (s : List Char) : Prop :=
  ∃ s1 s2 s3 s4 s5 s6 s7, s = msh4Header ascii k ++ s1 ∧ msh4Says io ascii k f.pre s1 s2 ∧
    (match f.ents with
      | none => s2 = s3
      | some l => NumSec io ascii k "Entities" (msh4Entities l) s2 s3) ∧
    msh4Says io ascii k f.mid0 s3 s4 ∧
    NumSec io ascii k "Nodes" ([.size f.nodes.length, .size f.points.length, .size f.nodeRange.1, .size f.nodeRange.2] ++
      f.nodes.flatMap Msh4Nodes.toks) s4 s5 ∧
    msh4Says io ascii k f.mid s5 s6 ∧
    NumSec io ascii k "Elements" ([.size f.blocks.length, .size f.numElems, .size f.elemRange.1, .size f.elemRange.2] ++
      f.blocks.flatMap (Msh4Block.toks f.ids)) s6 s7 ∧
    msh4Says io ascii k f.post s7 []

def Msh4Sec.name? : Msh4Sec F → List (Int × Int × List Char)
  | .names l => l
  | _ => []

def Msh4Sec.nodeData? : Msh4Sec F → Option (MshData F)
  | .nodeData _ d => some d
  | _ => none

def Msh4Sec.elemData? : Msh4Sec F → Option (MshData F)
  | .elemData _ d => some d
  | _ => none

def Msh4Sec.periodic? : Msh4Sec F → Option (List (Periodic F))
  | .periodic l => some l
  | _ => none

/-- All physical names, and those that come before the elements. -/
def Msh4File.names (f : Msh4File F) : List (Int × Int × List Char) := f.secs.flatMap Msh4Sec.name?

def Msh4File.names0 (f : Msh4File F) : List (Int × Int × List Char) := (f.pre ++ f.mid0 ++ f.mid).flatMap Msh4Sec.name?

def Msh4File.nodeData (f : Msh4File F) : List (MshData F) := f.secs.filterMap Msh4Sec.nodeData?

def Msh4File.elemData (f : Msh4File F) : List (MshData F) := f.secs.filterMap Msh4Sec.elemData?

/-- The entity of a block of elements: of the entities of that dimension and tag, the last one listed. -/
def Msh4File.entity (f : Msh4File F) (b : Msh4Block) : Option (Msh4Entity F) :=
  f.ents.bind fun l => l.reverse.find? fun e => decide (e.dim = b.dim ∧ e.tag = b.tag)

def Msh4File.phys (f : Msh4File F) (b : Msh4Block) : List Int := ((f.entity b).map (·.phys)).getD []

def Msh4File.bounds (f : Msh4File F) (b : Msh4Block) : List Int := ((f.entity b).map (·.bounds)).getD []

/-- Entities exist for all blocks if there are any; node numbers are distinct and positive; elements are known;
the entities of all blocks have physical tags or none; names are distinct and not reserved; data fits. -/
structure Msh4File.Ok (lim : Nat) (ascii : Bool) (k : Nat) (f : Msh4File F) : Prop where
  size : k = 1 ∨ k = 2 ∨ k = 4 ∨ k = 8
  ents : ∀ l, f.ents = some l → (∀ e ∈ l, e.Ok) ∧ ∀ b ∈ f.blocks, (f.entity b).isSome
  nodes : f.ids.Nodup ∧ (∀ i ∈ f.ids, 1 ≤ i) ∧ f.ids ≠ [] ∧ ∀ p ∈ f.points, p.length = 3
  blocks : ∀ b ∈ f.blocks, b.Ok f.points.length
  physical : (∀ b ∈ f.blocks, f.phys b = []) ∨ ∀ b ∈ f.blocks, f.phys b ≠ []
  secs : ∀ x ∈ f.secs, x.Ok lim ascii f.points.length f.numElems
  names : (f.names.map fun e => e.2.2).Nodup ∧ "gmsh:bounding_entities".toList ∉ f.names.map fun e => e.2.2
  nodeData : (f.nodeData.map (·.name)).Nodup ∧ "gmsh:dim_tags".toList ∉ f.nodeData.map (·.name)
  elemData : (f.elemData.map (·.name)).Nodup ∧ "gmsh:physical".toList ∉ f.elemData.map (·.name) ∧
    "gmsh:geometrical".toList ∉ f.elemData.map (·.name)
  noElems : f.blocks = [] → f.elemData = []

/-- The values given to the cells, cut into pieces of these lengths. -/
def cut {α : Type} : List Nat → List α → List (List α)
  | [], _ => []
  | n :: l, v => v.take n :: cut l (v.drop n)

/-- The mesh the file describes: each block of elements is a block of cells, whose tags are those of its entity.  Of several
physical tags the first is kept; all count for the named sets. -/
def Msh4File.mesh (f : Msh4File F) : Out F where
  points := f.points
  cells := f.blocks.map fun b => (b.type, b.elems.map fun e => e.2.map Int.ofNat)
  pointData := f.nodeData.map fun d => (String.ofList d.name, d.array)
  dimTags := f.nodes.flatMap fun b => b.nodes.map fun _ => (b.dim, b.tag)
  cellData := f.elemData.map fun d => (String.ofList d.name, d.array.tail, cut (f.blocks.map fun b => b.elems.length) d.rows)
  physical := if ∀ b ∈ f.blocks, f.phys b = [] then [] else f.blocks.map fun b => b.elems.map fun _ => (f.phys b).headD 0
  geometrical := f.blocks.map fun b => b.elems.map fun _ => b.tag
  fieldData := f.names.map fun e => (String.ofList e.2.2, e.2.1, e.1)
  sets := f.names0.map fun e => (String.ofList e.2.2, f.blocks.map fun b =>
    if e.1 = b.dim ∧ e.2.1 ∈ f.phys b then List.range b.elems.length else [])
  bounding := if f.ents.isSome ∧ f.blocks ≠ [] then some (f.blocks.map fun b => if 0 < b.dim then some (f.bounds b) else none)
    else none
  periodic := (f.secs.filterMap Msh4Sec.periodic?).getLast?

end Meshio.Spec
