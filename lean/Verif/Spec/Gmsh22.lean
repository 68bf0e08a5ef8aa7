/-
What a Gmsh file of version 2.2 says: sections between `$Name` and `$EndName`, as text or in binary form.
-/
import Verif.Model.Gmsh22
import Verif.Spec.Runs
import Verif.Spec.Mesh
import Verif.Base.IdMap
namespace Meshio.Spec
open Types Tables Gmsh Gmsh22

variable {F : Type}

/-- A row of nodes in Gmsh's order (see `C17_gmsh`, `C17_gmsh_conforms`). -/
def gmshRow {α : Type} (t : String) (r : List α) : List α :=
  match reorder gmshGmshOrdering t r with
  | .ok s => s
  | .error _ => []

/-- Gmsh's number of a type (see `C15_gmsh_conforms`, `C16_gmsh`). -/
def gmshCode (t : String) : Nat := (find meshioToGmsh t).getD 0

/-- An element: number, type, tags, and its nodes as positions in the list of nodes, in meshio's order. -/
structure MshElem where
  num : Int
  type : String
  tags : List Int
  row : List Nat

/-- The type is known, the nodes exist, numbers fit in four bytes. -/
structure MshElem.Ok (n : Nat) (e : MshElem) : Prop where
  size : Dict.get? numNodesPerCell e.type = some e.row.length
  code : (find meshioToGmsh e.type).isSome
  nodes : ∀ p ∈ e.row, p < n
  fits : IsInt 4 e.num ∧ ∀ z ∈ e.tags, IsInt 4 z

/-- The numbers of the nodes of an element, when the nodes have the numbers `ids`. -/
def MshElem.nodes (ids : List Int) (e : MshElem) : List Int := gmshRow e.type (e.row.map fun p => ids.getD p 0)

/-- The line of an element: number, type, number of tags, tags, nodes. -/
def MshElem.line (ids : List Int) (e : MshElem) : List Char :=
  joinWith ' ' (([e.num, (gmshCode e.type : Int), (e.tags.length : Int)] ++ e.tags ++ e.nodes ids).map fmtInt)

/-- Elements of one type with the same number of tags in a binary file: type, number of elements, number of tags; then for
each element number, tags, nodes. -/
def mshChunk (ids : List Int) (l : List MshElem) : List Char :=
  match l with
  | [] => []
  | e :: _ =>
    putInts 4 [(gmshCode e.type : Int), (l.length : Int), (e.tags.length : Int)] ++
      l.flatMap fun e => putInts 4 (e.num :: (e.tags ++ e.nodes ids))

/-- The section of elements. -/
def mshElems (ascii : Bool) (ids : List Int) (chunks : List (List MshElem)) : List Char :=
  linesText ["$Elements".toList, fmtNat chunks.flatten.length] ++
    ((if ascii then linesText (chunks.flatten.map (MshElem.line ids)) else chunks.flatMap (mshChunk ids) ++ ['\n']) ++
      linesText ["$EndElements".toList])

/-- The section of nodes: number and three coordinates each. -/
def mshNodes (io : GmshFloat F) (ascii : Bool) (ids : List Int) (points : List (List F)) : List Char :=
  linesText ["$Nodes".toList, fmtNat points.length] ++
    ((if ascii then linesText ((ids.zip points).map fun ip => joinWith ' ' (fmtInt ip.1 :: ip.2.map io.fmt))
      else ((ids.zip points).flatMap fun ip => putInt 4 ip.1 ++ ip.2.flatMap (putF io)) ++ ['\n']) ++
      linesText ["$EndNodes".toList])

/-- A section of data: name and further string tags, real tags (as text), time step and further integers, values. -/
structure MshData (F : Type) where
  name : List Char
  strings : List (List Char)
  reals : List (List Char)
  step : Int
  ints : List Int
  width : Nat
  rows : List (List F)

/-- Names without quotes and line breaks; a row of `width` values for each of the `n` entities. -/
structure MshData.Ok (n : Nat) (d : MshData F) : Prop where
  name : '"' ∉ d.name ∧ '\n' ∉ d.name
  strings : ∀ t ∈ d.strings, '\n' ∉ t
  reals : ∀ t ∈ d.reals, '\n' ∉ t
  rows : d.rows.length = n ∧ ∀ r ∈ d.rows, r.length = d.width

/-- The section of data for the entities with the numbers `nums`. -/
def MshData.text (io : GmshFloat F) (ascii : Bool) (tag : List Char) (nums : List Int) (d : MshData F) : List Char :=
  linesText (['$' :: tag, fmtNat (d.strings.length + 1), '"' :: (d.name ++ ['"'])] ++ d.strings ++ (fmtNat d.reals.length :: d.reals) ++
      (fmtNat (d.ints.length + 3) :: fmtInt d.step :: fmtNat d.width :: fmtNat d.rows.length :: d.ints.map fmtInt)) ++
    ((if ascii then linesText ((nums.zip d.rows).map fun ir => joinWith ' ' (fmtInt ir.1 :: ir.2.map io.repr))
      else ((nums.zip d.rows).flatMap fun ir => putInt 4 ir.1 ++ ir.2.flatMap (putF io)) ++ ['\n']) ++
      linesText ["$End".toList ++ tag])

/-- The data as an array: one dimension if there is one value per entity. -/
def MshData.array (d : MshData F) : NArr (List F) := ⟨if d.width = 1 then [] else [d.width], d.rows⟩

/-- The lines of a periodic link. -/
def mshLink (io : GmshFloat F) (p : Periodic F) : List (List Char) :=
  [joinWith ' ' [fmtInt p.dim, fmtInt p.slave, fmtInt p.master]] ++
  (match p.affine with
    | some a => ["Affine ".toList ++ joinWith ' ' (a.map io.fmt)]
    | none => []) ++
  fmtNat p.pairs.length :: p.pairs.map fun q => joinWith ' ' [fmtInt (q.1 + 1), fmtInt (q.2 + 1)]

/-- A physical name: dimension, number, name. -/
def mshName (e : Int × Int × List Char) : List Char :=
  joinWith ' ' [fmtInt e.1, fmtInt e.2.1, '"' :: (e.2.2 ++ ['"'])]

/-- Sections other than nodes and elements. -/
inductive MshSec (F : Type) where
  | names (l : List (Int × Int × List Char))
  | periodic (l : List (Periodic F))
  | nodeData (d : MshData F)
  | elemData (d : MshData F)
  | other (name : List Char) (lines : List (List Char))

/-- The names of the sections that are understood. -/
def mshKnown : List String := ["PhysicalNames", "Nodes", "Elements", "Periodic", "NodeData", "ElementData"]

/-- Names without quotes, backslashes and line breaks; data for `n` nodes and `k` elements; unknown sections have other
names and end once. -/
def MshSec.Ok (n k : Nat) : MshSec F → Prop
  | .names l => ∀ e ∈ l, '"' ∉ e.2.2 ∧ '\\' ∉ e.2.2 ∧ '\n' ∉ e.2.2
  | .periodic _ => True
  | .nodeData d => d.Ok n
  | .elemData d => d.Ok k
  | .other name lines =>
    IsTok name ∧ String.ofList name ∉ mshKnown ∧ ∀ l ∈ lines, '\n' ∉ l ∧ strip (l ++ ['\n']) ≠ "$End".toList ++ name

/-- The text of a section. -/
def MshSec.text (io : GmshFloat F) (ascii : Bool) (ids nums : List Int) : MshSec F → List Char
  | .names l => linesText (["$PhysicalNames".toList, fmtNat l.length] ++ l.map mshName ++ ["$EndPhysicalNames".toList])
  | .periodic l => linesText (["$Periodic".toList, fmtNat l.length] ++ l.flatMap (mshLink io) ++ ["$EndPeriodic".toList])
  | .nodeData d => d.text io ascii "NodeData".toList ids
  | .elemData d => d.text io ascii "ElementData".toList nums
  | .other name lines => linesText (['$' :: name] ++ lines ++ ["$End".toList ++ name])

/-- A file: sections before the nodes, between nodes and elements, and after them; numbers and coordinates of the nodes;
elements, in binary files in groups. -/
structure MshFile (F : Type) where
  pre : List (MshSec F)
  mid : List (MshSec F)
  post : List (MshSec F)
  ids : List Int
  points : List (List F)
  chunks : List (List MshElem)

def MshFile.elems (f : MshFile F) : List MshElem := f.chunks.flatten

def MshFile.secs (f : MshFile F) : List (MshSec F) := f.pre ++ f.mid ++ f.post

/-- The header. -/
def mshHeader (ascii : Bool) : List Char :=
  linesText ["$MeshFormat".toList, (if ascii then "2.2 0 8".toList else "2.2 1 8".toList)] ++
    ((if ascii then [] else putInt 4 1 ++ ['\n']) ++ linesText ["$EndMeshFormat".toList])

/-- The file. -/
def MshFile.text (io : GmshFloat F) (ascii : Bool) (f : MshFile F) : List Char :=
  mshHeader ascii ++ (f.pre.flatMap (MshSec.text io ascii f.ids (f.elems.map (·.num))) ++
    (mshNodes io ascii f.ids f.points ++ (f.mid.flatMap (MshSec.text io ascii f.ids (f.elems.map (·.num))) ++
      (mshElems ascii f.ids f.chunks ++ f.post.flatMap (MshSec.text io ascii f.ids (f.elems.map (·.num)))))))

def MshSec.name? : MshSec F → List (Int × Int × List Char)
  | .names l => l
  | _ => []

def MshSec.nodeData? : MshSec F → Option (MshData F)
  | .nodeData d => some d
  | _ => none

def MshSec.elemData? : MshSec F → Option (MshData F)
  | .elemData d => some d
  | _ => none

def MshSec.periodic? : MshSec F → Option (List (Periodic F))
  | .periodic l => some l
  | _ => none

def MshFile.names (f : MshFile F) : List (Int × Int × List Char) := f.secs.flatMap MshSec.name?

def MshFile.nodeData (f : MshFile F) : List (MshData F) := f.secs.filterMap MshSec.nodeData?

def MshFile.elemData (f : MshFile F) : List (MshData F) := f.secs.filterMap MshSec.elemData?

/-- All elements have an `i`-th tag. -/
def HasTag (l : List MshElem) (i : Nat) : Prop := l ≠ [] ∧ ∀ e ∈ l, i < e.tags.length

instance (l : List MshElem) (i : Nat) : Decidable (HasTag l i) :=
  decidable_of_iff (l.isEmpty = false ∧ ∀ e ∈ l, i < e.tags.length) (by cases l <;> simp [HasTag])

/-- Node numbers are distinct and positive; elements are known; names are distinct; the first two tags are there for all
elements or for none; data fits. -/
structure MshFile.Ok (lim : Nat) (f : MshFile F) : Prop where
  ids : f.ids.Nodup ∧ ∀ i ∈ f.ids, 1 ≤ i ∧ IsInt 4 i ∧ i.natAbs < lim
  points : f.points ≠ [] ∧ f.points.length = f.ids.length ∧ ∀ p ∈ f.points, p.length = 3
  elems : ∀ e ∈ f.elems, e.Ok f.points.length ∧ e.num.natAbs < lim
  tags : ∀ i, i < 2 → HasTag f.elems i ∨ ∀ e ∈ f.elems, e.tags.length ≤ i
  secs : ∀ x ∈ f.secs, x.Ok f.points.length f.elems.length
  names : (f.names.map fun e => e.2.2).Nodup
  nodeData : (f.nodeData.map (·.name)).Nodup
  elemData : (f.elemData.map (·.name)).Nodup ∧ "gmsh:physical".toList ∉ f.elemData.map (·.name) ∧
    "gmsh:geometrical".toList ∉ f.elemData.map (·.name)
  noElems : f.elems = [] → f.elemData = []

/-- In binary files nodes and elements are numbered from one, elements come in groups of one type and number of tags, and
the number of tags depends on the type only. -/
structure MshFile.Binary (f : MshFile F) : Prop where
  ids : f.ids = numbersFrom 1 f.points.length
  nums : f.elems.map (·.num) = numbersFrom 1 f.elems.length
  chunks : ∀ c ∈ f.chunks, c ≠ [] ∧ IsInt 4 c.length ∧ ∀ e ∈ c, ∀ e' ∈ c, e.type = e'.type
  tags : ∀ e ∈ f.elems, ∀ e' ∈ f.elems, e.type = e'.type → e.tags.length = e'.tags.length
  ntags : ∀ e ∈ f.elems, IsInt 4 e.tags.length

/-- The values given to the cells, by block: neighbouring elements of equal type form a block. -/
def MshFile.byBlock {α : Type} (f : MshFile F) (vals : List α) : List (List α) :=
  (groupRuns ((f.elems.map (·.type)).zip vals)).map (·.2)

/-- The `i`-th tags by block, if there are any. -/
def MshFile.tagData (f : MshFile F) (name : String) (i : Nat) : Dict (Cd F) :=
  if HasTag f.elems i then [(name, .tags (f.byBlock (f.elems.map fun e => e.tags.getD i 0)))] else []

/-- The mesh the file describes. -/
def MshFile.mesh (f : MshFile F) : Out F where
  points := f.points
  cells := groupRuns (f.elems.map fun e => (e.type, e.row.map Int.ofNat))
  pointData := f.nodeData.map fun d => (String.ofList d.name, d.array)
  cellData := (f.elemData.map fun d => (String.ofList d.name, .data d.array.tail (f.byBlock d.rows))) ++
    (f.tagData "gmsh:physical" 0 ++ f.tagData "gmsh:geometrical" 1)
  fieldData := f.names.map fun e => (String.ofList e.2.2, e.2.1, e.1)
  periodic := (f.secs.filterMap MshSec.periodic?).getLast?

/-- All types have a dimension in meshio. -/
def MshFile.Known (f : MshFile F) : Prop := ∀ e ∈ f.elems, KnownType e.type

/-- There is no element data, or all blocks but the last have exactly two cells. -/
def MshFile.Split (f : MshFile F) : Prop := f.elemData = [] ∨ ∀ b ∈ f.mesh.cells.dropLast, b.2.length = 2

/-! ### What is written for a mesh -/

/-- The width of the rows of an array. -/
def mshWidth (a : NArr (List F)) : Nat := match a.tail with
  | [] => 1
  | k :: _ => k

/-- An array of at most two dimensions with one, three or nine components, a row for each of the `n` entities. -/
structure MshArray (n : Nat) (a : NArr (List F)) : Prop where
  dims : a.tail.length ≤ 1
  width : mshWidth a = 1 ∨ mshWidth a = 3 ∨ mshWidth a = 9
  rows : a.rows.length = n ∧ ∀ r ∈ a.rows, r.length = mshWidth a

/-- The blocks of an array of cell data put together. -/
def mshConcat (l : List (NArr (List F))) : NArr (List F) := ⟨(l.headD ⟨[], []⟩).tail, (l.map (·.rows)).flatten⟩

/-- Meshes that can be written: points of the plane or of space, blocks of known types whose nodes exist, tags and data that
fit, data with one, three or nine components, names without quotes. -/
structure MshIn (lim : Nat) (m : In F) : Prop where
  points : m.points ≠ [] ∧ ((m.dim = 3 ∧ ∀ p ∈ m.points, p.length = 3) ∨ (m.dim = 2 ∧ ∀ p ∈ m.points, p.length = 2))
  cells : ∀ b ∈ m.cells, b.2 ≠ [] ∧ (find meshioToGmsh b.1).isSome ∧
    ∀ r ∈ b.2, Dict.get? numNodesPerCell b.1 = some r.length ∧ ∀ z ∈ r, 0 ≤ z ∧ z < m.points.length
  known : ∀ b ∈ m.cells, KnownType b.1
  tags : ∀ l ∈ m.physical.toList ++ m.geometrical.toList ++ m.cellTags.toList,
    l.map (·.length) = m.cells.map (·.2.length) ∧ ∀ x ∈ l, ∀ z ∈ x, IsInt 4 z
  pointData : (m.pointData.map (·.1)).Nodup ∧
    ∀ kv ∈ m.pointData, kv.1 ≠ "gmsh:dim_tags" ∧ ('"' ∉ kv.1.toList ∧ '\n' ∉ kv.1.toList) ∧ MshArray m.points.length kv.2
  cellData : (m.cellData.map (·.1)).Nodup ∧
    ∀ kv ∈ m.cellData, (kv.1 ≠ "gmsh:physical" ∧ kv.1 ≠ "gmsh:geometrical") ∧ ('"' ∉ kv.1.toList ∧ '\n' ∉ kv.1.toList) ∧
      kv.2 ≠ [] ∧ kv.2.map (·.rows.length) = m.cells.map (·.2.length) ∧ (∀ a ∈ kv.2, a.tail = (mshConcat kv.2).tail) ∧
      MshArray (rowsOf m.cells).length (mshConcat kv.2)
  fieldData : (m.fieldData.map (·.1)).Nodup ∧
    ∀ kv ∈ m.fieldData, kv.2.length = 2 ∧ '"' ∉ kv.1.toList ∧ '\\' ∉ kv.1.toList ∧ '\n' ∉ kv.1.toList
  size : m.points.length < lim ∧ (rowsOf m.cells).length < lim ∧ m.points.length < 2 ^ 31 ∧ (rowsOf m.cells).length < 2 ^ 31

/-- Points of the plane get a zero. -/
def mshPoints (zero : F) (m : In F) : List (List F) := m.points.map fun p => if p.length = 2 then p ++ [zero] else p

/-- A column of tags by block: those of the mesh, or zeros. -/
def mshTag (m : In F) (l : Option (List (List Int))) : List (List Int) :=
  l.getD (m.cells.map fun b => List.replicate b.2.length 0)

/-- The columns of tags: physical, geometrical, and the others if there are any. -/
def mshTags (m : In F) : List (List Int) :=
  ([mshTag m m.physical, mshTag m m.geometrical] ++ m.cellTags.toList).map List.flatten

/-- The elements of the blocks, from element `start` on: numbers are consecutive from one, the tags are those of the columns. -/
def mshChunks (tags : List (List Int)) : Nat → List (String × List (List Int)) → List (List MshElem)
  | _, [] => []
  | start, (t, rows) :: cells =>
    ((rows.zipIdx start).map fun ri => ⟨1 + (ri.2 : Int), t, tags.map fun c => c.getD ri.2 0, ri.1.map Int.toNat⟩) ::
      mshChunks tags (start + rows.length) cells

/-- An array as a section of data. -/
def mshData (name : String) (a : NArr (List F)) : MshData F := ⟨name.toList, [], ["0.0".toList], 0, [], mshWidth a, a.rows⟩

/-- A named pair of number and dimension. -/
def mshEntry (kv : String × List Int) : Int × Int × List Char := (kv.2.getD 1 0, kv.2.getD 0 0, kv.1.toList)

/-- The file for a mesh, with its names in the order `names`. -/
def mshFile (zero : F) (m : In F) (names : List (Int × Int × List Char)) : MshFile F where
  pre := if names = [] then [] else [.names names]
  mid := []
  post := m.periodic.toList.map .periodic ++ (m.pointData.map (fun kv => .nodeData (mshData kv.1 kv.2)) ++
    m.cellData.map fun kv => .elemData (mshData kv.1 (mshConcat kv.2)))
  ids := numbersFrom 1 m.points.length
  points := mshPoints zero m
  chunks := mshChunks (mshTags m) 0 m.cells

/-- An array as it is read: a second dimension of one is dropped. -/
def mshArrayOut (a : NArr (List F)) : NArr (List F) := ⟨if mshWidth a = 1 then [] else [mshWidth a], a.rows⟩

end Meshio.Spec
