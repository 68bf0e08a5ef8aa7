/-
What Medit files mean, written without reference to the reader and the writer.

Text files are lists of sections; binary files are a header and a list of fields, each field with a keyword number and the
position of the next one.
-/
import Verif.Model.Medit
namespace Meshio.Spec.Medit
open Meshio Medit

variable {F : Type}

/-- Cell types of Medit, with their number of nodes. -/
def nodes (t : String) : Option Nat :=
  if t = "line" then some 2 else if t = "triangle" then some 3 else if t = "quad" then some 4
  else if t = "tetra" then some 4 else if t = "wedge" then some 6 else if t = "pyramid" then some 5
  else if t = "hexahedron" then some 8 else none

/-- Keywords of the cells in text files. -/
def cellKeyword (s : String) : Option String :=
  if s = "Edges" then some "line" else if s = "Triangles" then some "triangle" else if s = "Quadrilaterals" then some "quad"
  else if s = "Tetrahedra" then some "tetra" else if s = "Prisms" then some "wedge" else if s = "Pyramids" then some "pyramid"
  else if s = "Hexahedra" then some "hexahedron" else if s = "Hexaedra" then some "hexahedron" else none

/-- Keyword numbers of the cells in binary files (GMF library). -/
def cellCode (k : Nat) : Option String :=
  if k = 5 then some "line" else if k = 6 then some "triangle" else if k = 7 then some "quad" else if k = 8 then some "tetra"
  else if k = 9 then some "wedge" else if k = 10 then some "hexahedron" else if k = 49 then some "pyramid" else none

/-- A block of cells as meshio presents it: node numbers in the file start at one. -/
def block (t : String) (rows : List (List Int × Int)) : Out1 :=
  ⟨t, rows.map fun r => r.1.map (· - 1), rows.map (·.2)⟩

/-! ## Text -/

/-- A section of a text file.  `rows` of cells are node numbers and a reference. -/
inductive Section (F : Type) where
  | blank
  | comment (text : List Char)
  | version (v : Nat)
  | dimension (d : Nat)
  | dimensionBelow (d : Nat)
  | vertices (rows : List (List F × Int))
  | cells (name : String) (rows : List (List Int × Int))
  /-- `RequiredVertices` etc.: a number of lines -/
  | skipped (name : String) (lines : List (List Char))
  /-- `Identifier`, `Geometry`: one line -/
  | oneLine (name : String) (line : List Char)
  /-- rows of integers that meshio does not use -/
  | ints (name : String) (width : Nat) (rows : List (List Int))
  | corners (l : List Int)
  | normals (rows : List (List F))
  | onEdge (rows : List (List F))
  | finish

/-- The lines of a section; `fmt true` prints a float32, `fmt false` a float64, `sg` tells which of them the file has. -/
def Section.lines (fmt : Bool → F → List Char) (sg : Bool) : Section F → List (List Char)
  | .blank => [[]]
  | .comment t => ['#' :: t]
  | .version v => ["MeshVersionFormatted ".toList ++ fmtNat v]
  | .dimension d => ["Dimension ".toList ++ fmtNat d]
  | .dimensionBelow d => ["Dimension".toList, fmtNat d]
  | .vertices rows => "Vertices".toList :: fmtNat rows.length :: rows.map fun r => joinWith ' ' (r.1.map (fmt sg) ++ [fmtInt r.2])
  | .cells name rows => name.toList :: fmtNat rows.length :: rows.map fun r => joinWith ' ' (r.1.map fmtInt ++ [fmtInt r.2])
  | .skipped name ls => name.toList :: fmtNat ls.length :: ls
  | .oneLine name l => [name.toList, l]
  | .ints name _ rows => name.toList :: fmtNat rows.length :: rows.map fun r => joinWith ' ' (r.map fmtInt)
  | .corners l => "Corners".toList :: fmtNat l.length :: l.map fmtInt
  | .normals rows => "Normals".toList :: fmtNat rows.length :: rows.map fun r => joinWith ' ' (r.map (fmt sg))
  | .onEdge rows => "VertexOnGeometricEdge".toList :: fmtNat rows.length :: rows.map fun r => joinWith ' ' (r.map (fmt false))
  | .finish => ["End".toList]

/-- What is known after some sections: the dimension (0: not given), whether the version was given, and the mesh. -/
structure Known (F : Type) where
  dim : Nat
  version : Bool
  out : Out F
deriving DecidableEq

/-- The meaning of one section; `none` if the section is not well formed at this place. -/
def Section.meaning (sg : Bool) (k : Known F) : Section F → Option (Known F)
  | .blank => some k
  | .comment t => if '\n' ∈ t then none else some k
  | .version v => if v ≤ 2 ∧ (sg = true ↔ v ≤ 1) then some { k with version := true } else none
  | .dimension d => some { k with dim := d }
  | .dimensionBelow d => some { k with dim := d }
  | .vertices rows =>
    if k.version = true ∧ 0 < k.dim ∧ ∀ r ∈ rows, r.1.length = k.dim then
      some { k with out := { k.out with points := some (rows.map (·.1)), pref := some (rows.map (·.2)) } }
    else none
  | .cells name rows =>
    match cellKeyword name with
    | none => none
    | some t => if ∀ r ∈ rows, some r.1.length = nodes t then some { k with out := { k.out with cells := k.out.cells ++ [block t rows] } } else none
  | .skipped name ls =>
    if name ∈ ["RequiredVertices", "TangentAtVertices", "Tangents", "Ridges"] ∧ ∀ l ∈ ls, '\n' ∉ l then some k else none
  | .oneLine name l => if name ∈ ["Identifier", "Geometry"] ∧ '\n' ∉ l then some k else none
  | .ints name w rows =>
    if (name, w) ∈ [("NormalAtVertices", 2), ("SubDomainFromMesh", 4), ("VertexOnGeometricVertex", 2), ("EdgeOnGeometricEdge", 2)] ∧
      ∀ r ∈ rows, r.length = w then some k else none
  | .corners _ => if k.version = true then some k else none
  | .normals rows => if k.version = true ∧ 0 < k.dim ∧ ∀ r ∈ rows, r.length = k.dim then some k else none
  | .onEdge rows => if ∀ r ∈ rows, r.length = 3 then some k else none
  | .finish => some k

/-- The meaning of a file. -/
def meaning (sg : Bool) : Known F → List (Section F) → Option (Known F)
  | k, [] => some k
  | k, s :: l =>
    match s.meaning sg k with
    | none => none
    | some k => meaning sg k l

/-- References and corners are read as floats: they must be small enough to be exact. -/
def Section.Exact (lim : Nat) : Section F → Prop
  | .vertices rows => ∀ r ∈ rows, r.2.natAbs < lim
  | .corners l => ∀ i ∈ l, i.natAbs < lim
  | _ => True

/-- The text of a file. -/
def text (fmt : Bool → F → List Char) (sg : Bool) (l : List (Section F)) : List Char :=
  linesText (l.flatMap (Section.lines fmt sg))

/-! ## Binary -/

/-- Sizes of integers, floats and positions in the four versions of the format. -/
def layout (big : Bool) (version : Nat) : Sizes :=
  ⟨big, if version = 4 then 8 else 4, if version = 1 then 4 else 8, if version ≤ 2 then 4 else 8⟩

/-- Bytes of an item whose template is made of integers `i`, reals `r` and vectors `dr`. -/
def templateSize (z : Sizes) (dim : Nat) : List Char → Option Nat
  | [] => some 0
  | 'i' :: l => (templateSize z dim l).map (z.isz + ·)
  | 'r' :: l => (templateSize z dim l).map (z.fsz + ·)
  | 'd' :: 'r' :: l => (templateSize z dim l).map (z.fsz * dim + ·)
  | _ :: _ => none

/-- A field of a binary file: keyword number, position of the next field, items. -/
inductive Field (F : Type) where
  | vertices (pos : Int) (rows : List (List F × Int))
  | cells (key : Nat) (pos : Int) (rows : List (List Int × Int))
  /-- a keyword meshio does not use, with a count -/
  | counted (key : Nat) (pos : Int) (n : Nat) (body : List Byte)
  /-- a keyword meshio does not use, with a single item -/
  | single (key : Nat) (pos : Int) (body : List Byte)
  /-- a keyword number that is reserved -/
  | reserved (key : Nat)

/-- Bytes of a field. -/
def Field.bytes (io : BinFloat F) (z : Sizes) : Field F → List Byte
  | .vertices pos rows => intEnc z.big 4 4 ++ intEnc z.big z.psz pos ++ intEnc z.big z.isz rows.length ++
      rows.flatMap fun r => r.1.flatMap (io.enc z.big z.fsz) ++ intEnc z.big z.isz r.2
  | .cells key pos rows => intEnc z.big 4 key ++ intEnc z.big z.psz pos ++ intEnc z.big z.isz rows.length ++
      rows.flatMap fun r => r.1.flatMap (intEnc z.big z.isz) ++ intEnc z.big z.isz r.2
  | .counted key pos n body => intEnc z.big 4 key ++ intEnc z.big z.psz pos ++ intEnc z.big z.isz n ++ body
  | .single key pos body => intEnc z.big 4 key ++ intEnc z.big z.psz pos ++ body
  | .reserved key => intEnc z.big 4 key

/-- The meaning of a field. -/
def Field.meaning (io : BinFloat F) (z : Sizes) (m : Out F) : Field F → Out F
  | .vertices _ rows => { m with points := some (rows.map fun r => r.1.map (io.rnd z.fsz)), pref := some (rows.map (·.2)) }
  | .cells key _ rows => { m with cells := m.cells ++ [block ((cellCode key).getD "") rows] }
  | .counted .. => m
  | .single .. => m
  | .reserved _ => m

/-- A field is well formed: rows have the right length and numbers fit into their bytes. -/
def Field.Ok (z : Sizes) (dim : Nat) : Field F → Prop
  | .vertices _ rows => IsInt z.isz rows.length ∧ ∀ r ∈ rows, r.1.length = dim ∧ IsInt z.isz r.2
  | .cells key _ rows => (cellCode key).isSome = true ∧ IsInt z.isz rows.length ∧
      ∀ r ∈ rows, some r.1.length = (cellCode key).bind nodes ∧ (∀ v ∈ r.1, IsInt z.isz v) ∧ IsInt z.isz r.2
  | .counted key _ n body => key ≠ 4 ∧ cellCode key = none ∧ IsInt z.isz n ∧
      ∃ e, Types.find Tables.medit_codes key = some e ∧ e.1 ≠ "GmfReserved" ∧ e.1 ≠ "GmfEnd" ∧ e.2.1 = "i" ∧
        (templateSize z dim e.2.2.toList).map (n * ·) = some body.length
  | .single key _ body => key ≠ 4 ∧ cellCode key = none ∧
      ∃ e, Types.find Tables.medit_codes key = some e ∧ e.1 ≠ "GmfReserved" ∧ e.1 ≠ "GmfEnd" ∧ e.2.1 = "" ∧
        templateSize z dim e.2.2.toList = some body.length
  | .reserved key => key ∈ [0, 2, 11, 12, 51]

/-- Code, version and dimension. -/
def header (z : Sizes) (version dim : Nat) (pos : Int) : List Byte :=
  intEnc z.big 4 1 ++ intEnc z.big 4 version ++ intEnc z.big 4 3 ++ intEnc z.big z.psz pos ++ intEnc z.big 4 dim

/-- The integer of `k` bytes at position `o` of a little-endian file. -/
def intAt (k o : Nat) (file : List Byte) : Int := intDec false ((file.drop o).take k)

/-- The positions `o :: l` are linked: at each of them stands a keyword followed by the position of the next one; at the last
one stands the keyword End, and the file ends with its (zero) position. -/
def Linked (file : List Byte) : Nat → List Nat → Prop
  | o, [] => intAt 4 o file = 54 ∧ intAt 8 (o + 4) file = 0 ∧ o + 12 = file.length
  | o, o' :: l => intAt 4 o file ≠ 54 ∧ intAt 8 (o + 4) file = o' ∧ o < o' ∧ o' < file.length ∧ Linked file o' l

instance instDecidableLinked (file : List Byte) : ∀ o l, Decidable (Linked file o l)
  | _, [] => inferInstanceAs (Decidable (_ ∧ _ ∧ _))
  | o, o' :: l => by
    have := instDecidableLinked file o' l
    exact inferInstanceAs (Decidable (_ ∧ _ ∧ _ ∧ _ ∧ _))

/-- The blocks that Medit can hold, each with its references (1 where there are none). -/
def kept (cells : List Blk) (cref : Option (List (List Int))) : List Out1 :=
  (cells.zipIdx.filter fun b => (nodes b.1.type).isSome).map fun b =>
    ⟨b.1.type, b.1.rows, (cref.bind fun l => l[b.2]?).getD (List.replicate b.1.rows.length 1)⟩

end Meshio.Spec.Medit

namespace Meshio.Spec.Medit
open Meshio Medit

variable {F : Type}

/-- Bytes of an integer in a binary file: as in the arrays of cells. -/
def fileInt (cells : List Blk) : Nat := if ∃ b ∈ cells, b.isize = 8 then 8 else 4

/-- A mesh with points in two or three dimensions, blocks of the right width, as many references as points and cells, and
numbers that fit into `isz` bytes. -/
structure Writable (isz dim : Nat) (points : List (List F)) (pref : Option (List Int)) (cells : List Blk)
    (cref : Option (List (List Int))) : Prop where
  h_dim : dim = 2 ∨ dim = 3
  h_points : ∀ p ∈ points, p.length = dim
  h_pref : ∀ l, pref = some l → l.length = points.length ∧ ∀ i ∈ l, IsInt isz i
  h_rows : ∀ b ∈ cells, ∀ n, nodes b.type = some n → ∀ r ∈ b.rows, r.length = n
  h_cref : ∀ l, cref = some l → ∀ (i : Nat) (b : Blk), cells[i]? = some b → ∃ r, l[i]? = some r ∧ r.length = b.rows.length ∧ ∀ v ∈ r, IsInt isz v
  h_nodes : ∀ b ∈ cells, ∀ r ∈ b.rows, ∀ v ∈ r, IsInt isz (v + 1)
  h_npoints : IsInt isz points.length
  h_ncells : ∀ b ∈ cells, IsInt isz b.rows.length

end Meshio.Spec.Medit
