/-
What a VTU file says: numbers as text or base64, arrays with their shape, the sections of a piece, the grid and the file.
-/
import Verif.Spec.Vtu
import Verif.Base.All2
import Verif.Model.VtuFile
namespace Meshio.Spec
open Meshio.VtuFile Meshio.VtkFile Meshio.Vtu

variable {F : Type}

/-- The types of numbers: the name in the file, numpy's name, and the bytes per number. -/
def vtuKinds : List (String × String × Nat) :=
  [("Float32", "float32", 4), ("Float64", "float64", 8), ("Int8", "int8", 1), ("Int16", "int16", 2), ("Int32", "int32", 4),
   ("Int64", "int64", 8), ("UInt8", "uint8", 1), ("UInt16", "uint16", 2), ("UInt32", "uint32", 4), ("UInt64", "uint64", 8)]

/-- The bytes that stand for a number of a given type. -/
def VtuBytes (io : VtuIO F) (big : Bool) (d : String) (v : Num F) (b : List Byte) : Prop :=
  match v with
  | .flt x => (d = "float32" ∨ d = "float64") ∧ io.dec big b = x
  | .int i =>
    (d ∈ ["uint8", "uint16", "uint32", "uint64"] ∧ i = natDec big b) ∨ (d ∈ ["int8", "int16", "int32", "int64"] ∧ i = intDec big b)

/-- The text that stands for a number of a given type. -/
def VtuToken (io : VtuIO F) (d : String) (v : Num F) (t : List Char) : Prop :=
  match v with
  | .flt x => (d = "float32" ∨ d = "float64") ∧ io.parse t = some x
  | .int i => (d ≠ "float32" ∧ d ≠ "float64") ∧ parseInt t = some i

/-- The widths of the header integer. -/
def vtuHeaders : List (String × Nat) := [("UInt8", 1), ("UInt16", 2), ("UInt32", 4), ("UInt64", 8)]

/-- Base64 text of uncompressed bytes, possibly followed by further arrays: the number of bytes and the bytes, together or separately. -/
def PlainArray (big : Bool) (w : Nat) (bytes : List Byte) (text : List Char) : Prop :=
  bytes.length < 256 ^ w ∧ ∃ rest : List (List Byte),
    text = b64enc (natEnc big w bytes.length ++ bytes) ++ rest.flatMap b64enc ∨
      text = b64enc (natEnc big w bytes.length) ++ (b64enc bytes ++ rest.flatMap b64enc)

/-- Base64 text of compressed bytes, possibly followed by further arrays: the number of blocks, two numbers about uncompressed blocks, the
sizes of the compressed blocks; then the compressed blocks.  Each block holds whole numbers (`isz` bytes each). -/
def BlockArray (decomp : List Byte → Res (List Byte)) (big : Bool) (w isz : Nat) (bytes : List Byte) (text : List Char) : Prop :=
  ∃ (packed plain : List (List Byte)) (m l : Nat) (rest : List (List Byte)),
    plain ≠ [] ∧ plain.flatten = bytes ∧ All2 (fun c b => decomp c = .ok b) packed plain ∧ (∀ b ∈ plain, b.length % isz = 0) ∧
    (∀ n ∈ packed.length :: m :: l :: packed.map List.length, n < 256 ^ w) ∧ (packed.map List.length).sum < 256 ^ w ∧
    text = b64enc ((packed.length :: m :: l :: packed.map List.length).flatMap (natEnc big w)) ++ (b64enc packed.flatten ++ rest.flatMap b64enc)

/-- Base64 text of numbers. -/
def EncodedNums (io : VtuIO F) (cfg : Cfg) (d : String) (isz : Nat) (vals : List (Num F)) (text : List Char) : Prop :=
  ∃ (w : Nat) (bs : List (List Byte)), (cfg.header, w) ∈ vtuHeaders ∧ (∀ b ∈ bs, b.length = isz) ∧ All2 (VtuBytes io cfg.big d) vals bs ∧
    ((cfg.lzma = none ∧ PlainArray cfg.big w bs.flatten text) ∨
      ∃ l, cfg.lzma = some l ∧ BlockArray (io.decomp l) cfg.big w isz bs.flatten text)

/-- The numbers in a `DataArray`. -/
def HoldsNums (io : VtuIO F) (cfg : Cfg) (e : XmlElem) (d : String) (vals : List (Num F)) : Prop :=
  ∃ t isz, e.attr? "type" = some t ∧ (t, d, isz) ∈ vtuKinds ∧
    (((e.attr? "format" = none ∨ e.attr? "format" = some "ascii") ∧ e.text ≠ [] ∧ All2 (VtuToken io d) vals (splitWs e.text)) ∨
    (e.attr? "format" = some "binary" ∧ e.text ≠ [] ∧ EncodedNums io cfg d isz vals (strip e.text)) ∨
    (e.attr? "format" = some "appended" ∧ ∃ (o : Nat) (s : String) (a : List Char), e.attr? "offset" = some s ∧ strip s.toList = fmtNat o ∧
      cfg.appended = some a ∧ EncodedNums io cfg d isz vals (a.drop o)))

/-- The shape given by `NumberOfComponents`: none or an empty attribute stand for a one-dimensional array. -/
def ShapeSays (e : XmlElem) (a : Arr (Num F)) : Prop :=
  (a.tail = [] ∧ (e.attr? "NumberOfComponents" = none ∨ e.attr? "NumberOfComponents" = some "") ∧ ∀ r ∈ a.rows, r.length = 1) ∨
    ∃ (k : Nat) (s : String), 0 < k ∧ a.tail = [k] ∧ e.attr? "NumberOfComponents" = some s ∧ strip s.toList = fmtNat k ∧
      ∀ r ∈ a.rows, r.length = k

/-- A `DataArray` holds an array. -/
def HoldsArray (io : VtuIO F) (cfg : Cfg) (e : XmlElem) (a : Arr (Num F)) : Prop :=
  e.tag = "DataArray" ∧ HoldsNums io cfg e a.dtype a.rows.flatten ∧ ShapeSays e a

/-- An array of integers. -/
def IntArray (a : Arr (Num F)) (l : List Int) : Prop := (a.tail = [] ∨ a.tail = [1]) ∧ a.rows = l.map fun i => [.int i]

/-- Named arrays in a section. -/
def HoldsDict (io : VtuIO F) (cfg : Cfg) (es : List XmlElem) (d : Dict (Arr (Num F))) : Prop :=
  Dict.Ok d ∧ All2 (fun kv e => e.attr? "Name" = some kv.1 ∧ HoldsArray io cfg e kv.2) d es

/-- An attribute holds a natural number. -/
def NatAttr (e : XmlElem) (k : String) (n : Nat) : Prop := ∃ s, e.attr? k = some s ∧ strip s.toList = fmtNat n

/-- What is in the section of the cells. -/
def CellsSay (d : Dict (Arr (Num F))) (c : CellArrays) : Prop :=
  (∃ a, Dict.get? d "connectivity" = some a ∧ IntArray a c.connectivity) ∧ (∃ a, Dict.get? d "offsets" = some a ∧ IntArray a c.offsets) ∧
  (∃ a, Dict.get? d "types" = some a ∧ IntArray a (c.types.map Int.ofNat)) ∧
  (match c.faces with
    | none => Dict.get? d "faces" = none
    | some f => ∃ a, Dict.get? d "faces" = some a ∧ IntArray a f) ∧
  (match c.faceoffsets with
    | none => Dict.get? d "faceoffsets" = none
    | some f => ∃ a, Dict.get? d "faceoffsets" = some a ∧ IntArray a (f.map Int.ofNat))

/-- A `DataArray` whose numbers do not fit its number of components. -/
def CorruptArray (io : VtuIO F) (cfg : Cfg) (e : XmlElem) : Prop :=
  e.tag = "DataArray" ∧ (e.attr? "Name").isSome ∧ ∃ d vals s k, HoldsNums io cfg e d vals ∧ e.attr? "NumberOfComponents" = some s ∧
    strip s.toList = fmtNat k ∧ (k = 0 ∨ vals.length % k ≠ 0)

/-- The point data: named arrays, among them possibly corrupt ones, which are not in the dictionary. -/
def HoldsSome (io : VtuIO F) (cfg : Cfg) : List XmlElem → Dict (Arr (Num F)) → Prop
  | [], d => d = []
  | e :: es, d => (CorruptArray io cfg e ∧ HoldsSome io cfg es d) ∨
      ∃ kv d', d = kv :: d' ∧ e.attr? "Name" = some kv.1 ∧ HoldsArray io cfg e kv.2 ∧ HoldsSome io cfg es d'

/-- An optional section of arrays. -/
def OptSection (tag : String) (holds : List XmlElem → Dict (Arr (Num F)) → Prop) (es : List XmlElem) (d : Option (Dict (Arr (Num F)))) : Prop :=
  match d with
  | none => es = []
  | some d => ∃ e, es = [e] ∧ e.tag = tag ∧ Dict.Ok d ∧ holds e.kids d

/-- What a piece of a file says. -/
structure VtuPiece (F : Type) where
  points : Arr (Num F)
  cells : CellArrays
  pointData : Option (Dict (Arr (Num F)))
  cellData : Option (Dict (Arr (Num F)))

/-- A piece: points, cells, point data and cell data, in any order. -/
def SaysPiece (io : VtuIO F) (cfg : Cfg) (p : VtuPiece F) (e : XmlElem) : Prop :=
  NatAttr e "NumberOfPoints" p.points.rows.length ∧ NatAttr e "NumberOfCells" p.cells.offsets.length ∧
  p.cells.types.length = p.cells.offsets.length ∧
  ∃ (eP eC : XmlElem) (ePD eCD : List XmlElem), e.kids.Perm (eP :: eC :: (ePD ++ eCD)) ∧
    (eP.tag = "Points" ∧ ∃ a, eP.kids = [a] ∧ HoldsArray io cfg a p.points ∧ p.points.tail ≠ []) ∧
    (eC.tag = "Cells" ∧ ∃ d, HoldsDict io cfg eC.kids d ∧ CellsSay d p.cells) ∧
    OptSection "PointData" (HoldsSome io cfg) ePD p.pointData ∧ OptSection "CellData" (fun es d => HoldsDict io cfg es d) eCD p.cellData

/-- A grid: pieces and field data. -/
def SaysGrid (io : VtuIO F) (cfg : Cfg) (g : XmlElem) (ps : List (VtuPiece F)) (fd : Dict (Arr (Num F))) : Prop :=
  (∀ e ∈ g.kids, e.tag = "Piece" ∨ e.tag = "FieldData") ∧
  All2 (SaysPiece io cfg) ps (g.kids.filter fun e => decide (e.tag = "Piece")) ∧
  HoldsDict io cfg ((g.kids.filter fun e => decide (e.tag = "FieldData")).flatMap (·.kids)) fd

/-- The attributes of the file. -/
def SaysRoot (sysBig : Bool) (root : XmlElem) (cfg : Cfg) : Prop :=
  root.tag = "VTKFile" ∧ root.attr? "type" = some "UnstructuredGrid" ∧
  (root.attr? "version" = none ∨ root.attr? "version" = some "0.1" ∨ root.attr? "version" = some "1.0") ∧
  ((root.attr? "compressor" = none ∧ cfg.lzma = none) ∨ (root.attr? "compressor" = some "vtkLZMADataCompressor" ∧ cfg.lzma = some true) ∨
    (root.attr? "compressor" = some "vtkZLibDataCompressor" ∧ cfg.lzma = some false)) ∧
  ((root.attr? "header_type" = none ∧ cfg.header = "UInt32") ∨ root.attr? "header_type" = some cfg.header) ∧
  ((root.attr? "byte_order" = none ∧ cfg.big = sysBig) ∨ (root.attr? "byte_order" = some "LittleEndian" ∧ cfg.big = false) ∨
    (root.attr? "byte_order" = some "BigEndian" ∧ cfg.big = true))

/-- The appended data: base64 text after an underscore. -/
def SaysAppended (e : XmlElem) (a : List Char) : Prop :=
  e.tag = "AppendedData" ∧ e.attr? "encoding" = some "base64" ∧ e.text ≠ [] ∧ strip e.text = '_' :: a

/-- The whole file: one grid, and possibly appended data before or after it. -/
def SaysVtu (io : VtuIO F) (sysBig : Bool) (root : XmlElem) (ps : List (VtuPiece F)) (fd : Dict (Arr (Num F))) : Prop :=
  ∃ (cfg : Cfg) (g : XmlElem), SaysRoot sysBig root cfg ∧ g.tag = "UnstructuredGrid" ∧ SaysGrid io cfg g ps fd ∧
    ((root.kids = [g] ∧ cfg.appended = none) ∨
      ∃ e a, SaysAppended e a ∧ cfg.appended = some a ∧ (root.kids = [g, e] ∨ root.kids = [e, g]))

end Meshio.Spec
