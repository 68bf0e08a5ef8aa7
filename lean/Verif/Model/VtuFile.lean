/-
Whole VTU files: /repo/src/meshio/vtu/_vtu.py.  XML text is read by `parseXml` and written by the model of
/repo/src/meshio/_cxml/etree.py; the arrays and cells are those of Model/VtuArray and Model/VtuCells.
-/
import Verif.Model.Cxml
import Verif.Model.Dim
import Verif.Model.VtuArray
import Verif.Model.VtuCells
import Verif.Model.VtkFile
import Verif.Model.Su2
namespace Meshio
namespace VtuFile
open Types Tables Vtk Vtu VtkFile

variable {F : Type}

/-- An entry of an array. -/
inductive Num (F : Type) where
  | int (i : Int)
  | flt (x : F)
deriving DecidableEq, Repr

/-- What is assumed of numbers and compressors: the text `{:.11e}` of a float and its parsing, its bytes in either byte order in 4 or 8
bytes, zero, and the compressors (lzma if the flag is set, zlib otherwise). -/
structure VtuIO (F : Type) where
  fmt : F → List Char
  parse : List Char → Option F
  enc : Bool → Nat → F → List Byte
  dec : Bool → List Byte → F
  zero : F
  comp : Bool → List Byte → List Byte
  decomp : Bool → List Byte → Res (List Byte)

/-- `vtu_to_numpy_type`, /repo/src/meshio/vtu/_vtu.py:274-285. -/
def vtuTypes : List (String × String) :=
  [("Float32", "float32"), ("Float64", "float64"), ("Int8", "int8"), ("Int16", "int16"), ("Int32", "int32"), ("Int64", "int64"),
   ("UInt8", "uint8"), ("UInt16", "uint16"), ("UInt32", "uint32"), ("UInt64", "uint64")]

/-- `numpy_to_vtu_type`, /repo/src/meshio/vtu/_vtu.py:286. -/
def vtuName (d : String) : Option String := (vtuTypes.find? fun e => e.2 == d).map (·.1)

/-- `dtype.itemsize` -/
def size (d : String) : Nat :=
  ((([("float32", 4), ("float64", 8), ("int8", 1), ("int16", 2), ("int32", 4), ("int64", 8), ("uint8", 1), ("uint16", 2), ("uint32", 4),
    ("uint64", 8)] : List (String × Nat)).find? fun e => e.1 == d).map (·.2)).getD 0

def isFloat (d : String) : Bool := d == "float32" || d == "float64"

def isUnsigned (d : String) : Bool := d == "uint8" || d == "uint16" || d == "uint32" || d == "uint64"

/-- One number from its bytes. -/
def valDec (io : VtuIO F) (big : Bool) (d : String) (b : List Byte) : Num F :=
  if isFloat d then .flt (io.dec big b) else if isUnsigned d then .int (natDec big b) else .int (intDec big b)

/-- The bytes of a number. -/
def valEnc (io : VtuIO F) (big : Bool) (d : String) : Num F → List Byte
  | .flt x => io.enc big (size d) x
  | .int i => intEnc big (size d) i

/-- The text of a number, /repo/src/meshio/vtu/_vtu.py:700, 748-749. -/
def valFmt (io : VtuIO F) : Num F → List Char
  | .flt x => io.fmt x
  | .int i => fmtInt i

/-- A number from its text. -/
def valParse (io : VtuIO F) (d : String) (t : List Char) : Option (Num F) :=
  if isFloat d then (io.parse t).map .flt else (parseInt t).map .int

/-- What the reader keeps: the compressor (lzma?), the header type, the byte order (that of the machine if the file has none) and the
appended data. -/
structure Cfg where
  lzma : Option Bool
  header : String
  big : Bool
  appended : Option (List Char)
deriving DecidableEq

/-- The size of the header integer, /repo/src/meshio/vtu/_vtu.py:451-456.  Signed and floating header types are left out. -/
def headerSize (h : String) : Res Nat :=
  match find vtuTypes h with
  | none => .error .keyError
  | some d => if isUnsigned d then .ok (size d) else .error .unmodelled

/-- The bytes of an array, /repo/src/meshio/vtu/_vtu.py:544-549. -/
def decodeBytes (io : VtuIO F) (cfg : Cfg) (w isz : Nat) (text : List Char) : Res (List Byte) :=
  match cfg.lzma with
  | none => readUncompressed cfg.big w isz text
  | some l => readCompressed (io.decomp l) cfg.big w isz text

/-- `reader(text, dtype)`, /repo/src/meshio/vtu/_vtu.py:544-549, 447-525. -/
def decode (io : VtuIO F) (cfg : Cfg) (d : String) (text : List Char) : Res (List (Num F)) :=
  match headerSize cfg.header with
  | .error e => .error e
  | .ok w =>
    match decodeBytes io cfg w (size d) text with
    | .error e => .error e
    | .ok bs => .ok ((items (size d) (bs.length / size d) bs).map (valDec io cfg.big d))

/-- One number of the text. -/
def parseOne (io : VtuIO F) (d : String) (t : List Char) : Res (Num F) :=
  match valParse io d t with
  | none => .error .unmodelled
  | some v => .ok v

/-- `np.fromstring(text, dtype, sep=" ")`; text that is not a number is left out. -/
def parseAll (io : VtuIO F) (d : String) (text : List Char) : Res (List (Num F)) :=
  mapRes (parseOne io d) (splitWs text)

/-- `int(s)` of an attribute. -/
def intAttr (e : XmlElem) (k : String) : Res Int :=
  match e.attr? k with
  | none => .error .keyError
  | some s => Su2.pyInt s.toList

/-- The data of an array before `reshape`, /repo/src/meshio/vtu/_vtu.py:527-561.  (An element without text has `None` there.) -/
def readFlat (io : VtuIO F) (cfg : Cfg) (e : XmlElem) : Res (String × List (Num F)) :=
  match e.attr? "type" with
  | none => .error .keyError
  | some t =>
    match find vtuTypes t with
    | none => .error .readError
    | some d =>
      if (e.attr? "format").getD "ascii" = "ascii" then
        if e.text = [] then .error .attributeError
        else if strip e.text = [] then .ok (d, [])
        else (parseAll io d e.text).map fun l => (d, l)
      else if e.attr? "format" = some "binary" then
        if e.text = [] then .error .attributeError
        else (decode io cfg d (strip e.text)).map fun l => (d, l)
      else if e.attr? "format" = some "appended" then
        match intAttr e "offset" with
        | .error x => .error x
        | .ok o =>
          match cfg.appended with
          | none => .error .assertionError
          | some a => if o < 0 then .error .unmodelled else (decode io cfg d (a.drop o.toNat)).map fun l => (d, l)
      else .error .readError

/-- `NumberOfComponents`, unless it is empty (/repo/src/meshio/vtu/_vtu.py:320-321). -/
def components (e : XmlElem) : Option String :=
  if e.tag = "DataArray" ∧ e.attr? "NumberOfComponents" = some "" then none else e.attr? "NumberOfComponents"

/-- `read_data`, /repo/src/meshio/vtu/_vtu.py:527-573. -/
def readData (io : VtuIO F) (cfg : Cfg) (e : XmlElem) : Res (Arr (Num F)) :=
  match readFlat io cfg e with
  | .error x => .error x
  | .ok (d, l) =>
    match components e with
    | none => .ok ⟨d, [], l.map ([·])⟩
    | some s =>
      match Su2.pyInt s.toList with
      | .error x => .error x
      | .ok nc =>
        if nc ≤ 0 ∨ l.length % nc.toNat ≠ 0 then
          match e.attr? "Name" with
          | none => .error .keyError
          | some _ => .error .corruptionError
        else .ok ⟨d, [nc.toNat], rowsN nc.toNat (l.length / nc.toNat) l⟩

/-- `get_grid`, /repo/src/meshio/vtu/_vtu.py:161-184. -/
def getGrid : List XmlElem → Option XmlElem → Option (List Char) → Res (XmlElem × Option (List Char))
  | [], none, _ => .error .readError
  | [], some g, a => .ok (g, a)
  | c :: l, g, a =>
    if c.tag = "UnstructuredGrid" then
      match g with
      | some _ => .error .readError
      | none => getGrid l (some c) a
    else if c.tag ≠ "AppendedData" then .error .readError
    else
      match a with
      | some _ => .error .readError
      | none =>
        match c.attr? "encoding" with
        | none => .error .keyError
        | some enc =>
          if enc ≠ "base64" then .error .readError
          else if c.text = [] then .error .attributeError
          else
            match strip c.text with
            | [] => .error .indexError
            | x :: r => if x ≠ '_' then .error .readError else getGrid l g (some r)

/-- What a section of a piece holds. -/
inductive Sec (F : Type) where
  | points (a : Arr (Num F))
  | cells (c : CellArrays)
  | data (d : Dict (Arr (Num F)))

/-- An integer. -/
def intOf : Num F → Res Int
  | .int i => .ok i
  | .flt _ => .error .unmodelled

/-- The integers of an array.  Floating numbers, negative type numbers and arrays of several components are left out. -/
def intsOf (a : Arr (Num F)) : Res (List Int) :=
  if a.tail ≠ [] ∧ a.tail ≠ [1] then .error .unmodelled
  else mapRes intOf a.rows.flatten

/-- A natural number. -/
def natOf (i : Int) : Res Nat := if i < 0 then .error .unmodelled else .ok i.toNat

/-- The same for natural numbers. -/
def natsOf (a : Arr (Num F)) : Res (List Nat) :=
  match intsOf a with
  | .error e => .error e
  | .ok l => mapRes natOf l

/-- Arrays by name: `d[c.attrib["Name"]] = self.read_data(c)` for the children, which must be `DataArray`s. -/
def namedArrays (io : VtuIO F) (cfg : Cfg) : Dict (Arr (Num F)) → List XmlElem → Res (Dict (Arr (Num F)))
  | d, [] => .ok d
  | d, c :: l =>
    if c.tag ≠ "DataArray" then .error .readError
    else
      match readData io cfg c with
      | .error e => .error e
      | .ok a =>
        match c.attr? "Name" with
        | none => .error .keyError
        | some n => namedArrays io cfg (Dict.set d n a) l

/-- The point data, /repo/src/meshio/vtu/_vtu.py:392-401: an array that does not fit its number of components is left out. -/
def pointArrays (io : VtuIO F) (cfg : Cfg) : Dict (Arr (Num F)) → List XmlElem → Res (Dict (Arr (Num F)))
  | d, [] => .ok d
  | d, c :: l =>
    if c.tag ≠ "DataArray" then .error .readError
    else
      match readData io cfg c with
      | .error e => if e = .corruptionError then pointArrays io cfg d l else .error e
      | .ok a =>
        match c.attr? "Name" with
        | none => .error .keyError
        | some n => pointArrays io cfg (Dict.set d n a) l

/-- One of the arrays that may be missing. -/
def optional {α : Type} (f : Arr (Num F) → Res α) (a : Option (Arr (Num F))) : Res (Option α) :=
  match a with
  | none => .ok none
  | some a => (f a).map some

/-- The arrays of the cells, /repo/src/meshio/vtu/_vtu.py:376-390.  A missing `connectivity` is a KeyError later on. -/
def cellSection (d : Dict (Arr (Num F))) (numCells : Int) : Res CellArrays :=
  match Dict.get? d "offsets", Dict.get? d "types" with
  | some o, some t =>
    if (o.rows.length : Int) ≠ numCells ∨ (t.rows.length : Int) ≠ numCells then .error .readError
    else
      match Dict.get? d "connectivity" with
      | none => .error .keyError
      | some c =>
        match intsOf c, intsOf o, natsOf t, optional intsOf (Dict.get? d "faces"), optional natsOf (Dict.get? d "faceoffsets") with
        | .ok c, .ok o, .ok t, .ok f, .ok fo => .ok ⟨c, o, t, f, fo⟩
        | _, _, _, _, _ => .error .unmodelled
  | _, _ => .error .keyError

/-- The points, /repo/src/meshio/vtu/_vtu.py:361-374.  Negative numbers are left out. -/
def pointSection (io : VtuIO F) (cfg : Cfg) (kids : List XmlElem) (numPoints : Int) : Res (Arr (Num F)) :=
  match kids with
  | [c] =>
    if c.tag ≠ "DataArray" then .error .readError
    else
      match readData io cfg c with
      | .error e => .error e
      | .ok a =>
        match components c with
        | none => .error .keyError
        | some s =>
          match Su2.pyInt s.toList with
          | .error e => .error e
          | .ok nc =>
            if nc < 0 ∨ numPoints < 0 then .error .unmodelled
            else (reshape numPoints.toNat nc.toNat a.rows.flatten).map fun r => ⟨a.dtype, [nc.toNat], r⟩
  | _ => .error .readError

/-- One section of a piece, /repo/src/meshio/vtu/_vtu.py:360-411. -/
def readSec (io : VtuIO F) (cfg : Cfg) (numPoints numCells : Int) (c : XmlElem) : Res (String × Sec F) :=
  if c.tag = "Points" then (pointSection io cfg c.kids numPoints).map fun a => (c.tag, .points a)
  else if c.tag = "Cells" then
    match namedArrays io cfg [] c.kids with
    | .error e => .error e
    | .ok d => (cellSection d numCells).map fun a => (c.tag, .cells a)
  else if c.tag = "PointData" then (pointArrays io cfg [] c.kids).map fun d => (c.tag, .data d)
  else if c.tag = "CellData" then (namedArrays io cfg [] c.kids).map fun d => (c.tag, .data d)
  else .error .readError

/-- A piece. -/
structure PieceArrs (F : Type) where
  numCells : Nat
  points : Option (Arr (Num F))
  cells : Option CellArrays
  pointData : Option (Dict (Arr (Num F)))
  cellData : Option (Dict (Arr (Num F)))

def Sec.points? : Sec F → Option (Arr (Num F))
  | .points a => some a
  | _ => none

def Sec.cells? : Sec F → Option CellArrays
  | .cells c => some c
  | _ => none

def Sec.data? : Sec F → Option (Dict (Arr (Num F)))
  | .data d => some d
  | _ => none

/-- One piece, /repo/src/meshio/vtu/_vtu.py:351-411.  A piece in which a section occurs twice is left out. -/
def readPiece (io : VtuIO F) (cfg : Cfg) (p : XmlElem) : Res (PieceArrs F) :=
  match intAttr p "NumberOfPoints", intAttr p "NumberOfCells" with
  | .ok np, .ok nc =>
    match mapRes (readSec io cfg np nc) p.kids with
    | .error e => .error e
    | .ok secs =>
      if ¬ (secs.map (·.1)).Nodup then .error .unmodelled
      else .ok ⟨nc.toNat, (Dict.get? secs "Points").bind Sec.points?, (Dict.get? secs "Cells").bind Sec.cells?,
        (Dict.get? secs "PointData").bind Sec.data?, (Dict.get? secs "CellData").bind Sec.data?⟩
  | .error e, _ => .error e
  | _, .error e => .error e

/-- The data without types and shapes. -/
def rowsOnly (d : Dict (Arr (Num F))) : Dict (List (List (Num F))) := d.map fun kv => (kv.1, kv.2.rows)

/-- The piece for the function that merges the pieces. -/
def PieceArrs.rows (p : PieceArrs F) : PieceIn (List (Num F)) (List (Num F)) :=
  ⟨p.numCells, p.points.map (·.rows), p.cells, p.pointData.map rowsOnly, p.cellData.map rowsOnly⟩

/-- Do arrays have one shape and one type?  `np.concatenate` refuses different shapes; different types (numpy takes a common one) are
left out. -/
def sameKind : List (Arr (Num F)) → Res Unit
  | [] => .ok ()
  | a :: l =>
    if l.any (fun b => decide (b.tail ≠ a.tail)) then .error .valueError
    else if l.any (fun b => decide (b.dtype ≠ a.dtype)) then .error .unmodelled
    else .ok ()

/-- The mesh that is read: cells with node numbers, all arrays with type and shape. -/
structure Out (F : Type) where
  points : Arr (Num F)
  cells : List VtuBlock
  pointData : Dict (Arr (Num F))
  cellData : Dict (List (Arr (Num F)))
  fieldData : Dict (Arr (Num F))
deriving DecidableEq

/-- Number of cells of a block. -/
def blockLen : VtuBlock → Nat
  | .rows _ d => d.length
  | .poly _ d => d.length

def blockType : VtuBlock → String
  | .rows t _ => t
  | .poly t _ => t

/-- The constructor of the mesh, /repo/src/meshio/_mesh.py:120-187. -/
def build (m : Out F) : Res (Out F) :=
  if !(m.cells.all fun b => hasDim (blockType b)) then .error .keyError
  else if m.pointData.any (fun kv => decide (kv.2.rows.length ≠ m.points.rows.length)) then .error .valueError
  else if m.cellData.any (fun kv => decide (kv.2.map (·.rows.length) ≠ m.cells.map blockLen)) then .error .valueError
  else .ok m

/-- Types and shapes for merged point data. -/
def pointArrs (first : Dict (Arr (Num F))) (d : Dict (List (List (Num F)))) : Dict (Arr (Num F)) :=
  d.map fun kv => (kv.1, ⟨((Dict.get? first kv.1).map (·.dtype)).getD "", ((Dict.get? first kv.1).map (·.tail)).getD [], kv.2⟩)

/-- The pieces together, /repo/src/meshio/vtu/_vtu.py:413-445 and 576-584.  The cell data are those of the last piece. -/
def merge (pieces : List (PieceArrs F)) (fields : Dict (Arr (Num F))) : Res (Out F) :=
  match readPieces (pieces.map PieceArrs.rows) with
  | .error e => .error e
  | .ok (pts, pd, cells, cd) =>
    match sameKind (pieces.filterMap (·.points)),
      mapRes (fun k => sameKind ((pieces.filterMap (·.pointData)).filterMap fun d => Dict.get? d k))
        (((pieces.filterMap (·.pointData)).head?.getD []).map (·.1)) with
    | .ok _, .ok _ =>
      match pieces.filterMap (·.points) with
      | [] => .error .readError
      | p :: _ =>
        build ⟨⟨p.dtype, p.tail, pts⟩, cells, pointArrs ((pieces.filterMap (·.pointData)).head?.getD []) (pd.getD []),
          VtkFile.cellArrays ((pieces.filterMap (·.cellData)).getLast?.getD []) cd, fields⟩
    | .error e, _ => .error e
    | _, .error e => .error e

/-- The field data, /repo/src/meshio/vtu/_vtu.py:342-345. -/
def fieldArrays (io : VtuIO F) (cfg : Cfg) : Dict (Arr (Num F)) → List XmlElem → Res (Dict (Arr (Num F)))
  | d, [] => .ok d
  | d, c :: l =>
    match readData io cfg c with
    | .error e => .error e
    | .ok a =>
      match c.attr? "Name" with
      | none => .error .keyError
      | some n => fieldArrays io cfg (Dict.set d n a) l

/-- The grid, /repo/src/meshio/vtu/_vtu.py:337-445. -/
def readGrid (io : VtuIO F) (cfg : Cfg) (g : XmlElem) : Res (Out F) :=
  if g.kids.any (fun c => decide (c.tag ≠ "Piece" ∧ c.tag ≠ "FieldData")) then .error .readError
  else
    match fieldArrays io cfg [] ((g.kids.filter fun c => decide (c.tag = "FieldData")).flatMap (·.kids)) with
    | .error e => .error e
    | .ok fields =>
      match mapRes (readPiece io cfg) (g.kids.filter fun c => decide (c.tag = "Piece")) with
      | .error e => .error e
      | .ok pieces => merge pieces fields

/-- The attributes of the file, /repo/src/meshio/vtu/_vtu.py:308-335; `sysBig` is the byte order of the machine. -/
def readCfg (sysBig : Bool) (root : XmlElem) : Res (Option Bool × String × Bool) :=
  if root.tag ≠ "VTKFile" then .error .readError
  else
    match root.attr? "type" with
    | none => .error .keyError
    | some t =>
      if t ≠ "UnstructuredGrid" then .error .readError
      else if (root.attr? "version").any (fun v => decide (v ≠ "0.1" ∧ v ≠ "1.0")) then .error .readError
      else if (root.attr? "compressor").any (fun c => decide (c ≠ "vtkLZMADataCompressor" ∧ c ≠ "vtkZLibDataCompressor")) then
        .error .assertionError
      else if (root.attr? "byte_order").any (fun b => decide (b ≠ "LittleEndian" ∧ b ≠ "BigEndian")) then .error .readError
      else .ok ((root.attr? "compressor").map fun c => decide (c = "vtkLZMADataCompressor"), (root.attr? "header_type").getD "UInt32",
        ((root.attr? "byte_order").map fun b => decide (b = "BigEndian")).getD sysBig)

/-- `VtuReader.__init__` and `read` for a parsed document, /repo/src/meshio/vtu/_vtu.py:295-445, 576-584. -/
def readRoot (io : VtuIO F) (sysBig : Bool) (root : XmlElem) : Res (Out F) :=
  match readCfg sysBig root with
  | .error e => .error e
  | .ok (c, h, b) =>
    match getGrid root.kids none none with
    | .error e => .error e
    | .ok (g, a) => readGrid io ⟨c, h, b, a⟩ g

/-- `read`, /repo/src/meshio/vtu/_vtu.py:301-306, 576-584.  A file that is not XML (raw appended data, `_parse_raw_binary`) is left out
here; the conversion of its arrays is in Model/VtuArray. -/
def read (io : VtuIO F) (sysBig : Bool) (s : List Char) : Res (Out F) :=
  match parseXml s with
  | none => .error .unmodelled
  | some root => readRoot io sysBig root

/-! ### Writer -/

/-- Cell blocks of the mesh to be written. -/
inductive InBlock where
  | rows (b : Blk2)
  | poly (type : String) (cells : List PolyCell)
deriving DecidableEq

/-- The mesh to be written (without sets); `idx` is the dtype of the node numbers. -/
structure In (F : Type) where
  points : Arr (Num F)
  cells : List InBlock
  idx : String
  pointData : Dict (Arr (Num F))
  cellData : Dict (List (Arr (Num F)))

/-- How to write: `binary`, `compression`, `header_type`, and the byte order of the machine. -/
structure Opts where
  binary : Bool
  compression : Option String
  header : Option String
  sysBig : Bool

/-- The bytes of an array. -/
def arrBytes (io : VtuIO F) (big : Bool) (a : Arr (Num F)) : List Byte := a.rows.flatten.flatMap (valEnc io big a.dtype)

/-- `compressions`, /repo/src/meshio/vtu/_vtu.py:661-664. -/
def compressions : List (String × Bool) := [("lzma", true), ("zlib", false)]

/-- The text of an array, /repo/src/meshio/vtu/_vtu.py:706-758. -/
def arrText (io : VtuIO F) (o : Opts) (a : Arr (Num F)) : Res (List Char) :=
  if o.binary then
    match headerSize (o.header.getD "UInt32") with
    | .error e => .error e
    | .ok w =>
      match o.compression with
      | none => .ok (writeUncompressed o.sysBig w (arrBytes io o.sysBig a))
      | some c =>
        match find compressions c with
        | none => .error .assertionError
        | some l => .ok (writeCompressed (io.comp l) o.sysBig w (arrBytes io o.sysBig a))
  else .ok (a.rows.flatten.flatMap fun v => valFmt io v ++ ['\n'])

/-- The number of components of a two-dimensional array, /repo/src/meshio/vtu/_vtu.py:702-703. -/
def compAttr : List Nat → List (String × String)
  | [k] => [("NumberOfComponents", strInt k)]
  | _ => []

/-- `numpy_to_xml_array`, /repo/src/meshio/vtu/_vtu.py:698-761: the attributes and the text of the element. -/
def arrElem (io : VtuIO F) (o : Opts) (name : String) (a : Arr (Num F)) : Res (List (String × String) × List Char) :=
  match vtuName a.dtype with
  | none => .error .keyError
  | some t =>
    match arrText io o a with
    | .error e => .error e
    | .ok x =>
      .ok ([("type", t), ("Name", name)] ++ compAttr a.tail ++ [("format", if o.binary then "binary" else "ascii")], x)

/-- Arrays one after the other. -/
def arrElems (io : VtuIO F) (o : Opts) : List (String × Arr (Num F)) → Res Cxml.Out
  | [] => .ok .nil
  | (n, a) :: l =>
    match arrElem io o n a with
    | .error e => .error e
    | .ok (as, x) => (arrElems io o l).map fun r => .elem "DataArray" as (some x) .nil r

/-- A one-dimensional array of integers. -/
def intArr (d : String) (l : List Int) : Arr (Num F) := ⟨d, [], l.map fun i => [.int i]⟩

/-- `np.column_stack([points, zeros])` for two-dimensional points, /repo/src/meshio/vtu/_vtu.py:618-625. -/
def pad3 (io : VtuIO F) (a : Arr (Num F)) : Arr (Num F) :=
  if a.tail = [2] then ⟨a.dtype, [3], a.rows.map (· ++ [if isFloat a.dtype then .flt io.zero else .int 0])⟩ else a

/-- All blocks as rows, or all as polyhedra, /repo/src/meshio/vtu/_vtu.py:599-613. -/
def rowBlocks : List InBlock → Option (List Blk2)
  | [] => some []
  | .rows b :: l => (rowBlocks l).map (b :: ·)
  | .poly _ _ :: _ => none

def polyBlocks : List InBlock → Option (List (List PolyCell))
  | [] => some []
  | .poly _ c :: l => (polyBlocks l).map (c :: ·)
  | .rows _ :: _ => none

def inLen : InBlock → Nat
  | .rows b => b.rows.length
  | .poly _ c => c.length

/-- The `Cells` section, /repo/src/meshio/vtu/_vtu.py:821-891.  The types have numpy's default integer type; so have all arrays of
polyhedra. -/
def cellArrs (m : In F) : Res (List (String × Arr (Num F))) :=
  if m.cells = [] then .ok []
  else
  match rowBlocks m.cells with
  | some bs =>
    match writeRowsVtu bs with
    | .error e => .error e
    | .ok c => .ok [("connectivity", intArr m.idx c.connectivity), ("offsets", intArr m.idx c.offsets),
        ("types", intArr "int64" (c.types.map Int.ofNat))]
  | none =>
    match polyBlocks m.cells with
    | none => .error .valueError
    | some bs =>
      let c := writePolyVtu bs
      .ok [("connectivity", intArr "int64" c.connectivity), ("offsets", intArr "int64" c.offsets),
        ("types", intArr "int64" (c.types.map Int.ofNat)), ("faces", intArr "int64" (c.faces.getD [])),
        ("faceoffsets", intArr "int64" ((c.faceoffsets.getD []).map Int.ofNat))]

/-- A section with arrays, if there are any. -/
def dataSec (io : VtuIO F) (o : Opts) (tag : String) (l : List (String × Arr (Num F))) (rest : Cxml.Out) : Res Cxml.Out :=
  if l = [] then .ok rest else (arrElems io o l).map fun k => .elem tag [] none k rest

/-- The sections of the piece, /repo/src/meshio/vtu/_vtu.py:814-905. -/
def sections (io : VtuIO F) (o : Opts) (m : In F) : Res Cxml.Out :=
  match VtkFile.cellFields m.cellData with
  | .error e => .error e
  | .ok cd =>
    match cellArrs m with
    | .error e => .error e
    | .ok ca =>
      match dataSec io o "CellData" cd .nil with
      | .error e => .error e
      | .ok k1 =>
        match dataSec io o "PointData" m.pointData k1 with
        | .error e => .error e
        | .ok k2 =>
          match dataSec io o "Cells" ca k2 with
          | .error e => .error e
          | .ok k3 => dataSec io o "Points" [("Points", pad3 io m.points)] k3

/-- The compressor of the file, /repo/src/meshio/vtu/_vtu.py:659-666. -/
def compressorAttr (o : Opts) : Res (List (String × String)) :=
  if o.binary then
    match o.compression with
    | none => .ok []
    | some c =>
      match find compressions c with
      | none => .error .assertionError
      | some l => .ok [("compressor", if l then "vtkLZMADataCompressor" else "vtkZLibDataCompressor")]
  else .ok []

/-- The attributes of the root, /repo/src/meshio/vtu/_vtu.py:644-666. -/
def rootAttrs (o : Opts) : Res (List (String × String)) :=
  (compressorAttr o).map fun c =>
    [("type", "UnstructuredGrid"), ("version", "0.1"), ("byte_order", if o.sysBig then "BigEndian" else "LittleEndian")] ++
      (o.header.map fun h => ("header_type", h)).toList ++ c

/-- `write`, /repo/src/meshio/vtu/_vtu.py:594-909, for a mesh without sets (they become data first, see Model/Effects); `version` is
meshio's version.  (Which of several errors comes first is not modelled.) -/
def write (io : VtuIO F) (version : List Char) (o : Opts) (m : In F) : Res (List Char) :=
  if (rowBlocks m.cells).isNone ∧ (polyBlocks m.cells).isNone then .error .valueError
  else
    match rootAttrs o with
    | .error e => .error e
    | .ok as =>
      match sections io o m with
      | .error e => .error e
      | .ok k =>
        .ok (Cxml.document (.elem "VTKFile" as none (.comment ("This file was created by meshio v".toList ++ version)
          (.elem "UnstructuredGrid" [] none (.elem "Piece" [("NumberOfPoints", strInt m.points.rows.length),
            ("NumberOfCells", strInt (m.cells.map inLen).sum)] none k .nil) .nil)) .nil))

end VtuFile
end Meshio
