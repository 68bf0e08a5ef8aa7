/-
Whole XDMF files: /repo/src/meshio/xdmf/main.py.  The XML text is read by `parseXml`; the arrays and cells are those of Model/Xdmf.  The
files beside the XDMF file (heavy data) are those of Model/Xdmf, too.
-/
import Verif.Base.Xml
import Verif.Model.Svg
import Verif.Model.Su2
import Verif.Model.Xdmf
namespace Meshio
namespace XdmfFile
open Types Tables Xdmf

variable {F T : Type}

/-- What is assumed of numbers: the text of a float of the given numpy type (`%.7e` or `%.16e`,
/repo/src/meshio/xdmf/common.py:20-27) and its parsing. -/
structure XdmfIO (F : Type) where
  fmt : String → F → List Char
  parse : List Char → Option F

/-- The text of a number, /repo/src/meshio/xdmf/main.py:378-379. -/
def numFmt (io : XdmfIO F) (d : String) : Xdmf.Val F → List Char
  | .int i => fmtInt i
  | .flt x => io.fmt d x

/-- A number of the given numpy type from its text; other text is left out. -/
def numParse (io : XdmfIO F) (d : String) (t : List Char) : Res (Xdmf.Val F) :=
  if d = "float32" ∨ d = "float64" then
    match io.parse t with
    | none => .error .unmodelled
    | some x => .ok (.flt x)
  else
    match parseInt t with
    | none => .error .unmodelled
    | some i => .ok (.int i)

/-! ## Reading -/

/-- A natural number; `-1` and other negative numbers (which `reshape` may accept) are left out. -/
def pyNat (t : List Char) : Res Nat :=
  match Su2.pyInt t with
  | .error e => .error e
  | .ok i => if i < 0 then .error .unmodelled else .ok i.toNat

/-- `dims`, /repo/src/meshio/xdmf/main.py:67. -/
def dimsOf (e : XmlElem) : Res (List Nat) :=
  match e.attr? "Dimensions" with
  | none => .error .attributeError
  | some s => mapRes pyNat (splitWs s.toList)

/-- `data_type`, /repo/src/meshio/xdmf/main.py:69-80. -/
def numberType (e : XmlElem) : Res String :=
  match e.attr? "DataType", e.attr? "NumberType" with
  | some _, some _ => .error .readError
  | some d, none => .ok d
  | none, some d => .ok d
  | none, none => .ok "Float"

/-- The text of an item in XML format, /repo/src/meshio/xdmf/main.py:85-92.  (An element without text has `None` there.) -/
def numbers (io : XdmfIO F) (num : String × String) (text : List Char) : Res (Text F) :=
  match find xdmfToNumpy num with
  | none => .ok .missing
  | some d =>
    if text = [] then .ok .missing
    else
      match mapRes (numParse io d) (splitWs text) with
      | .error e => .error e
      | .ok l => .ok (.numbers l)

/-- The name of heavy data. -/
def pathText (text : List Char) : Text F := if text = [] then .missing else .path text

/-- What a `DataItem` says whose number type is known, /repo/src/meshio/xdmf/main.py:67-103. -/
def itemAs (io : XdmfIO F) (ty : Res String) (e : XmlElem) : Res (Item F) :=
  match dimsOf e with
  | .error x => .error x
  | .ok dims =>
    match ty with
    | .error x => .error x
    | .ok d =>
      match e.attr? "Format" with
      | none => .error .keyError
      | some f =>
        if f = "XML" then
          match numbers io (d, (e.attr? "Precision").getD "4") e.text with
          | .error x => .error x
          | .ok t => .ok ⟨(d, (e.attr? "Precision").getD "4"), dims, .xml, t⟩
        else if f = "Binary" then .ok ⟨(d, (e.attr? "Precision").getD "4"), dims, .binary, pathText e.text⟩
        else if f = "HDF" then .ok ⟨(d, (e.attr? "Precision").getD "4"), dims, .hdf, pathText e.text⟩
        else .error .readError

/-- What a `DataItem` says, /repo/src/meshio/xdmf/main.py:67-103. -/
def itemOf (io : XdmfIO F) (e : XmlElem) : Res (Item F) := itemAs io (numberType e) e

/-- A reference, /repo/src/meshio/xdmf/main.py:58-65, where the callers pass no root: nothing can be read. -/
def reference (r : String) (text : List Char) : Err :=
  if r = "XML" ∧ text = [] then .attributeError
  else if (strip (if r = "XML" then text else r.toList)).head? = some '/' then .attributeError
  else .valueError

/-- `_read_data_item`, /repo/src/meshio/xdmf/main.py:55-118. -/
def readDataItem (io : XdmfIO F) (dir : List Char) (fs : Files F) (e : XmlElem) : Res (Nd F) :=
  match e.attr? "Reference" with
  | some r => .error (reference r e.text)
  | none =>
    match itemOf io e with
    | .error x => .error x
    | .ok it => readItem false dir fs it

/-- `int(child.attrib[k])` -/
def intAttr (e : XmlElem) (k : String) : Res Int :=
  match e.attr? k with
  | none => .error .keyError
  | some s => Su2.pyInt s.toList

/-- One entry of the field data, /repo/src/meshio/xdmf/main.py:123-129. -/
def entry (c : XmlElem) : Res (List Char × Int × Int) :=
  match c.attr? "key" with
  | none => .error .keyError
  | some k =>
    match intAttr c "dim" with
    | .error e => .error e
    | .ok dim =>
      if c.text = [] then .error .readError
      else
        match Su2.pyInt c.text with
        | .error e => .error e
        | .ok num => .ok (k.toList, num, dim)

/-- `read_information`, /repo/src/meshio/xdmf/main.py:120-130, from the text of an `Information` element.  Text that is not XML
(a ParseError) is left out. -/
def readInformation (text : List Char) : Res (List (List Char × Int × Int)) :=
  if text = [] then .error .readError
  else
    match parseXml text with
    | none => .error .unmodelled
    | some root =>
      match mapRes entry root.kids with
      | .error e => .error e
      | .ok l => .ok (l.foldl (fun d e => upd d e.1 e.2) [])

/-- Local variables of the reader, /repo/src/meshio/xdmf/main.py:150-154, 248-252. -/
structure St (F : Type) where
  rst : RSt F
  field : List (List Char × Int × Int)
deriving DecidableEq, Repr

/-- `list(c)`, of which there must be one. -/
def only (l : List XmlElem) : Res XmlElem :=
  match l with
  | [x] => .ok x
  | _ => .error .readError

/-- One of two attributes, /repo/src/meshio/xdmf/main.py:265-270, 278-283. -/
def either (e : XmlElem) (k k' : String) : Res String :=
  match e.attr? k, e.attr? k' with
  | some _, some _ => .error .readError
  | some v, none => .ok v
  | none, some v => .ok v
  | none, none => .error .keyError

/-- The data of the only item in an element. -/
def onlyData (io : XdmfIO F) (dir : List Char) (fs : Files F) (e : XmlElem) : Res (Nd F) :=
  match only e.kids with
  | .error x => .error x
  | .ok x => readDataItem io dir fs x

/-- One element of the grid in version 3, /repo/src/meshio/xdmf/main.py:254-322. -/
def elem3 (io : XdmfIO F) (dir : List Char) (fs : Files F) (s : St F) (c : XmlElem) : Res (St F) :=
  if c.tag = "Topology" then
    match onlyData io dir fs c with
    | .error x => .error x
    | .ok a =>
      match either c "Type" "TopologyType" with
      | .error x => .error x
      | .ok ty =>
        match readTopology s.rst.cells ty a with
        | .error x => .error x
        | .ok cells => .ok { s with rst := { s.rst with cells := cells } }
  else if c.tag = "Geometry" then
    match either c "Type" "GeometryType" with
    | .error x => .error x
    | .ok ty =>
      if ty = "XY" ∨ ty = "XYZ" then
        match onlyData io dir fs c with
        | .error x => .error x
        | .ok a => .ok { s with rst := { s.rst with points := some a } }
      else .error .readError
  else if c.tag = "Information" then
    match readInformation c.text with
    | .error x => .error x
    | .ok d => .ok { s with field := d }
  else if c.tag = "Attribute" then
    match onlyData io dir fs c with
    | .error x => .error x
    | .ok a =>
      match c.attr? "Center" with
      | none => .error .keyError
      | some center =>
        if center = "Node" ∨ center = "Cell" then
          match c.attr? "Name" with
          | none => .error .keyError
          | some n =>
            if center = "Node" then .ok { s with rst := { s.rst with pd := upd s.rst.pd n.toList a } }
            else .ok { s with rst := { s.rst with cdRaw := upd s.rst.cdRaw n.toList a } }
        else .error .readError
  else .error .readError

/-- An integer; other text is left out. -/
def plainInt (t : List Char) : Res Int :=
  match parseInt t with
  | none => .error .unmodelled
  | some i => .ok i

/-- The numbers of a Mixed topology in version 2, /repo/src/meshio/xdmf/main.py:173-180: `np.fromstring(text, int, count, " ")`.  What
numpy does if there are fewer numbers than `count` is left out. -/
def mixed2 (x : XmlElem) : Res (List Int) :=
  match x.attr? "Dimensions" with
  | none => .error .typeError
  | some s =>
    match Su2.pyInt s.toList with
    | .error e => .error e
    | .ok n =>
      if x.text = [] then .error .typeError
      else if n < 0 then mapRes plainInt (splitWs x.text)
      else if (splitWs x.text).length < n.toNat then .error .unmodelled
      else mapRes plainInt ((splitWs x.text).take n.toNat)

/-- One element of the grid in version 2, /repo/src/meshio/xdmf/main.py:156-221. -/
def elem2 (io : XdmfIO F) (dir : List Char) (fs : Files F) (s : St F) (c : XmlElem) : Res (St F) :=
  if c.tag = "Topology" then
    match only c.kids with
    | .error x => .error x
    | .ok x =>
      match c.attr? "TopologyType" with
      | none => .error .keyError
      | some ty =>
        if ty = "Mixed" then
          match mixed2 x with
          | .error x => .error x
          | .ok l =>
            match translateMixed l with
            | .error x => .error x
            | .ok cells => .ok { s with rst := { s.rst with cells := cells } }
        else
          match readDataItem io dir fs x with
          | .error x => .error x
          | .ok a =>
            match readTopology s.rst.cells ty a with
            | .error x => .error x
            | .ok cells => .ok { s with rst := { s.rst with cells := cells } }
  else if c.tag = "Geometry" then
    if (c.attr? "GeometryType").getD "XYZ" ≠ "XYZ" then .error .readError
    else
      match onlyData io dir fs c with
      | .error x => .error x
      | .ok a => .ok { s with rst := { s.rst with points := some a } }
  else if c.tag = "Information" then
    match readInformation c.text with
    | .error x => .error x
    | .ok d => .ok { s with field := d }
  else if c.tag = "Attribute" then
    match onlyData io dir fs c with
    | .error x => .error x
    | .ok a =>
      match c.attr? "Name" with
      | none => .error .keyError
      | some n =>
        match c.attr? "Center" with
        | none => .error .keyError
        | some center =>
          if center = "Node" then .ok { s with rst := { s.rst with pd := upd s.rst.pd n.toList a } }
          else if center = "Cell" then .ok { s with rst := { s.rst with cdRaw := upd s.rst.cdRaw n.toList a } }
          else if center ≠ "Grid" then .error .readError
          else .ok s
  else .error .readError

/-- The grid, /repo/src/meshio/xdmf/main.py:133-145, 234-246. -/
def gridOf (root : XmlElem) : Res XmlElem :=
  match only root.kids with
  | .error e => .error e
  | .ok domain =>
    if domain.tag ≠ "Domain" then .error .readError
    else
      match only domain.kids with
      | .error e => .error e
      | .ok grid => if grid.tag ≠ "Grid" then .error .readError else .ok grid

/-- A mesh with its field data. -/
structure Out (F : Type) where
  mesh : XMesh F
  field : List (List Char × Int × Int)
deriving DecidableEq, Repr

/-- The end, /repo/src/meshio/xdmf/main.py:223-231, 324-332.  A file without points is left out. -/
def finish (s : St F) : Res (Out F) :=
  match s.rst.points with
  | none => .error .unmodelled
  | some p =>
    match checked ⟨p, s.rst.cells, s.rst.pd, s.rst.cdRaw.map fun e => (e.1, splitNd (s.rst.cells.map fun b => b.2.length) e.2)⟩ with
    | .error e => .error e
    | .ok m => .ok ⟨m, s.field⟩

/-- The start. -/
def St.init : St F := ⟨⟨none, [], [], []⟩, []⟩

/-- `read_xdmf2`, /repo/src/meshio/xdmf/main.py:132-231. -/
def readXdmf2 (io : XdmfIO F) (dir : List Char) (fs : Files F) (root : XmlElem) : Res (Out F) :=
  match gridOf root with
  | .error e => .error e
  | .ok grid =>
    if (grid.attr? "GridType").getD "Uniform" ≠ "Uniform" then .error .readError
    else
      match foldRes (elem2 io dir fs) St.init grid.kids with
      | .error e => .error e
      | .ok s => finish s

/-- `read_xdmf3`, /repo/src/meshio/xdmf/main.py:233-332. -/
def readXdmf3 (io : XdmfIO F) (dir : List Char) (fs : Files F) (root : XmlElem) : Res (Out F) :=
  match gridOf root with
  | .error e => .error e
  | .ok grid =>
    match foldRes (elem3 io dir fs) St.init grid.kids with
    | .error e => .error e
    | .ok s => finish s

/-- `version.split(".")[0]` -/
def major (v : String) : List Char := (splitOnC '.' v.toList).headD []

/-- `read` from the root element, /repo/src/meshio/xdmf/main.py:42-53. -/
def readRoot (io : XdmfIO F) (dir : List Char) (fs : Files F) (root : XmlElem) : Res (Out F) :=
  if root.tag ≠ "Xdmf" then .error .readError
  else
    match root.attr? "Version" with
    | none => .error .keyError
    | some v =>
      if major v = ['2'] then readXdmf2 io dir fs root
      else if major v ≠ ['3'] then .error .readError
      else readXdmf3 io dir fs root

/-- `read`, /repo/src/meshio/xdmf/main.py:29-53.  `dir` is the directory of the file, `fs` the other files.  Text that is not XML
(a ParseError) is left out. -/
def read (io : XdmfIO F) (dir : List Char) (fs : Files F) (s : List Char) : Res (Out F) :=
  match parseXml s with
  | none => .error .unmodelled
  | some root => readRoot io dir fs root

/-! ## Writing -/

/-- An attribute as `xml.etree.ElementTree` prints it (characters outside ASCII are left out). -/
def attrText (a : String × List Char) : List Char := ' ' :: (a.1.toList ++ ('=' :: '"' :: (Svg.escAttr a.2 ++ ['"'])))

/-- What follows the attributes: an element without content is closed at once. -/
def closeText (name : String) (content : List Char) : List Char :=
  if content = [] then [' ', '/', '>'] else '>' :: (content ++ ('<' :: '/' :: (name.toList ++ ['>'])))

/-- An element with its content, as `xml.etree.ElementTree` prints it (`write_xml`, /repo/src/meshio/_common.py:99-101). -/
def elemText (name : String) (attrs : List (String × List Char)) (content : List Char) : List Char :=
  '<' :: (name.toList ++ (attrs.flatMap attrText ++ closeText name content))

/-- The value of `Format`. -/
def fmtName : Fmt → String
  | .xml => "XML"
  | .binary => "Binary"
  | .hdf => "HDF"

/-- `np.savetxt` of an array with one or two axes. -/
def saveTxt (io : XdmfIO F) (d : String) (dims : List Nat) (l : List (Xdmf.Val F)) : List Char :=
  (rowsN (prod (dims.drop 1)) (dims.headD 0) l).flatMap fun r => joinWith ' ' (r.map (numFmt io d)) ++ ['\n']

/-- The text of a data item, /repo/src/meshio/xdmf/main.py:375-400. -/
def itemText (io : XdmfIO F) (it : Item F) : List Char :=
  match it.text with
  | .numbers l => '\n' :: saveTxt io ((find xdmfToNumpy it.num).getD "") it.dims l
  | .path s => s
  | .missing => []

/-- A data item, /repo/src/meshio/xdmf/main.py:409-419, 435-445, 479-487, 498-508, 521-531. -/
def itemXml (io : XdmfIO F) (it : Item F) : List Char :=
  elemText "DataItem"
    [("DataType", it.num.1.toList), ("Dimensions", joinWith ' ' (it.dims.map fmtNat)), ("Format", (fmtName it.fmt).toList),
     ("Precision", it.num.2.toList)]
    (Svg.escText (itemText io it))

/-- The attributes of a topology, /repo/src/meshio/xdmf/main.py:427-433, 448-454; `total` is the number of cells. -/
def topologyAttrs (total : Nat) (ty : String) (dims : List Nat) : List (String × List Char) :=
  if ty = "Mixed" then [("TopologyType", ty.toList), ("NumberOfElements", fmtNat total)]
  else [("TopologyType", ty.toList), ("NumberOfElements", fmtNat (dims.headD 0)), ("NodesPerElement", fmtNat ((dims.drop 1).headD 0))]

/-- An element of the grid, /repo/src/meshio/xdmf/main.py:402-531. -/
def gridXml (io : XdmfIO F) (total : Nat) : Elem F T → List Char
  | .geometry ty items => elemText "Geometry" [("GeometryType", ty.toList)] (items.flatMap (itemXml io))
  | .topology ty items => elemText "Topology" (topologyAttrs total ty ((items.head?.map (·.dims)).getD [])) (items.flatMap (itemXml io))
  | .attr name ty center items =>
    elemText "Attribute" [("Name", name), ("AttributeType", ty.toList), ("Center", center.toList)] (items.flatMap (itemXml io))
  | .time _ => []
  | .incl => []

/-- The file, /repo/src/meshio/xdmf/main.py:357-373. -/
def document (io : XdmfIO F) (total : Nat) (grid : List (Elem F T)) : List Char :=
  elemText "Xdmf" [("Version", "3.0".toList)]
    (elemText "Domain" [] (elemText "Grid" [("Name", "Grid".toList)] (grid.flatMap (gridXml io total))))

/-- `write`, /repo/src/meshio/xdmf/main.py:335-373: the files beside it, and the text of the file. -/
def write (io : XdmfIO F) (c : Cfg) (fs : Files F) (m : XMesh F) : Res (Files F × List Char) :=
  match Xdmf.write (T := Unit) c (start c fs) m with
  | .error e => .error e
  | .ok (w, grid) => .ok (w.files, document io (m.cells.map fun b => b.2.length).sum grid)

end XdmfFile
end Meshio
