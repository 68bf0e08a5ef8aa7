/-
Whole files of XDMF time series: /repo/src/meshio/xdmf/time_series.py.  The calls of the writer and what they leave behind are those of
Model/XdmfSeries; here are the text that is written when the `with` block is left and the reader from this text.

Simplification: `parseXml` keeps names with their prefix (`ns0:include`) and the attributes that declare prefixes.  The reader looks at
neither.
-/
import Verif.Model.XdmfFile
import Verif.Model.XdmfSeries
namespace Meshio
namespace XdmfFile
open Types Tables Xdmf

variable {F T : Type}

/-- What is assumed of numbers and of times: `str(t)` (/repo/src/meshio/xdmf/time_series.py:308) and `float`
(/repo/src/meshio/xdmf/time_series.py:143). -/
structure SeriesIO (F T : Type) where
  num : XdmfIO F
  fmtTime : T → List Char
  parseTime : List Char → Option T

/-! ## Reading -/

/-- The attribute, where the empty string counts as missing (`if data_item.get(k)`). -/
def truthy (e : XmlElem) (k : String) : Option String :=
  match e.attr? k with
  | none => none
  | some v => if v = "" then none else some v

/-- `data_type`, /repo/src/meshio/xdmf/time_series.py:173-186. -/
def tsNumberType (e : XmlElem) : Res String :=
  match truthy e "DataType", truthy e "NumberType" with
  | some _, some _ => .error .readError
  | some d, none => .ok d
  | none, some d => .ok d
  | none, none => .ok "Float"

/-- `_read_data_item`, /repo/src/meshio/xdmf/time_series.py:170-230. -/
def tsDataItem (io : XdmfIO F) (dir : List Char) (fs : Files F) (e : XmlElem) : Res (Nd F) :=
  match itemAs io (tsNumberType e) e with
  | .error x => .error x
  | .ok it => readItem true dir fs it

/-- The data of the only item in an element. -/
def tsOnly (io : XdmfIO F) (dir : List Char) (fs : Files F) (e : XmlElem) : Res (Nd F) :=
  match only e.kids with
  | .error x => .error x
  | .ok x => tsDataItem io dir fs x

/-- What the constructor of the reader keeps: the steps and the grid with the mesh. -/
structure Opened where
  steps : List XmlElem
  mesh : XmlElem
deriving DecidableEq, Repr

/-- The collection, /repo/src/meshio/xdmf/time_series.py:50-60: the last grid of this kind. -/
def findCollection (grids : List XmlElem) : Res XmlElem :=
  match (grids.filter fun g => g.attr? "GridType" = some "Collection").getLast? with
  | none => .error .readError
  | some g =>
    if g.tag ≠ "Grid" then .error .readError
    else if g.attr? "CollectionType" ≠ some "Temporal" then .error .readError
    else .ok g

/-- The mesh, /repo/src/meshio/xdmf/time_series.py:68-82: the last uniform grid of the domain, or the first one of the collection. -/
def findMesh (grids steps : List XmlElem) : Res XmlElem :=
  match (grids.filter fun g => g.attr? "GridType" = some "Uniform").getLast? with
  | some g => if g.tag ≠ "Grid" then .error .readError else .ok g
  | none =>
    match steps.find? fun g => g.attr? "GridType" = some "Uniform" with
    | some g => if g.tag ≠ "Grid" then .error .readError else .ok g
    | none => .error .readError

/-- `TimeSeriesReader.__init__` from the root element, /repo/src/meshio/xdmf/time_series.py:34-82. -/
def tsOpen (root : XmlElem) : Res Opened :=
  if root.tag ≠ "Xdmf" then .error .readError
  else
    match root.attr? "Version" with
    | none => .error .keyError
    | some v =>
      if major v ≠ ['3'] then .error .readError
      else
        match only root.kids with
        | .error e => .error e
        | .ok domain =>
          if domain.tag ≠ "Domain" then .error .readError
          else
            match findCollection domain.kids with
            | .error e => .error e
            | .ok coll =>
              match findMesh domain.kids coll.kids with
              | .error e => .error e
              | .ok mesh => .ok ⟨coll.kids, mesh⟩

/-- `TimeSeriesReader.__init__`, /repo/src/meshio/xdmf/time_series.py:27-82.  Text that is not XML (a ParseError) is left out. -/
def openSeries (text : List Char) : Res Opened :=
  match parseXml text with
  | none => .error .unmodelled
  | some root => tsOpen root

/-- One element of the mesh grid, /repo/src/meshio/xdmf/time_series.py:97-130. -/
def tsMeshElem (io : XdmfIO F) (dir : List Char) (fs : Files F) (s : Option (Nd F) × List (String × List (List Int))) (c : XmlElem) :
    Res (Option (Nd F) × List (String × List (List Int))) :=
  if c.tag = "Topology" then
    match tsOnly io dir fs c with
    | .error x => .error x
    | .ok a =>
      match either c "Type" "TopologyType" with
      | .error x => .error x
      | .ok ty =>
        match readTopology s.2 ty a with
        | .error x => .error x
        | .ok cells => .ok (s.1, cells)
  else if c.tag = "Geometry" then
    if c.attr? "GeometryType" = none ∨ c.attr? "GeometryType" = some "XY" ∨ c.attr? "GeometryType" = some "XYZ" then
      match tsOnly io dir fs c with
      | .error x => .error x
      | .ok a => .ok (some a, s.2)
    else .error .readError
  else .ok s

/-- `read_points_cells`, /repo/src/meshio/xdmf/time_series.py:92-133. -/
def tsMesh (io : SeriesIO F T) (dir : List Char) (fs : Files F) (o : Opened) : Res (Option (Nd F) × List (String × List (List Int))) :=
  foldRes (tsMeshElem io.num dir fs) (none, []) o.mesh.kids

/-- One element of a step, /repo/src/meshio/xdmf/time_series.py:141-160.  Data without a name is left out. -/
def tsStepElem (io : SeriesIO F T) (dir : List Char) (fs : Files F) (s : DSt F T) (c : XmlElem) : Res (DSt F T) :=
  if c.tag = "Time" then
    match c.attr? "Value" with
    | none => .error .keyError
    | some v =>
      match io.parseTime v.toList with
      | none => .error .valueError
      | some t => .ok { s with t := some t }
  else if c.tag = "Attribute" then
    match tsOnly io.num dir fs c with
    | .error x => .error x
    | .ok a =>
      if c.attr? "Center" = some "Node" ∨ c.attr? "Center" = some "Cell" then
        match c.attr? "Name" with
        | none => .error .unmodelled
        | some n =>
          if c.attr? "Center" = some "Node" then .ok { s with pd := upd s.pd n.toList a }
          else .ok { s with cdRaw := upd s.cdRaw n.toList a }
      else .error .readError
  else .ok s

/-- `read_data(k)`, /repo/src/meshio/xdmf/time_series.py:135-168; `cells` is what `read_points_cells` left (`None` before). -/
def tsStep (io : SeriesIO F T) (dir : List Char) (fs : Files F) (o : Opened) (cells : Option (List (String × List (List Int)))) (k : Nat) :
    Res (T × List (List Char × Nd F) × List (List Char × List (Nd F))) :=
  match o.steps[k]? with
  | none => .error .indexError
  | some g =>
    match foldRes (tsStepElem io dir fs) { t := none, pd := [], cdRaw := [] } g.kids with
    | .error e => .error e
    | .ok d =>
      match cells with
      | none => .error .readError
      | some cs =>
        match d.t with
        | none => .error .readError
        | some t => .ok (t, d.pd, d.cdRaw.map fun e => (e.1, splitNd (cs.map fun b => b.2.length) e.2))

/-! ## Writing -/

/-- The text of a data item, /repo/src/meshio/xdmf/time_series.py:320-339: as text one number a line. -/
def tsItemText (io : XdmfIO F) (it : Item F) : List Char :=
  match it.text with
  | .numbers l => l.flatMap fun v => numFmt io ((find xdmfToNumpy it.num).getD "") v ++ ['\n']
  | .path s => s
  | .missing => []

/-- A data item, /repo/src/meshio/xdmf/time_series.py:352-360, 390-398, 426-434, 447-455, 471-479. -/
def tsItemXml (io : XdmfIO F) (it : Item F) : List Char :=
  elemText "DataItem"
    [("DataType", it.num.1.toList), ("Dimensions", joinWith ' ' (it.dims.map fmtNat)), ("Format", (fmtName it.fmt).toList),
     ("Precision", it.num.2.toList)]
    (Svg.escText (tsItemText io it))

/-- `ptr`, /repo/src/meshio/xdmf/time_series.py:259, 306. -/
def pointer : String := "xpointer(//Grid[@Name=\"mesh\"]/*[self::Topology or self::Geometry])"

/-- An element of a grid; `total` is the number of cells of the call.  The prefix of `include` is the one
`xml.etree.ElementTree` makes up for a namespace it does not know, /repo/src/meshio/xdmf/time_series.py:256, 307. -/
def tsElemXml (io : SeriesIO F T) (total : Nat) : Elem F T → List Char
  | .geometry ty items => elemText "Geometry" [("GeometryType", ty.toList)] (items.flatMap (tsItemXml io.num))
  | .topology ty items => elemText "Topology" [("TopologyType", ty.toList), ("NumberOfElements", fmtNat total)] (items.flatMap (tsItemXml io.num))
  | .attr name ty center items =>
    elemText "Attribute" [("Name", name), ("AttributeType", ty.toList), ("Center", center.toList)] (items.flatMap (tsItemXml io.num))
  | .time t => elemText "Time" [("Value", io.fmtTime t)] []
  | .incl => elemText "ns0:include" [("xpointer", pointer.toList)] []

/-- Is there an `include`? -/
def hasInclude (coll : List (List (Elem F T))) : Bool :=
  coll.any fun g => g.any fun e => match e with | .incl => true | _ => false

/-- The attributes of the root, /repo/src/meshio/xdmf/time_series.py:245, with the namespace in use. -/
def rootAttrs (coll : List (List (Elem F T))) : List (String × List Char) :=
  (if hasInclude coll then [("xmlns:ns0", "http://www.w3.org/2003/XInclude".toList)] else []) ++ [("Version", "3.0".toList)]

/-- A step, /repo/src/meshio/xdmf/time_series.py:303. -/
def stepXml (io : SeriesIO F T) (g : List (Elem F T)) : List Char := elemText "Grid" [] (g.flatMap (tsElemXml io 0))

/-- A mesh, /repo/src/meshio/xdmf/time_series.py:287-289. -/
def meshXml (io : SeriesIO F T) (m : Nat × List (Elem F T)) : List Char :=
  elemText "Grid" [("Name", "mesh".toList), ("GridType", "Uniform".toList)] (m.2.flatMap (tsElemXml io m.1))

/-- The file, /repo/src/meshio/xdmf/time_series.py:245-254, 270; each mesh comes with its number of cells. -/
def seriesDocument (io : SeriesIO F T) (coll : List (List (Elem F T))) (meshes : List (Nat × List (Elem F T))) : List Char :=
  elemText "Xdmf" (rootAttrs coll)
    (elemText "Domain" []
      (elemText "Grid" [("Name", "TimeSeries_meshio".toList), ("GridType", "Collection".toList), ("CollectionType", "Temporal".toList)]
        (coll.flatMap (stepXml io)) ++ meshes.flatMap (meshXml io)))

/-- The numbers of cells of the calls of `write_points_cells`, /repo/src/meshio/xdmf/time_series.py:381, 400. -/
def meshTotals : List (Op F T) → List Nat
  | [] => []
  | .mesh _ cells :: ops => (cells.map fun b => b.2.length).sum :: meshTotals ops
  | .data _ _ _ :: ops => meshTotals ops

/-- A history of calls and the end of the `with` block, /repo/src/meshio/xdmf/time_series.py:261-318: the files beside it, the text of the
file and the exception of each call. -/
def writeSeries (io : SeriesIO F T) (c : Cfg) (fs : Files F) (ops : List (Op F T)) : Files F × List Char × List (Option Err) :=
  let r := run c (begin c fs) ops
  (r.1.w.files, seriesDocument io r.1.coll ((meshTotals ops).zip r.1.meshes), r.2)

end XdmfFile
end Meshio
