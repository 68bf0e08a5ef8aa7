/-
XDMF files: /repo/src/meshio/xdmf/common.py and /repo/src/meshio/xdmf/main.py.

The XML syntax is not modelled: a file is the list of its elements with their attributes.  The text of
an XML data item is the list of its numbers (`np.savetxt` and `np.fromstring` are assumed to be inverse
to each other number by number).  Only version 3 files are modelled.
-/
import Verif.Base.Hdf
import Verif.Base.Num
import Verif.Base.File
import Verif.Base.Runs
import Verif.Model.Types
import Verif.Model.Common
import Verif.Model.Dim

namespace Meshio
namespace Xdmf
open Types Tables

/-! ## Mixed topologies -/

/-- How many entries belong to the cell after its code, /repo/src/meshio/xdmf/common.py:138-143;
`next` is the entry after the code. -/
def cellSpan (x : Int) (next : Option Int) : Res Nat :=
  if x < 0 then .error .keyError
  else
    match find xdmfIdxNumNodes x.toNat with
    | none => .error .keyError
    | some n =>
      if x = 2 then
        match next with
        | none => .error .indexError
        | some c => if c ≠ 2 then .error .readError else .ok (n + 1)
      else .ok n

/-- The loop that collects types and offsets, /repo/src/meshio/xdmf/common.py:131-144.  The second
argument is the number of entries still to be skipped, the third the position `r`. -/
def scanMixed : List Int → Nat → Nat → Res (List (Int × Nat))
  | [], _, _ => .ok []
  | _ :: data, k + 1, r => scanMixed data k (r + 1)
  | x :: data, 0, r =>
    match cellSpan x data.head? with
    | .error e => .error e
    | .ok n =>
      match scanMixed data n (r + 1) with
      | .error e => .error e
      | .ok l => .ok ((x, r) :: l)

/-- `data[indices]` for one block, /repo/src/meshio/xdmf/common.py:150-156. -/
def mixedBlock (data : List Int) (tos : List (Int × Nat)) (se : Nat × Nat) :
    Res (String × List (List Int)) :=
  match tos[se.1]? with
  | none => .error .indexError
  | some (x, _) =>
    match find xdmfIdxToMeshio x.toNat with
    | none => .error .keyError
    | some t =>
      match find xdmfIdxNumNodes x.toNat with
      | none => .error .keyError
      | some n =>
        match mapRes (fun to : Int × Nat =>
            mapRes (fun j : Nat => npIndex data (((j + (to.2 + if x = 2 then 2 else 1) : Nat)) : Int)) (List.range n))
            (pySlice tos se.1 se.2) with
        | .error e => .error e
        | .ok rows => .ok (t, rows)

/-- `translate_mixed_cells`, /repo/src/meshio/xdmf/common.py:111-157. -/
def translateMixed (data : List Int) : Res (List (String × List (List Int))) :=
  match scanMixed data 0 0 with
  | .error e => .error e
  | .ok tos => mapRes (mixedBlock data tos) (startEnd (tos.map (·.1)))

/-- One row of `np.hstack([np.full(..), cell_block.data])`, /repo/src/meshio/xdmf/main.py:463-474. -/
def mixedRow (t : String) (idx : Nat) (row : List Int) : List Int :=
  if t = "vertex" ∨ t = "line" then (idx : Int) :: (idx : Int) :: row else (idx : Int) :: row

/-- One block of the stream. -/
def mixedRows (b : String × List (List Int)) : Res (List Int) :=
  match find meshioToXdmfIdx b.1 with
  | none => .error .keyError
  | some idx => .ok (b.2.flatMap (mixedRow b.1 idx))

/-- `cd`, /repo/src/meshio/xdmf/main.py:461-477. -/
def mixedStream (cells : List (String × List (List Int))) : Res (List Int) :=
  match mapRes mixedRows cells with
  | .error e => .error e
  | .ok l => .ok l.flatten

/-- `dim`, /repo/src/meshio/xdmf/main.py:456-460. -/
def mixedDim (cells : List (String × List (List Int))) : Nat :=
  (cells.map fun b => b.2.length * widthOf b.2).sum + (cells.map fun b => b.2.length).sum +
    ((cells.filter fun b => b.1 = "vertex" ∨ b.1 = "line").map fun b => b.2.length).sum

/-! ## Arrays and data items -/

/-- An entry of an array. -/
inductive Val (F : Type) where
  | int (i : Int)
  | flt (x : F)
deriving DecidableEq, Repr

/-- An array of shape `(rows.length, *inner)`; each row is flattened. -/
structure Nd (F : Type) where
  dtype : String
  inner : List Nat
  rows : List (List (Val F))
deriving DecidableEq, Repr

/-- `a.shape` -/
def Nd.shape {F : Type} (a : Nd F) : List Nat := a.rows.length :: a.inner

/-- Product of the trailing axes. -/
def prod (l : List Nat) : Nat := l.foldr (· * ·) 1

/-- `numpy_to_xdmf_dtype`, /repo/src/meshio/xdmf/common.py:6-17. -/
def numpyToXdmf : List (String × (String × String)) :=
  [("int8", ("Int", "1")), ("int16", ("Int", "2")), ("int32", ("Int", "4")), ("int64", ("Int", "8")),
   ("uint8", ("UInt", "1")), ("uint16", ("UInt", "2")), ("uint32", ("UInt", "4")),
   ("uint64", ("UInt", "8")), ("float32", ("Float", "4")), ("float64", ("Float", "8"))]

/-- `xdmf_to_numpy_type`, /repo/src/meshio/xdmf/common.py:18. -/
def xdmfToNumpy : List ((String × String) × String) := numpyToXdmf.map fun e => (e.2, e.1)

/-- Keys of `dtype_to_format_string`, /repo/src/meshio/xdmf/common.py:20-27. -/
def printable : List String := ["int32", "int64", "uint32", "uint64", "float32", "float64"]

inductive Fmt where
  | xml
  | binary
  | hdf
deriving DecidableEq, Repr

/-- Text of a data item: numbers, the name of the heavy data, or none. -/
inductive Text (F : Type) where
  | numbers (l : List (Val F))
  | path (s : List Char)
  | missing
deriving DecidableEq, Repr

/-- A `DataItem` element. -/
structure Item (F : Type) where
  num : String × String
  dims : List Nat
  fmt : Fmt
  text : Text F
deriving DecidableEq, Repr

/-- A file beside the XDMF file: raw numbers, or named data sets. -/
inductive Heavy (F : Type) where
  | raw (dtype : String) (l : List (Val F))
  | h5 (sets : List (List Char × Nd F))
deriving DecidableEq, Repr

/-- The files on disk by path. -/
abbrev Files (F : Type) := List (List Char × Heavy F)

/-- Where things are put: `dir` is the directory of the XDMF file (with its trailing slash, or empty for
the working directory), `heavyDir` the directory the writer puts heavy data into, `stem` the file name
without its suffix. -/
structure Cfg where
  fmt : Fmt
  dir : List Char
  heavyDir : List Char
  stem : List Char
deriving DecidableEq, Repr

/-- The counter and the files. -/
structure W (F : Type) where
  counter : Nat
  files : Files F
deriving DecidableEq, Repr

/-- Put a file. -/
def setFile {F : Type} (fs : Files F) (p : List Char) (h : Heavy F) : Files F :=
  match fs with
  | [] => [(p, h)]
  | (q, g) :: fs => if q = p then (p, h) :: fs else (q, g) :: setFile fs p h

/-- `f"{base}{self.data_counter}.bin"` without the directory. -/
def binName (c : Cfg) (k : Nat) : List Char := c.stem ++ fmtNat k ++ ".bin".toList

/-- `f"data{self.data_counter}"` -/
def setName (k : Nat) : List Char := "data".toList ++ fmtNat k

/-- Name of the HDF5 file without the directory. -/
def h5Name (c : Cfg) : List Char := c.stem ++ ".h5".toList

/-- `numpy_to_xml_string`, /repo/src/meshio/xdmf/main.py:375-400 (`flat = false`: `np.savetxt` refuses
more than two axes) and /repo/src/meshio/xdmf/time_series.py:320-339 (`flat = true`: the array is
flattened first). -/
def putText {F : Type} (flat : Bool) (c : Cfg) (w : W F) (a : Nd F) : Res (W F × Text F) :=
  match c.fmt with
  | .xml =>
    if a.dtype ∉ printable then .error .keyError
    else if !flat && decide (2 ≤ a.inner.length) then .error .valueError
    else .ok (w, .numbers a.rows.flatten)
  | .binary =>
    .ok ({ counter := w.counter + 1, files := setFile w.files (c.heavyDir ++ binName c w.counter) (.raw a.dtype a.rows.flatten) },
      .path (c.heavyDir ++ binName c w.counter))
  | .hdf =>
    match w.files.lookup (c.heavyDir ++ h5Name c) with
    | some (.h5 sets) =>
      match hCreate sets (setName w.counter) a with
      | .error e => .error e
      | .ok sets' =>
        .ok ({ counter := w.counter + 1, files := setFile w.files (c.heavyDir ++ h5Name c) (.h5 sets') },
          .path (h5Name c ++ ":/".toList ++ setName w.counter))
    | _ => .error .unmodelled

/-- A `DataItem` for an array, /repo/src/meshio/xdmf/main.py:408-419 and the other places alike. -/
def putItem {F : Type} (flat : Bool) (c : Cfg) (w : W F) (dims : List Nat) (a : Nd F) : Res (W F × Item F) :=
  match find numpyToXdmf a.dtype with
  | none => .error .keyError
  | some num =>
    match putText flat c w a with
    | .error e => .error e
    | .ok (w', t) => .ok (w', { num := num, dims := dims, fmt := c.fmt, text := t })

/-- `data.reshape(dims)`; zero axes are left out. -/
def reshapeNd {F : Type} (dtype : String) (dims : List Nat) (l : List (Val F)) : Res (Nd F) :=
  match dims with
  | [] => .error .unmodelled
  | n :: inner =>
    match reshape n (prod inner) l with
    | .error e => .error e
    | .ok rows => .ok { dtype := dtype, inner := inner, rows := rows }

/-- The HDF5 branch of `_read_data_item`, /repo/src/meshio/xdmf/main.py:102-118 (`strict = false`) and
/repo/src/meshio/xdmf/time_series.py:209-230 (`strict = true`: the path must begin with a slash).  Data
sets in groups are left out. -/
def readH5 {F : Type} (strict : Bool) (dir : List Char) (fs : Files F) (s : List Char) : Res (Nd F) :=
  match splitOnC ':' (strip s) with
  | [file, h5path] =>
    match fs.lookup (dir ++ file) with
    | some (.h5 sets) =>
      match h5path with
      | [] => .error .indexError
      | x :: rest =>
        let name := if x = '/' then rest else x :: rest
        if strict && decide (x ≠ '/') then .error .readError
        else if '/' ∈ name then .error .unmodelled
        else
          match sets.lookup name with
          | none => .error .keyError
          | some a => .ok a
    | some (.raw _ _) => .error .unmodelled
    | none => .error .fileNotFound
  | _ => .error .valueError

/-- `_read_data_item`, /repo/src/meshio/xdmf/main.py:55-118,
/repo/src/meshio/xdmf/time_series.py:170-230.  In the second (`strict = true`) the text of an empty
array goes to `np.fromstring`, whose result is not modelled. -/
def readItem {F : Type} (strict : Bool) (dir : List Char) (fs : Files F) (it : Item F) : Res (Nd F) :=
  match it.fmt with
  | .xml =>
    match find xdmfToNumpy it.num with
    | none => .error .keyError
    | some dtype =>
      match it.text with
      | .numbers l => if strict && l.isEmpty then .error .unmodelled else reshapeNd dtype it.dims l
      | .path _ => .error .unmodelled
      | .missing => .error (if strict then .typeError else .attributeError)
  | .binary =>
    match it.text with
    | .numbers _ => .error .unmodelled
    | .missing => .error .attributeError
    | .path s =>
      match find xdmfToNumpy it.num with
      | none => .error .keyError
      | some dtype =>
        match fs.lookup (strip s) with
        | some (.raw dt l) => if dt = dtype then reshapeNd dtype it.dims l else .error .unmodelled
        | some (.h5 _) => .error .unmodelled
        | none => .error .fileNotFound
  | .hdf =>
    match it.text with
    | .numbers _ => .error .unmodelled
    | .missing => .error .attributeError
    | .path s => readH5 strict dir fs s

/-! ## Elements -/

/-- `attribute_type`, /repo/src/meshio/xdmf/common.py:160-177, on `data.shape[1:]`. -/
def attributeType (inner : List Nat) : Res String :=
  if inner = [] ∨ inner = [1] then .ok "Scalar"
  else if inner = [2] ∨ inner = [3] then .ok "Vector"
  else if inner = [9] ∨ inner = [3, 3] then .ok "Tensor"
  else if inner = [6] then .ok "Tensor6"
  else if inner.length ≠ 2 then .error .readError
  else .ok "Matrix"

/-- Children of a `Grid` element. -/
inductive Elem (F T : Type) where
  | geometry (type : String) (items : List (Item F))
  | topology (type : String) (items : List (Item F))
  | attr (name : List Char) (type : String) (center : String) (items : List (Item F))
  | time (t : T)
  | incl
deriving DecidableEq, Repr

/-- The parts of a mesh that XDMF files hold.  Connectivity is `int64`. -/
structure XMesh (F : Type) where
  points : Nd F
  cells : List (String × List (List Int))
  pointData : List (List Char × Nd F)
  cellData : List (List Char × List (Nd F))
deriving DecidableEq, Repr

/-- Connectivity as an array. -/
def connNd {F : Type} (w : Nat) (rows : List (List Int)) : Nd F :=
  { dtype := "int64", inner := [w], rows := rows.map fun r => r.map Val.int }

/-- A flat list of integers as an array. -/
def flatNd {F : Type} (l : List Int) : Nd F :=
  { dtype := "int64", inner := [], rows := l.map fun i => [Val.int i] }

/-- `raw_from_cell_data` for one array: `np.concatenate`.  Arrays of different types are left out. -/
def concatNd {F : Type} : List (Nd F) → Res (Nd F)
  | [] => .error .valueError
  | a :: l =>
    if l.all (fun b => b.inner = a.inner) then
      if l.all (fun b => b.dtype = a.dtype) then
        .ok { dtype := a.dtype, inner := a.inner, rows := a.rows ++ l.flatMap (·.rows) }
      else .error .unmodelled
    else .error .valueError

/-- `write_point_data` for one array, /repo/src/meshio/xdmf/main.py:489-508; `write_cell_data` alike. -/
def putAttr {F T : Type} (flat : Bool) (c : Cfg) (center : String) (s : W F × List (Elem F T))
    (e : List Char × Nd F) : Res (W F × List (Elem F T)) :=
  match attributeType e.2.inner with
  | .error err => .error err
  | .ok ty =>
    match putItem flat c s.1 e.2.shape e.2 with
    | .error err => .error err
    | .ok (w, it) => .ok (w, s.2 ++ [.attr e.1 ty center [it]])

/-- `write_cells` for one block, /repo/src/meshio/xdmf/main.py:424-445. -/
def putSingle {F T : Type} (flat : Bool) (c : Cfg) (s : W F × List (Elem F T))
    (b : String × List (List Int)) : Res (W F × List (Elem F T)) :=
  match xdmfName b.1 with
  | none => .error .keyError
  | some ty =>
    match putItem flat c s.1 [b.2.length, widthOf b.2] (connNd (widthOf b.2) b.2) with
    | .error err => .error err
    | .ok (w, it) => .ok (w, s.2 ++ [.topology ty [it]])

/-- `write_cells`, /repo/src/meshio/xdmf/main.py:421-487. -/
def putCells {F T : Type} (c : Cfg) (s : W F × List (Elem F T)) (cells : List (String × List (List Int))) :
    Res (W F × List (Elem F T)) :=
  match cells with
  | [] => .ok s
  | [b] => putSingle false c s b
  | _ =>
    match mixedStream cells with
    | .error err => .error err
    | .ok cd =>
      match putItem false c s.1 [mixedDim cells] (flatNd cd) with
      | .error err => .error err
      | .ok (w, it) => .ok (w, s.2 ++ [.topology "Mixed" [it]])

/-- `"XYZ"[:n]` -/
def geometryType (n : Nat) : String := String.ofList ("XYZ".toList.take n)

/-- `write_points`, /repo/src/meshio/xdmf/main.py:402-419.  Points are a two-dimensional array. -/
def putPoints {F T : Type} (c : Cfg) (s : W F × List (Elem F T)) (p : Nd F) : Res (W F × List (Elem F T)) :=
  match p.inner with
  | [d] =>
    if d > 3 then .error .writeError
    else
      match putItem false c s.1 p.shape p with
      | .error err => .error err
      | .ok (w, it) => .ok (w, s.2 ++ [.geometry (geometryType d) [it]])
  | _ => .error .unmodelled

/-- Concatenation of all cell data arrays. -/
def rawCellData {F : Type} (cd : List (List Char × List (Nd F))) : Res (List (List Char × Nd F)) :=
  mapRes (fun e : List Char × List (Nd F) => (concatNd e.2).map fun a => (e.1, a)) cd

/-- `XdmfWriter`, /repo/src/meshio/xdmf/main.py:335-373, after the HDF5 file (if any) was created empty.
The result is the content of the grid and the state of the files. -/
def write {F T : Type} (c : Cfg) (w : W F) (m : XMesh F) : Res (W F × List (Elem F T)) :=
  match putPoints c (w, []) m.points with
  | .error e => .error e
  | .ok s =>
    match putCells c s m.cells with
    | .error e => .error e
    | .ok s =>
      match foldRes (putAttr false c "Node") s m.pointData with
      | .error e => .error e
      | .ok s =>
        match rawCellData m.cellData with
        | .error e => .error e
        | .ok raw => foldRes (putAttr false c "Cell") s raw

/-- The files when the writer starts: `h5py.File(h5_filename, "w")` empties the HDF5 file,
/repo/src/meshio/xdmf/main.py:353-355, /repo/src/meshio/xdmf/time_series.py:261-267. -/
def start {F : Type} (c : Cfg) (fs : Files F) : W F :=
  { counter := 0, files := if c.fmt = .hdf then setFile fs (c.heavyDir ++ h5Name c) (.h5 []) else fs }

/-! ## Reading -/

/-- `d[k] = v` -/
def upd {α : Type} (d : List (List Char × α)) (k : List Char) (v : α) : List (List Char × α) :=
  match d with
  | [] => [(k, v)]
  | (k', v') :: d' => if k' = k then (k, v) :: d' else (k', v') :: upd d' k v

/-- The integers of an array of node numbers; other contents are left out. -/
def valInts {F : Type} : List (Val F) → Res (List Int)
  | [] => .ok []
  | .int i :: l =>
    match valInts l with
    | .error e => .error e
    | .ok is => .ok (i :: is)
  | .flt _ :: _ => .error .unmodelled

/-- Local variables of the reader, /repo/src/meshio/xdmf/main.py:248-252. -/
structure RSt (F : Type) where
  points : Option (Nd F)
  cells : List (String × List (List Int))
  pd : List (List Char × Nd F)
  cdRaw : List (List Char × Nd F)
deriving DecidableEq, Repr

/-- The cells of one `Topology` element, /repo/src/meshio/xdmf/main.py:255-275.  `CellBlock` raises KeyError for types without a
dimension (those of mixed topologies all have one). -/
def readTopology {F : Type} (cells : List (String × List (List Int))) (ty : String) (a : Nd F) :
    Res (List (String × List (List Int))) :=
  if ty = "Mixed" then
    match valInts a.rows.flatten with
    | .error e => .error e
    | .ok data => translateMixed data
  else
    match find xdmfToMeshio ty with
    | none => .error .keyError
    | some t =>
      if !hasDim t then .error .keyError
      else
        match mapRes valInts a.rows with
        | .error e => .error e
        | .ok rows => .ok (cells ++ [(t, rows)])

/-- One element of the grid, /repo/src/meshio/xdmf/main.py:254-322.  `Time` and `include` elements are
unknown sections here. -/
def readElem {F T : Type} (dir : List Char) (fs : Files F) (s : RSt F) (e : Elem F T) : Res (RSt F) :=
  match e with
  | .topology ty [it] =>
    match readItem false dir fs it with
    | .error err => .error err
    | .ok a =>
      match readTopology s.cells ty a with
      | .error err => .error err
      | .ok cells => .ok { s with cells := cells }
  | .geometry ty [it] =>
    if ty = "XY" ∨ ty = "XYZ" then
      match readItem false dir fs it with
      | .error err => .error err
      | .ok a => .ok { s with points := some a }
    else .error .readError
  | .geometry ty _ => if ty = "XY" ∨ ty = "XYZ" then .error .readError else .error .readError
  | .attr name _ center [it] =>
    match readItem false dir fs it with
    | .error err => .error err
    | .ok a =>
      if center = "Node" then .ok { s with pd := upd s.pd name a }
      else if center = "Cell" then .ok { s with cdRaw := upd s.cdRaw name a }
      else .error .readError
  | _ => .error .readError

/-- `cell_data_from_raw` for one array, /repo/src/meshio/_common.py:90-92. -/
def splitNd {F : Type} (lens : List Nat) (a : Nd F) : List (Nd F) :=
  (cellDataFromRaw lens a.rows).map fun r => { a with rows := r }

/-- The checks of the `Mesh` constructor, /repo/src/meshio/_mesh.py:165-187: a row of point data for each point, a row of cell
data for each cell. -/
def checked {F : Type} (m : XMesh F) : Res (XMesh F) :=
  if m.pointData.any (fun e => decide (e.2.rows.length ≠ m.points.rows.length)) then .error .valueError
  else if m.cellData.any (fun e => decide (e.2.map (fun a => a.rows.length) ≠ m.cells.map fun b => b.2.length)) then .error .valueError
  else .ok m

/-- `read_xdmf3`, /repo/src/meshio/xdmf/main.py:233-332 (a grid without geometry leaves `points = None`, which is left out). -/
def read {F T : Type} (dir : List Char) (fs : Files F) (grid : List (Elem F T)) : Res (XMesh F) :=
  match foldRes (readElem dir fs) { points := none, cells := [], pd := [], cdRaw := [] } grid with
  | .error e => .error e
  | .ok s =>
    match s.points with
    | none => .error .unmodelled
    | some p =>
      checked { points := p, cells := s.cells, pointData := s.pd,
                cellData := s.cdRaw.map fun e => (e.1, splitNd (s.cells.map fun b => b.2.length) e.2) }

end Xdmf
end Meshio
