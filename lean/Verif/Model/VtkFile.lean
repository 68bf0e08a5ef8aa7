/-
Legacy VTK files: /repo/src/meshio/vtk/_main.py, _vtk_42.py and _vtk_51.py.  (The translation of the cell arrays is in
`Verif.Model.VtkLegacy`.)

A file is a list of characters, a byte being the character of that code; decoding of UTF-8 is left out (a line that is not UTF-8 is
no line end either).  Integers are unbounded in text files.
-/
import Verif.Base.BinText
import Verif.Base.Scan
import Verif.Model.VtkLegacy
import Verif.Model.Dim

namespace Meshio
namespace VtkFile
open Types Tables Vtk

/-- The two versions of the reader and the writer. -/
inductive Ver where
  | v42
  | v51
deriving DecidableEq, Repr

/-- `vtk_to_numpy_dtype_name`, /repo/src/meshio/vtk/_vtk_42.py:65-77 and _vtk_51.py:18-30. -/
def dtypes : Ver → List (String × String)
  | .v42 => [("bit", "bool"), ("unsigned_char", "uint8"), ("char", "int8"), ("unsigned_short", "uint16"), ("short", "int16"),
      ("unsigned_int", "uint32"), ("int", "int32"), ("unsigned_long", "uint64"), ("long", "int64"), ("float", "float32"),
      ("double", "float64")]
  | .v51 => [("float", "float32"), ("double", "float64"), ("int", "int"), ("vtktypeint8", "int8"), ("vtktypeint16", "int16"),
      ("vtktypeint32", "int32"), ("vtktypeint64", "int64"), ("vtktypeuint8", "uint8"), ("vtktypeuint16", "uint16"),
      ("vtktypeuint32", "uint32"), ("vtktypeuint64", "uint64")]

/-- `np.dtype(name).itemsize`; `int` is the 8-byte integer. -/
def itemSize (d : String) : Nat :=
  if d = "bool" ∨ d = "int8" ∨ d = "uint8" then 1
  else if d = "int16" ∨ d = "uint16" then 2
  else if d = "int32" ∨ d = "uint32" ∨ d = "float32" then 4
  else 8

/-- `np.dtype(name).name`: the names `int` and `int64` are the same type. -/
def canonical (d : String) : String := if d = "int" then "int64" else d

/-- `numpy_to_vtk_dtype`, /repo/src/meshio/vtk/_vtk_42.py:78 and _vtk_51.py:31. -/
def vtkDtype (v : Ver) (d : String) : Option String := ((dtypes v).find? fun e => e.2 == d).map (·.1)

/-- Numbers of a numpy dtype: how `tofile` prints them, how text is read, and their bytes (big-endian); `float` and
`np.linspace` (start, step, number) for structured points. -/
structure VtkIO (V : Type) where
  fmt : V → List Char
  parse : String → List Char → Option V
  enc : String → V → List Char
  dec : String → List Char → V
  zero : String → V
  toFloat : List Char → Option V
  linspace : V → V → Nat → List V

variable {V : Type}

/-- An array: dtype, shape without the first axis, and the rows. -/
structure Arr (V : Type) where
  dtype : String
  tail : List Nat
  rows : List (List V)
deriving DecidableEq

/-! ## Reading -/

/-- `np.fromfile(f, count=n, sep=" ", dtype)`: after the numbers blanks are skipped. -/
def fromText {α : Type} (parse : List Char → Option α) (n : Nat) (s : List Char) : List α × List Char :=
  if n = 0 then ([], s) else ((scan parse n s).1, (scan parse n s).2.dropWhile isWs)

/-- `np.fromfile(f, count=n, dtype)` followed by the test of the line end,
/repo/src/meshio/vtk/_vtk_42.py:359-363 (and at each other array). -/
def fromBytes {α : Type} (size : Nat) (dec : List Char → α) (n : Nat) (s : List Char) : Res (List α × List Char) :=
  if (readLine (blocks size n s).2).1 = ['\n'] then .ok ((blocks size n s).1.map dec, (readLine (blocks size n s).2).2)
  else .error .readError

/-- `n` numbers of a type. -/
def values (io : VtkIO V) (ascii : Bool) (d : String) (n : Nat) (s : List Char) : Res (List V × List Char) :=
  if ascii then .ok (fromText (io.parse d) n s) else fromBytes (itemSize d) (io.dec d) n s

/-- A big-endian integer. -/
def getBig (l : List Char) : Int := intDec true (toBytes l)

def putBig (k : Nat) (z : Int) : List Char := toChars (intEnc true k z)

/-- `_read_int_data`, /repo/src/meshio/vtk/_vtk_42.py:382-391, _vtk_51.py:354-363; `k` bytes for each item. -/
def intData (ascii : Bool) (k n : Nat) (s : List Char) : Res (List Int × List Char) :=
  if ascii then .ok (fromText parseInt n s) else fromBytes k getBig n s

/-- `_read_cell_types`, /repo/src/meshio/vtk/_vtk_42.py:394-404, _vtk_51.py:366-376: the line end may be missing. -/
def cellTypes (ascii : Bool) (n : Nat) (s : List Char) : Res (List Int × List Char) :=
  if ascii then .ok (fromText parseInt n s)
  else if strip (readLine (blocks 4 n s).2).1 = [] then .ok ((blocks 4 n s).1.map getBig, (readLine (blocks 4 n s).2).2)
  else .error .readError

def upper (s : List Char) : List Char := s.map Char.toUpper

def lower (s : List Char) : List Char := s.map Char.toLower

/-- `int(s)` -/
def toInt (s : List Char) : Res Int :=
  match parseInt s with
  | some i => .ok i
  | none => .error .valueError

/-- `int(split[i])` used as a count.  A negative count (numpy then reads everything) is left out. -/
def count (split : List (List Char)) (i : Nat) : Res Nat :=
  match split[i]? with
  | none => .error .indexError
  | some t =>
    match toInt t with
    | .error e => .error e
    | .ok z => if z < 0 then .error .unmodelled else .ok z.toNat

/-- `np.dtype(vtk_to_numpy_dtype_name[name])` -/
def dtype (v : Ver) (t : List Char) : Res String :=
  match find (dtypes v) (String.ofList t) with
  | none => .error .keyError
  | some d => .ok d

/-- `np.dtype(vtk_to_numpy_dtype_name[split[i].lower()])` -/
def dtypeAt (v : Ver) (split : List (List Char)) (i : Nat) : Res String :=
  match split[i]? with
  | none => .error .indexError
  | some t => dtype v (lower t)

/-- `data.reshape(-1, k)` -/
def reshapeRows (k : Nat) (l : List V) : Res (List (List V)) :=
  if l.length % k = 0 then .ok (rowsN k (l.length / k) l) else .error .valueError

/-- Entries of the dictionary `info.dataset`: arrays, dimensions, and three floats. -/
inductive Entry (V : Type) where
  | arr (a : Arr V)
  | ints (l : List Int)
  | floats (l : List V)

/-- `Info`, /repo/src/meshio/_vtk_common.py:184-205. -/
structure Info (V : Type) where
  points : Option (Arr V) := none
  fieldData : Dict (Arr V) := []
  cellRaw : Dict (Arr V) := []
  pointData : Dict (Arr V) := []
  type : Option String := none
  dataset : Dict (Entry V) := []
  conn : Option (List Int) := none
  offsets : Option (List Int) := none
  types : Option (List Nat) := none
  active : String := ""
  numItems : Nat := 0

/-- `_skip_meta`, /repo/src/meshio/vtk/_vtk_42.py:497-504, _vtk_51.py:469-476: up to and including the next blank line. -/
def skipMetaF : Nat → List Char → List Char
  | 0, s => s
  | n + 1, s =>
    if strip (readLine s).1 = [] then (readLine s).2
    else skipMetaF n (readLine s).2

def skipMeta (s : List Char) : List Char := skipMetaF (s.length + 1) s

/-- `_read_coords`, /repo/src/meshio/vtk/_vtk_42.py:352-364; a one-dimensional array (rows of one number here). -/
def readCoords (io : VtkIO V) (v : Ver) (ascii : Bool) (split : List (List Char)) (s : List Char) : Res (Arr V × List Char) :=
  match count split 1 with
  | .error e => .error e
  | .ok n =>
    match dtypeAt v split 2 with
    | .error e => .error e
    | .ok d =>
      match values io ascii d n s with
      | .error e => .error e
      | .ok (l, s) => .ok (⟨canonical d, [], l.map fun x => [x]⟩, s)

/-- The section POINTS, /repo/src/meshio/vtk/_vtk_42.py:184-188 and 367-379, _vtk_51.py:136-140 and 339-351. -/
def readPoints (io : VtkIO V) (v : Ver) (ascii : Bool) (split : List (List Char)) (s : List Char) : Res (Arr V × List Char) :=
  match count split 1 with
  | .error e => .error e
  | .ok n =>
    match dtypeAt v split 2 with
    | .error e => .error e
    | .ok d =>
      match values io ascii d (n * 3) s with
      | .error e => .error e
      | .ok (l, s) =>
        match reshape n 3 l with
        | .error e => .error e
        | .ok rows => .ok (⟨canonical d, [3], rows⟩, s)

/-- The section CELLS of version 5.1, /repo/src/meshio/vtk/_vtk_51.py:142-166. -/
def readCells (ascii : Bool) (split : List (List Char)) (s : List Char) : Res ((List Int × List Int) × List Char) :=
  if ¬ "OFFSETS".toList <+: (readLine s).1 then .error .assertionError
  else
    match count split 1 with
    | .error e => .error e
    | .ok n =>
      match count split 2 with
      | .error e => .error e
      | .ok m =>
        match (splitWs (readLine s).1)[1]? with
        | none => .error .indexError
        | some t =>
          match dtype .v51 t with
          | .error e => .error e
          | .ok d =>
            match intData ascii (itemSize d) n (readLine s).2 with
            | .error e => .error e
            | .ok (offs, s) =>
              if ¬ "CONNECTIVITY".toList <+: (readLine s).1 then .error .assertionError
              else
                match (splitWs (readLine s).1)[1]? with
                | none => .error .indexError
                | some t =>
                  match dtype .v51 t with
                  | .error e => .error e
                  | .ok d =>
                    match intData ascii (itemSize d) m (readLine s).2 with
                    | .error e => .error e
                    | .ok (conn, s) =>
                      match offs.head?, offs.getLast? with
                      | some a, some z =>
                        if a ≠ 0 then .error .assertionError
                        else if z ≠ conn.length then .error .assertionError
                        else .ok ((conn, offs.drop 1), s)
                      | _, _ => .error .indexError

/-- The number of components of SCALARS, /repo/src/meshio/vtk/_vtk_42.py:410-413. -/
def numComp : Option (List Char) → Res Int
  | none => .ok 1
  | some c => toInt c

/-- `_read_scalar_field`, /repo/src/meshio/vtk/_vtk_42.py:407-437, _vtk_51.py:379-409. -/
def readScalars (io : VtkIO V) (v : Ver) (ascii : Bool) (n : Nat) (split : List (List Char)) (s : List Char) :
    Res ((String × Arr V) × List Char) :=
  match split[1]?, split[2]? with
  | some name, some t =>
    match numComp split[3]? with
    | .error e => .error e
    | .ok k =>
      if ¬ (0 < k ∧ k < 5) then .error .readError
      else
        match dtype v (lower t) with
        | .error e => .error e
        | .ok d =>
          match splitWs (readLine s).1 with
          | [lt, _] =>
            if upper lt ≠ "LOOKUP_TABLE".toList then .error .readError
            else
              match values io ascii d (n * k.toNat) (readLine s).2 with
              | .error e => .error e
              | .ok (l, s) =>
                match reshapeRows k.toNat l with
                | .error e => .error e
                | .ok rows => .ok ((String.ofList name, ⟨canonical d, [k.toNat], rows⟩), s)
          | _ => .error .valueError
  | _, _ => .error .indexError

/-- `_read_field`, /repo/src/meshio/vtk/_vtk_42.py:440-461, _vtk_51.py:412-433; `shape` is [3] or [3, 3], `k` its product. -/
def readField (io : VtkIO V) (v : Ver) (ascii : Bool) (n : Nat) (split : List (List Char)) (shape : List Nat) (k : Nat) (s : List Char) :
    Res ((String × Arr V) × List Char) :=
  match split[1]?, split[2]? with
  | some name, some t =>
    match dtype v (lower t) with
    | .error e => .error e
    | .ok d =>
      match values io ascii d (k * n) s with
      | .error e => .error e
      | .ok (l, s) =>
        match reshapeRows k l with
        | .error e => .error e
        | .ok rows => .ok ((String.ofList name, ⟨canonical d, shape, rows⟩), s)
  | _, _ => .error .indexError

/-- One array of `_read_fields`, /repo/src/meshio/vtk/_vtk_42.py:472-492, _vtk_51.py:444-464. -/
def readFieldArray (io : VtkIO V) (v : Ver) (ascii : Bool) (line : List (List Char)) (s : List Char) :
    Res ((String × Arr V) × List Char) :=
  match line with
  | [name, c, n, t] =>
    match count [c] 0 with
    | .error e => .error e
    | .ok c =>
      match count [n] 0 with
      | .error e => .error e
      | .ok n =>
        match dtype v (lower t) with
        | .error e => .error e
        | .ok d =>
          match values io ascii d (c * n) s with
          | .error e => .error e
          | .ok (l, s) =>
            if c ≠ 1 then
              match reshape n c l with
              | .error e => .error e
              | .ok rows => .ok ((String.ofList name, ⟨canonical d, [c], rows⟩), s)
            else .ok ((String.ofList name, ⟨canonical d, [], l.map fun x => [x]⟩), s)
  | _ => .error .valueError

/-- `_read_fields`, /repo/src/meshio/vtk/_vtk_42.py:464-494, _vtk_51.py:436-466. -/
def readFields (io : VtkIO V) (v : Ver) (ascii : Bool) : Nat → Dict (Arr V) → List Char → Res (Dict (Arr V) × List Char)
  | 0, d, s => .ok (d, s)
  | n + 1, d, s =>
    match splitWs (readLine s).1 with
    | [] => .error .indexError
    | w :: ws =>
      match (if w = "METADATA".toList then
          readFieldArray io v ascii (splitWs (readLine (skipMeta (readLine s).2)).1) (readLine (skipMeta (readLine s).2)).2
        else readFieldArray io v ascii (w :: ws) (readLine s).2) with
      | .error e => .error e
      | .ok ((name, a), s) => readFields io v ascii n (Dict.set d name a) s

/-- `vtk_dataset_types` and `vtk_dataset_infos`, /repo/src/meshio/vtk/_vtk_42.py:81-103, _vtk_51.py:34-56. -/
def datasetInfos : List (String × List String) :=
  [("UNSTRUCTURED_GRID", []), ("STRUCTURED_POINTS", ["DIMENSIONS", "ORIGIN", "SPACING", "ASPECT_RATIO"]),
    ("STRUCTURED_GRID", ["DIMENSIONS"]), ("RECTILINEAR_GRID", ["DIMENSIONS", "X_COORDINATES", "Y_COORDINATES", "Z_COORDINATES"])]

/-- `vtk_sections`, /repo/src/meshio/vtk/_vtk_42.py:106-116, _vtk_51.py:59-69. -/
def sections : List String :=
  ["METADATA", "DATASET", "POINTS", "CELLS", "CELL_TYPES", "POINT_DATA", "CELL_DATA", "LOOKUP_TABLE", "COLOR_SCALARS"]

/-- `_read_section`, /repo/src/meshio/vtk/_vtk_42.py:170-220, _vtk_51.py:123-193.  Negative cell types are left out. -/
def readSection (io : VtkIO V) (v : Ver) (ascii : Bool) (sec : String) (split : List (List Char)) (info : Info V) (s : List Char) :
    Res (Info V × List Char) :=
  if sec = "METADATA" then .ok (info, skipMeta s)
  else if sec = "DATASET" then
    match split[1]? with
    | none => .error .indexError
    | some t =>
      if (find datasetInfos (String.ofList (upper t))).isNone then .error .readError
      else .ok ({ info with active := "DATASET", type := some (String.ofList (upper t)) }, s)
  else if sec = "POINTS" then
    match readPoints io v ascii split s with
    | .error e => .error e
    | .ok (a, s) => .ok ({ info with active := "POINTS", points := some a }, s)
  else if sec = "CELLS" then
    match v with
    | .v42 =>
      match count split 2 with
      | .error e => .error e
      | .ok n =>
        match intData ascii 4 n s with
        | .error e => .error e
        | .ok (c, s) => .ok ({ info with active := "CELLS", numItems := n, conn := some c }, s)
    | .v51 =>
      match readCells ascii split s with
      | .error e => .error e
      | .ok ((c, o), s) =>
        match count split 2 with
        | .error e => .error e
        | .ok n => .ok ({ info with active := "CELLS", numItems := n, conn := some c, offsets := some o }, s)
  else if sec = "CELL_TYPES" then
    match count split 1 with
    | .error e => .error e
    | .ok n =>
      match cellTypes ascii n s with
      | .error e => .error e
      | .ok (t, s) =>
        if t.any (fun z => decide (z < 0)) then .error .unmodelled
        else .ok ({ info with active := "CELL_TYPES", numItems := n, types := some (t.map Int.toNat) }, s)
  else if sec = "POINT_DATA" then
    match count split 1 with
    | .error e => .error e
    | .ok n => .ok ({ info with active := "POINT_DATA", numItems := n }, s)
  else if sec = "CELL_DATA" then
    match count split 1 with
    | .error e => .error e
    | .ok n => .ok ({ info with active := "CELL_DATA", numItems := n }, s)
  else if sec = "LOOKUP_TABLE" then
    match count split 2 with
    | .error e => .error e
    | .ok n => .ok ({ info with numItems := n }, (fromText io.toFloat (n * 4) s).2)
  else
    match count split 2 with
    | .error e => .error e
    | .ok k => .ok (info, (blocks (if ascii then 8 else 1) (info.numItems * k) s).2)

/-- `d.update(...)`, where `d` depends on the active section, /repo/src/meshio/vtk/_vtk_42.py:224-231, _vtk_51.py:197-204.  That
an array may be called `type` in the dictionary of the dataset is left out. -/
def update (info : Info V) (l : Dict (Arr V)) : Res (Info V) :=
  if info.active = "POINT_DATA" then .ok { info with pointData := l.foldl (fun d kv => Dict.set d kv.1 kv.2) info.pointData }
  else if info.active = "CELL_DATA" then .ok { info with cellRaw := l.foldl (fun d kv => Dict.set d kv.1 kv.2) info.cellRaw }
  else if info.active = "DATASET" then
    if l.any (fun kv => kv.1 == "type") then .error .unmodelled
    else .ok { info with dataset := l.foldl (fun d kv => Dict.set d kv.1 (.arr kv.2)) info.dataset }
  else .ok { info with fieldData := l.foldl (fun d kv => Dict.set d kv.1 kv.2) info.fieldData }

/-- `_read_subsection`, /repo/src/meshio/vtk/_vtk_42.py:223-258, _vtk_51.py:196-230.  Dimensions and the like outside the section
DATASET are left out. -/
def readSubsection (io : VtkIO V) (v : Ver) (ascii : Bool) (sec : String) (split : List (List Char)) (info : Info V) (s : List Char) :
    Res (Info V × List Char) :=
  match info.type with
  | none => .error .keyError
  | some t =>
    if sec ∈ (find datasetInfos t).getD [] then
      if info.active ≠ "DATASET" then .error .unmodelled
      else if sec = "X_COORDINATES" ∨ sec = "Y_COORDINATES" ∨ sec = "Z_COORDINATES" then
        match readCoords io v ascii split s with
        | .error e => .error e
        | .ok (a, s) => .ok ({ info with dataset := Dict.set info.dataset sec (.arr a) }, s)
      else if sec = "DIMENSIONS" then
        match mapRes toInt (split.drop 1) with
        | .error e => .error e
        | .ok l =>
          if l.length ≠ 3 then .error .readError
          else .ok ({ info with dataset := Dict.set info.dataset sec (.ints l) }, s)
      else
        match mapRes (fun t => match io.toFloat t with
            | none => Except.error Err.valueError
            | some x => .ok x) (split.drop 1) with
        | .error e => .error e
        | .ok l =>
          if l.length ≠ 3 then .error .readError
          else .ok ({ info with dataset := Dict.set info.dataset sec (.floats l) }, s)
    else
      match (if sec = "SCALARS" then (readScalars io v ascii info.numItems split s).map fun r => ([r.1], r.2)
        else if sec = "VECTORS" then (readField io v ascii info.numItems split [3] 3 s).map fun r => ([r.1], r.2)
        else if sec = "TENSORS" then (readField io v ascii info.numItems split [3, 3] 9 s).map fun r => ([r.1], r.2)
        else if sec = "FIELD" then
          match count split 2 with
          | .error e => .error e
          | .ok n => readFields io v ascii n [] s
        else .error .readError) with
      | .error e => .error e
      | .ok (l, s) =>
        match update info l with
        | .error e => .error e
        | .ok info => .ok (info, s)

/-- The loop over the sections, /repo/src/meshio/vtk/_vtk_42.py:137-153, _vtk_51.py:90-106; each round takes a line. -/
def readLoop (io : VtkIO V) (v : Ver) (ascii : Bool) : Nat → Info V → List Char → Res (Info V)
  | 0, _, _ => .error .eofLoop
  | n + 1, info, s =>
    if s = [] then .ok info
    else
      match splitWs (readLine s).1 with
      | [] => readLoop io v ascii n info (readLine s).2
      | w :: ws =>
        match (if String.ofList (upper w) ∈ sections then readSection io v ascii (String.ofList (upper w)) (w :: ws) info (readLine s).2
          else readSubsection io v ascii (String.ofList (upper w)) (w :: ws) info (readLine s).2) with
        | .error e => .error e
        | .ok (info, s) => readLoop io v ascii n info s

/-- An axis as an array. -/
def axis (info : Info V) (k : String) : Res (List V) :=
  match Dict.get? info.dataset k with
  | some (.arr a) => .ok a.rows.flatten
  | some _ => .error .unmodelled
  | none => .error .keyError

/-- `info.dataset["DIMENSIONS"]` -/
def dimensions (info : Info V) : Res (List Int) :=
  match Dict.get? info.dataset "DIMENSIONS" with
  | some (.ints l) => .ok l
  | some _ => .error .unmodelled
  | none => .error .keyError

/-- Three floats. -/
def three (info : Info V) (k : String) : Res (List V) :=
  match Dict.get? info.dataset k with
  | some (.floats l) => .ok l
  | some _ => .error .unmodelled
  | none => .error .keyError

/-- Connectivity and types of a structured grid. -/
def gridInfo (info : Info V) (pts : Option (Arr V)) (dim : List Int) : Res (Info V) :=
  match generateCells (dim.map Int.toNat) with
  | .error e => .error e
  | .ok (rows, types) => .ok { info with points := pts, conn := some (rows.flatten.map Int.ofNat), types := some types }

/-- `_check_mesh`, /repo/src/meshio/vtk/_vtk_42.py:261-290, _vtk_51.py:233-262. -/
def checkMesh (io : VtkIO V) (info : Info V) : Res (Info V) :=
  match info.type with
  | none => .error .keyError
  | some t =>
    if t = "UNSTRUCTURED_GRID" then
      if info.conn.isNone then .error .readError
      else if info.types.isNone then .error .readError
      else .ok info
    else if t = "STRUCTURED_POINTS" then
      match dimensions info with
      | .error e => .error e
      | .ok dim =>
        match three info "ORIGIN" with
        | .error e => .error e
        | .ok ori =>
          match three info (if (Dict.get? info.dataset "SPACING").isSome then "SPACING" else "ASPECT_RATIO") with
          | .error e => .error e
          | .ok spa =>
            match dim, ori, spa with
            | [d0, d1, d2], [o0, o1, o2], [s0, s1, s2] =>
              if d0 < 0 ∨ d1 < 0 ∨ d2 < 0 then .error .valueError
              else
                match generatePoints (io.linspace o0 s0 d0.toNat) (io.linspace o1 s1 d1.toNat) (io.linspace o2 s2 d2.toNat) with
                | .error e => .error e
                | .ok pts => gridInfo info (some ⟨"float64", [3], pts⟩) dim
            | _, _, _ => .error .unmodelled
    else if t = "RECTILINEAR_GRID" then
      match axis info "X_COORDINATES" with
      | .error e => .error e
      | .ok x =>
        match axis info "Y_COORDINATES" with
        | .error e => .error e
        | .ok y =>
          match axis info "Z_COORDINATES" with
          | .error e => .error e
          | .ok z =>
            match generatePoints x y z with
            | .error e => .error e
            | .ok pts =>
              match dimensions info with
              | .error e => .error e
              | .ok dim =>
                match Dict.get? info.dataset "X_COORDINATES" with
                | some (.arr a) => gridInfo info (some ⟨a.dtype, [3], pts⟩) dim
                | _ => .error .unmodelled
    else
      match dimensions info with
      | .error e => .error e
      | .ok dim => gridInfo info info.points dim

/-- The mesh read; without a section POINTS the points are `np.asarray(None)` (none here). -/
structure Out (V : Type) where
  points : Option (Arr V)
  cells : List Blk
  pointData : Dict (Arr V)
  cellData : Dict (List (Arr V))
  fieldData : Dict (Arr V)
deriving DecidableEq

/-- The constructor of the mesh: the types have a dimension, point and cell data have the right lengths (/repo/src/meshio/_mesh.py:120-187).
With points `np.asarray(None)` their number is a TypeError. -/
def build (info : Info V) (cells : List Blk) (cd : Dict (List (Arr V))) : Res (Out V) :=
  if !(cells.all fun b => hasDim b.1) then .error .keyError
  else
    match info.points with
    | none =>
      if info.pointData ≠ [] then .error .typeError
      else if cd.any (fun kv => decide (kv.2.map (·.rows.length) ≠ cells.map (·.2.length))) then .error .valueError
      else .ok ⟨none, cells, [], cd, info.fieldData⟩
    | some p =>
      if info.pointData.any (fun kv => decide (kv.2.rows.length ≠ p.rows.length)) then .error .valueError
      else if cd.any (fun kv => decide (kv.2.map (·.rows.length) ≠ cells.map (·.2.length))) then .error .valueError
      else .ok ⟨some p, cells, info.pointData, cd, info.fieldData⟩

/-- The cell data as rows, cut, and as arrays again. -/
def cellArrays (raw : Dict (Arr V)) (cd : Dict (List (List (List V)))) : Dict (List (Arr V)) :=
  cd.map fun kv => (kv.1, kv.2.map fun rows =>
    ⟨((Dict.get? raw kv.1).map (·.dtype)).getD "", ((Dict.get? raw kv.1).map (·.tail)).getD [], rows⟩)

/-- `read_buffer` after the loop, /repo/src/meshio/vtk/_vtk_42.py:155-167, _vtk_51.py:108-120.  In version 5.1 a structured grid has
no offsets (`len(None)` is a TypeError). -/
def finish (io : VtkIO V) (v : Ver) (info : Info V) : Res (Out V) :=
  match checkMesh io info with
  | .error e => .error e
  | .ok info =>
    match v, info.conn, info.types, info.offsets with
    | .v42, some conn, some types, _ =>
      match translateCells conn types (info.cellRaw.map fun kv => (kv.1, kv.2.rows)) with
      | .error e => .error e
      | .ok (cells, cd) => build info cells (cellArrays info.cellRaw cd)
    | .v51, some conn, some types, some offs =>
      match vtkCellsFromData conn offs types (info.cellRaw.map fun kv => (kv.1, kv.2.rows)) with
      | .error e => .error e
      | .ok (cells, cd) => build info cells (cellArrays info.cellRaw cd)
    | _, _, _, _ => .error .typeError

/-- `read_buffer` of a version, /repo/src/meshio/vtk/_vtk_42.py:125-167, _vtk_51.py:78-120: after the first line. -/
def readBuffer (io : VtkIO V) (v : Ver) (s : List Char) : Res (Out V) :=
  let s := (readLine s).2
  let t := upper (strip (readLine s).1)
  if t ≠ "ASCII".toList ∧ t ≠ "BINARY".toList then .error .readError
  else
    match readLoop io v (decide (t = "ASCII".toList)) ((readLine s).2.length + 1) {} (readLine s).2 with
    | .error e => .error e
    | .ok info => finish io v info

/-- `read_buffer`, /repo/src/meshio/vtk/_main.py:15-26. -/
def read (io : VtkIO V) (s : List Char) : Res (Out V) :=
  let line := strip (readLine s).1
  if ¬ "# vtk DataFile Version".toList <+: line then .error .readError
  else readBuffer io (if line.drop 23 = "5.1".toList then .v51 else .v42) (readLine s).2

/-! ## Writing -/

/-- A mesh without sets. -/
structure In (V : Type) where
  points : Arr V
  cells : List Blk2
  pointData : Dict (Arr V)
  cellData : Dict (List (Arr V))

/-- `np.pad(array, ((0, 0), (0, 1)), "constant")` of an array with two columns, /repo/src/meshio/vtk/_vtk_42.py:603-631,
_vtk_51.py:479-509. -/
def pad (io : VtkIO V) (a : Arr V) : Arr V :=
  if a.tail = [2] then { a with tail := [3], rows := a.rows.map (· ++ [io.zero a.dtype]) } else a

/-- `tofile(f, sep=c)` -/
def textOf {α : Type} (fmt : α → List Char) (c : Char) (l : List α) : List Char := joinWith c (l.map fmt)

/-- The numbers of an array and a line end. -/
def putValues (io : VtkIO V) (binary : Bool) (a : Arr V) : List Char :=
  (if binary then a.rows.flatten.flatMap (io.enc a.dtype) else textOf io.fmt ' ' a.rows.flatten) ++ ['\n']

/-- `_write_points`, /repo/src/meshio/vtk/_vtk_42.py:659-677, _vtk_51.py:555-570. -/
def writePoints (io : VtkIO V) (v : Ver) (binary : Bool) (a : Arr V) : Res (List Char) :=
  match vtkDtype v a.dtype with
  | none => .error .keyError
  | some t => .ok (linesText ["POINTS ".toList ++ fmtNat a.rows.length ++ ' ' :: t.toList] ++ putValues io binary a)

/-- Integers of `k` bytes, or one in each line. -/
def putInts (binary : Bool) (k : Nat) (ls : List (List Int)) : List Char :=
  if binary then ls.flatMap (fun l => l.flatMap (putBig k)) ++ ['\n'] else ls.flatMap fun l => textOf fmtInt '\n' l ++ ['\n']

/-- Numbers of cells and of entries. -/
def totalCells (cells : List Blk2) : Nat := (cells.map fun b => b.rows.length).sum

def totalIdx (cells : List Blk2) : Nat := (cells.map fun b => b.rows.length * b.width).sum

/-- The section CELL_TYPES, /repo/src/meshio/vtk/_vtk_42.py:718-730, _vtk_51.py:617-629. -/
def writeTypes (binary : Bool) (cells : List Blk2) : Res (List Char) :=
  match mapRes (fun b : Blk2 => typesOut (b.type, b.rows)) cells with
  | .error e => .error e
  | .ok ts => .ok (linesText ["CELL_TYPES ".toList ++ fmtNat (totalCells cells)] ++ putInts binary 4 (ts.map fun l => l.map Int.ofNat))

/-- `_write_cells`, /repo/src/meshio/vtk/_vtk_42.py:680-716. -/
def writeCells42 (binary : Bool) (cells : List Blk2) : Res (List Char) :=
  match mapRes (fun b : Blk2 => cellsOut42 (b.type, b.rows)) cells with
  | .error e => .error e
  | .ok ls =>
    .ok (linesText ["CELLS ".toList ++ fmtNat (totalCells cells) ++ ' ' :: fmtNat (totalIdx cells + totalCells cells)] ++ putInts binary 4 ls)

/-- `_write_cells`, /repo/src/meshio/vtk/_vtk_51.py:573-615. -/
def writeCells51 (binary : Bool) (cells : List Blk2) : Res (List Char) :=
  match offsetsOut51 0 cells with
  | .error e => .error e
  | .ok offs =>
    match mapRes (fun b : Blk2 => mapRes (outRow b.type) b.rows) cells with
    | .error e => .error e
    | .ok conn =>
      .ok (linesText ["CELLS ".toList ++ fmtNat (totalCells cells + 1) ++ ' ' :: fmtNat (totalIdx cells)] ++
        (linesText ["OFFSETS vtktypeint64".toList] ++ putInts binary 8 [0 :: offs] ++
          (linesText ["CONNECTIVITY vtktypeint64".toList] ++ putInts binary 8 (conn.map List.flatten))))

/-- `_write_cells` of the version. -/
def writeCells (v : Ver) (binary : Bool) (cells : List Blk2) : Res (List Char) :=
  match v with
  | .v42 => writeCells42 binary cells
  | .v51 => writeCells51 binary cells

/-- One array, /repo/src/meshio/vtk/_vtk_42.py:738-764, _vtk_51.py:637-655.  Names containing other white space than blanks are written. -/
def writeArray (io : VtkIO V) (v : Ver) (binary : Bool) (name : String) (a : Arr V) : Res (List Char) :=
  if ' ' ∈ name.toList then .error .writeError
  else
    match vtkDtype v a.dtype with
    | none => .error .keyError
    | some t =>
      .ok (linesText [name.toList ++ ' ' :: fmtNat (a.tail.headD 1) ++ ' ' :: fmtNat a.rows.length ++ ' ' :: t.toList] ++ putValues io binary a)

/-- `_write_field_data`, /repo/src/meshio/vtk/_vtk_42.py:733-764, _vtk_51.py:632-655. -/
def writeFields (io : VtkIO V) (v : Ver) (binary : Bool) (l : Dict (Arr V)) : Res (List Char) :=
  match mapRes (fun kv : String × Arr V => writeArray io v binary kv.1 kv.2) l with
  | .error e => .error e
  | .ok ts => .ok (linesText ["FIELD FieldData ".toList ++ fmtNat l.length] ++ ts.flatten)

/-- `np.concatenate(values)`.  Different dtypes (numpy takes a common one) are left out. -/
def concat (l : List (Arr V)) : Res (Arr V) :=
  match l with
  | [] => .error .valueError
  | a :: l' =>
    if l'.any (fun b => decide (b.tail ≠ a.tail)) then .error .valueError
    else if l'.any (fun b => decide (b.dtype ≠ a.dtype)) then .error .unmodelled
    else .ok ⟨a.dtype, a.tail, l.flatMap (·.rows)⟩

/-- The concatenated cell data. -/
def cellFields (l : Dict (List (Arr V))) : Res (Dict (Arr V)) :=
  mapRes (fun kv : String × List (Arr V) => (concat kv.2).map fun a => (kv.1, a)) l

/-- A section of data, if there is any. -/
def writeData (io : VtkIO V) (v : Ver) (binary : Bool) (head : List Char) (n : Nat) (l : Dict (Arr V)) : Res (List Char) :=
  if l = [] then .ok []
  else
    match writeFields io v binary l with
    | .error e => .error e
    | .ok t => .ok (linesText [head ++ ' ' :: fmtNat n] ++ t)

/-- The first lines, /repo/src/meshio/vtk/_vtk_42.py:637-640, _vtk_51.py:533-536; `title` is "written by meshio v…". -/
def header (v : Ver) (title : List Char) (binary : Bool) : List Char :=
  linesText [(match v with
      | .v42 => "# vtk DataFile Version 4.2".toList
      | .v51 => "# vtk DataFile Version 5.1".toList),
    title, (if binary then "BINARY".toList else "ASCII".toList), "DATASET UNSTRUCTURED_GRID".toList]

/-- `write`, /repo/src/meshio/vtk/_vtk_42.py:602-656, _vtk_51.py:483-552, for a mesh without sets.  (The arrays are concatenated
before anything is written here; the writer does it array by array, so that of several errors another may come first.) -/
def write (io : VtkIO V) (v : Ver) (title : List Char) (binary : Bool) (m : In V) : Res (List Char) :=
  match writePoints io v binary (pad io m.points) with
  | .error e => .error e
  | .ok t1 =>
    match writeCells v binary m.cells with
    | .error e => .error e
    | .ok t2 =>
      match writeTypes binary m.cells with
      | .error e => .error e
      | .ok t3 =>
        match writeData io v binary "POINT_DATA".toList m.points.rows.length (m.pointData.map fun kv => (kv.1, pad io kv.2)) with
        | .error e => .error e
        | .ok t4 =>
          match cellFields (m.cellData.map fun kv => (kv.1, kv.2.map (pad io))) with
          | .error e => .error e
          | .ok cd =>
            match writeData io v binary "CELL_DATA".toList (totalCells m.cells) cd with
            | .error e => .error e
            | .ok t5 => .ok (header v title binary ++ (t1 ++ (t2 ++ (t3 ++ (t4 ++ t5)))))

/-- The writers registered for the names of formats, /repo/src/meshio/vtk/_main.py:37-46. -/
def writers : List (String × Ver) := [("vtk42", .v42), ("vtk51", .v42), ("vtk", .v51)]

end VtkFile
end Meshio
