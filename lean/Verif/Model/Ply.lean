/-
Model of /repo/src/meshio/ply/_ply.py.  A file is a list of characters with codes below 256,
one for each byte; the header and the text body are ASCII, so that `decode()` is the identity
on them.
-/
import Verif.Base.Lines
import Verif.Base.ByteIO
import Verif.Base.Runs
import Verif.Base.Dict
namespace Meshio.Ply
open Meshio

variable {F : Type}

inductive Kind where
  | int
  | uint
  | float
deriving DecidableEq

/-- A numpy dtype: kind and number of bytes. -/
structure Dtype where
  kind : Kind
  size : Nat
deriving DecidableEq

def i1 : Dtype := ⟨.int, 1⟩
def i2 : Dtype := ⟨.int, 2⟩
def i4 : Dtype := ⟨.int, 4⟩
def i8 : Dtype := ⟨.int, 8⟩
def u1 : Dtype := ⟨.uint, 1⟩
def u2 : Dtype := ⟨.uint, 2⟩
def u4 : Dtype := ⟨.uint, 4⟩
def u8 : Dtype := ⟨.uint, 8⟩
def f4 : Dtype := ⟨.float, 4⟩
def f8 : Dtype := ⟨.float, 8⟩

/-- `ply_to_numpy_dtype`, /repo/src/meshio/ply/_ply.py:22-43. -/
def asciiTable : Dict Dtype :=
  [("char", i1), ("uchar", u1), ("short", i2), ("ushort", u2), ("int", i4), ("int8", i1),
   ("int32", i4), ("int64", i8), ("uint", u4), ("uint8", u1), ("uint16", u2), ("uint32", u4),
   ("uint64", u8), ("float", f4), ("float32", f4), ("float64", f8), ("double", f8)]

/-- `numpy_to_ply_dtype`, /repo/src/meshio/ply/_ply.py:44: the last name of each dtype wins. -/
def numpyToPly (d : Dtype) : Option String := (asciiTable.reverse.find? (fun kv => kv.2 == d)).map (·.1)

/-- `ply_to_numpy_dtype_string` of `_read_binary`, /repo/src/meshio/ply/_ply.py:267-281. -/
def binTable : Dict Dtype :=
  [("uchar", i1), ("uint", u4), ("uint8", u1), ("uint16", u2), ("uint32", u4), ("uint64", u8),
   ("int", i4), ("int8", i1), ("int32", i4), ("int64", i8), ("float", f4), ("float32", f4),
   ("double", f8)]

/-- `type_name_table` of `write`, /repo/src/meshio/ply/_ply.py:405-416. -/
def typeNameTable : List (Dtype × String) :=
  [(i1, "int8"), (i2, "int16"), (i4, "int32"), (i8, "int64"), (u1, "uint8"), (u2, "uint16"),
   (u4, "uint32"), (u8, "uint64"), (f4, "float"), (f8, "double")]

/-- `cell_type_from_count`, /repo/src/meshio/ply/_ply.py:47-57. -/
def cellTypeFromCount (n : Nat) : String :=
  if n = 1 then "vertex"
  else if n = 2 then "line"
  else if n = 3 then "triangle"
  else if n = 4 then "quad"
  else "polygon"

/-! ### The header -/

inductive CType where
  | scalar (fmt : String)
  | list (count value : String)
deriving DecidableEq

/-- What the header says.  `pp`: format and name of the point properties; `cp`: format and name
of the face properties. -/
structure Hdr where
  nv : Nat
  nc : Nat
  pp : List (String × String)
  cp : List (CType × String)
deriving DecidableEq

/-- The element whose properties are being read. -/
inductive Mode where
  | none
  | vertex
  | face
deriving DecidableEq

/-- Cut at the last space, both parts non-empty: what `(.+) (.+)` matches on a line without
blanks at its end. -/
def splitLast (s : List Char) : Option (List Char × List Char) :=
  let name := (s.reverse.takeWhile (· ≠ ' ')).reverse
  let fmt := ((s.reverse.dropWhile (· ≠ ' ')).drop 1).reverse
  if name = [] ∨ fmt = [] then none else some (fmt, name)

/-- `re.match("property (.+) (.+)", line)` -/
def matchProperty (line : List Char) : Option (String × String) :=
  if "property ".toList.isPrefixOf line then
    (splitLast (line.drop 9)).map (fun p => (String.ofList p.1, String.ofList p.2))
  else none

/-- `re.match("property list (.+) (.+) (.+)", line)` -/
def matchList (line : List Char) : Option (CType × String) :=
  if "property list ".toList.isPrefixOf line then
    (splitLast (line.drop 14)).bind (fun p =>
      (splitLast p.1).map (fun q => (.list (String.ofList q.1) (String.ofList q.2), String.ofList p.2)))
  else none

/-- `re.match(pre + "(\\d+)", line)` and `int(...)`. -/
def matchCount (pre : List Char) (line : List Char) : Option Nat :=
  if pre.isPrefixOf line then parseNat ((line.drop pre.length).takeWhile Char.isDigit) else none

/-- Does `_next_line` skip the stripped line?  /repo/src/meshio/ply/_ply.py:66-72. -/
def skipped (t : List Char) : Bool := t = [] || t.take 7 == "comment".toList

/-- `_next_line`, /repo/src/meshio/ply/_ply.py:66-72, on the lines that are left. -/
def nextLine : List (List Char) → Res (List Char × List (List Char))
  | [] => .error .eofLoop
  | l :: ls => if skipped (strip l) then nextLine ls else .ok (strip l, ls)

/-- The header loop, /repo/src/meshio/ply/_ply.py:96-146.  The two inner loops over property
lines are the modes `vertex` and `face`. -/
def header (h : Hdr) (mode : Mode) : List (List Char) → Res (Hdr × List (List Char))
  | [] => .error .eofLoop
  | l :: ls =>
    let t := strip l
    if skipped t then header h mode ls
    else if mode = .vertex ∧ t.take 8 = "property".toList then
      match matchProperty t with
      | none => .error .assertionError
      | some p => header { h with pp := h.pp ++ [p] } .vertex ls
    else if mode = .face ∧ t.take 8 = "property".toList then
      if t.take 13 = "property list".toList then
        match matchList t with
        | none => .error .assertionError
        | some p => header { h with cp := h.cp ++ [p] } .face ls
      else
        match matchProperty t with
        | none => .error .assertionError
        | some p => header { h with cp := h.cp ++ [(.scalar p.1, p.2)] } .face ls
    else if t = "end_header".toList then .ok (h, ls)
    else if t.take 8 = "obj_info".toList then header h .none ls
    else
      match matchCount "element vertex ".toList t with
      | some n => header { h with nv := n } .vertex ls
      | none =>
        match matchCount "element face ".toList t with
        | some n => header { h with nc := n } .face ls
        | none => .error .readError

/-- The format line, /repo/src/meshio/ply/_ply.py:81-93: `none` for text, else the byte order
("big-endian?"). -/
def format (t : List Char) : Res (Option Bool) :=
  if t = "format ascii 1.0".toList then .ok none
  else if t = "format binary_big_endian 1.0".toList then .ok (some true)
  else if t = "format binary_little_endian 1.0".toList then .ok (some false)
  else .error .readError

/-- `read_buffer` up to the end of the header, /repo/src/meshio/ply/_ply.py:75-146. -/
def readHeader (lines : List (List Char)) : Res (Option Bool × Hdr × List (List Char)) :=
  if strip (lines.headD []) ≠ "ply".toList then .error .readError
  else
    match nextLine (lines.drop 1) with
    | .error e => .error e
    | .ok (t, ls) =>
      match format t with
      | .error e => .error e
      | .ok fm =>
        match header ⟨0, 0, [], []⟩ .none ls with
        | .error e => .error e
        | .ok (h, ls) => .ok (fm, h, ls)

/-! ### Bodies -/

/-- What the readers return. -/
structure PlyMesh (F : Type) where
  points : List (List F)
  pointData : List (String × List F)
  cells : List (String × List (List Int))
  cellData : List (String × List (List F))
deriving DecidableEq

/-- The field `k` of each row. -/
def column {α : Type} (rows : List (List α)) (k : Nat) : List α := rows.filterMap (·[k]?)

/-- `table[name]` -/
def lookup (table : Dict Dtype) (name : String) : Res Dtype :=
  match Dict.get? table name with
  | some d => .ok d
  | none => .error .keyError

/-- `np.dtype([(name, table[fmt]) ...])`: unknown formats and repeated names raise. -/
def recordType (table : Dict Dtype) (pp : List (String × String)) : Res (List Dtype) :=
  match mapRes (fun p => lookup table p.1) pp with
  | .error e => .error e
  | .ok ds => if (pp.map (·.2)).Nodup then .ok ds else .error .valueError

/-- A row of `np.genfromtxt`; values it cannot parse (it makes them nan) are left out, as are
comments and blank lines, which it skips. -/
def textRow (fio : FloatIO F) (w : Nat) (line : List Char) : Res (List F) :=
  if (splitWs line).length ≠ w then .error .valueError
  else mapRes (fun t => match fio.parse t with | some x => .ok x | none => .error .unmodelled) (splitWs line)

/-- The columns that hold coordinates, /repo/src/meshio/ply/_ply.py:197-208. -/
def coordColumns (names : List String) : List Nat :=
  (if names[0]? = some "x" then [0] else []) ++ (if names[1]? = some "y" then [1] else []) ++
    (if names[2]? = some "z" then [2] else [])

/-- The point part of `_read_ascii`, /repo/src/meshio/ply/_ply.py:184-213.  A single row comes
back from `np.genfromtxt` without its dimension, so that `Mesh` finds point data without a
length. -/
def asciiPoints (fio : FloatIO F) (h : Hdr) (lines : List (List Char)) :
    Res (List (List F) × List (String × List F)) :=
  match recordType asciiTable h.pp with
  | .error e => .error e
  | .ok _ =>
    if h.nv = 0 then .error .valueError
    else if lines.length < h.nv then .error .unmodelled
    else
      match mapRes (textRow fio h.pp.length) (lines.take h.nv) with
      | .error e => .error e
      | .ok rows =>
        let names := h.pp.map (·.2)
        if names.length < 3 then .error .indexError
        else
          let cs := coordColumns names
          if cs = [] then .error .valueError
          else if h.nv = 1 ∧ cs.length < names.length then .error .typeError
          else .ok (rows.map (fun r => cs.filterMap (fun k => r[k]?)),
            ((names.zipIdx).drop cs.length).map (fun ni => (ni.1, column rows ni.2)))

/-- The state of the loop over the faces: the blocks, and for each face property the values
sorted by the number of vertices. -/
structure FaceSt (F : Type) where
  blocks : List (String × List (List Int))
  cd : List (String × List (Nat × List F))

/-- `cell_blocks.append` or extending the last block, /repo/src/meshio/ply/_ply.py:243-246. -/
def pushFace (bs : List (String × List (List Int))) (a : Nat × List Int) :
    List (String × List (List Int)) :=
  pushBy (fun b a => ((b.2.getLast?).map List.length) == some a.1) (fun b a => (b.1, b.2 ++ [a.2]))
    (fun a => (cellTypeFromCount a.1, [a.2])) bs a

/-- `defaultdict(list)[n] += [v]` -/
def addTo (d : List (Nat × List F)) (n : Nat) (v : F) : List (Nat × List F) :=
  match d with
  | [] => [(n, [v])]
  | (k, l) :: d => if k = n then (k, l ++ [v]) :: d else (k, l) :: addTo d n v

/-- `cell_data[name][n] += [v]` -/
def addData (cd : List (String × List (Nat × List F))) (name : String) (n : Nat) (v : F) :
    List (String × List (Nat × List F)) :=
  cd.map (fun kv => if kv.1 = name then (kv.1, addTo kv.2 n v) else kv)

/-- `[int(t) for t in toks]` -/
def toInts (toks : List (List Char)) : Res (List Int) :=
  mapRes (fun t => match parseInt t with | some i => .ok i | none => .error .valueError) toks

/-- The loop over the properties of one face, /repo/src/meshio/ply/_ply.py:231-254.  Counts from
255 on (where the arithmetic in uint8 is not exact), a scalar property named `vertex_indices` and
vertex numbers of a float type are left out. -/
def faceProps (fio : FloatIO F) (data : List (List Char)) :
    List (CType × String) → Nat → Option Nat → FaceSt F → Res (FaceSt F)
  | [], _, _, st => .ok st
  | (ct, name) :: ps, i, n, st =>
    if name = "vertex_indices" then
      match ct with
      | .scalar _ => .error .unmodelled
      | .list cf vf =>
        match lookup asciiTable cf, (data[i]?).map parseInt, lookup asciiTable vf with
        | .error e, _, _ => .error e
        | .ok _, none, _ => .error .indexError
        | .ok _, some none, _ => .error .valueError
        | .ok _, some (some _), .error e => .error e
        | .ok _, some (some n), .ok vd =>
          if n < 0 ∨ 255 ≤ n ∨ vd.kind = .float then .error .unmodelled
          else
            match toInts (pySlice data (i + 1) (i + n.toNat + 1)) with
            | .error e => .error e
            | .ok idx =>
              faceProps fio data ps (i + n.toNat + 1) (some n.toNat)
                { st with blocks := pushFace st.blocks (n.toNat, idx) }
    else
      match ct with
      | .list _ _ => .error .keyError
      | .scalar f =>
        match lookup asciiTable f, n, data[i]? with
        | .error e, _, _ => .error e
        | .ok _, none, _ => .error .assertionError
        | .ok _, some _, none => .error .indexError
        | .ok _, some n, some t =>
          match fio.parse t with
          | none => .error .valueError
          | some v => faceProps fio data ps (i + 1) (some n) { st with cd := addData st.cd name n v }

/-- The loop over the faces, /repo/src/meshio/ply/_ply.py:219-254; at the end of the file the
lines are empty. -/
def faces (fio : FloatIO F) (cp : List (CType × String)) : Nat → List (List Char) → FaceSt F → Res (FaceSt F)
  | 0, _, st => .ok st
  | k + 1, lines, st =>
    match faceProps fio (splitWs (strip (lines.headD []))) cp 0 none st with
    | .error e => .error e
    | .ok st => faces fio cp k (lines.drop 1) st

/-- The initial cell data, /repo/src/meshio/ply/_ply.py:223-233. -/
def initData (cp : List (CType × String)) : List (String × List (Nat × List F)) :=
  (cp.filter (fun p => p.2 ≠ "vertex_indices")).map (fun p => (p.2, []))

/-- The check of `Mesh` on cell data: one array for each block, of the same length. -/
def fits (cells : List (String × List (List Int))) (cd : List (String × List (List F))) : Bool :=
  cd.all (fun kv => kv.2.map List.length == cells.map (fun c => c.2.length))

/-- `_read_ascii`, /repo/src/meshio/ply/_ply.py:172-260. -/
def readAscii (fio : FloatIO F) (h : Hdr) (lines : List (List Char)) : Res (PlyMesh F) :=
  match asciiPoints fio h lines with
  | .error e => .error e
  | .ok (pts, pd) =>
    match faces fio h.cp h.nc (lines.drop h.nv) ⟨[], if h.nc = 0 then [] else initData h.cp⟩ with
    | .error e => .error e
    | .ok st =>
      let cd := st.cd.map (fun kv => (kv.1, kv.2.map (·.2)))
      if fits st.blocks cd then .ok ⟨pts, pd, st.blocks, cd⟩ else .error .valueError

/-- Values of all dtypes as bytes: `ok d x` says that the dtype represents the value. -/
structure TypedIO (F : Type) where
  ok : Dtype → F → Prop
  enc : Bool → Dtype → F → List Byte
  dec : Bool → Dtype → List Byte → F
  len : ∀ big d x, (enc big d x).length = d.size
  dec_enc : ∀ big d x, ok d x → dec big d (enc big d x) = x

/-- The fields of a record. -/
def fields (tio : TypedIO F) (big : Bool) : List Dtype → List Byte → List F
  | [], _ => []
  | d :: ds, b => tio.dec big d (b.take d.size) :: fields tio big ds (b.drop d.size)

def toBytes (s : List Char) : List Byte := s.map (fun c => Fin.ofNat 256 c.toNat)
def ofBytes (s : List Byte) : List Char := s.map (fun b => Char.ofNat b.val)

/-- `parse_ragged`, /repo/src/meshio/ply/_ply.py:346-352: the lengths in bytes of the rows. -/
def rowLengths (big : Bool) (cs ds : Nat) : Nat → List Byte → List Nat
  | 0, _ => []
  | n + 1, b =>
    let k := natDec big (b.take cs) * ds + cs
    k :: rowLengths big cs ds n (b.drop k)

/-- An integer of a dtype. -/
def intOf (big : Bool) (d : Dtype) (b : List Byte) : Int :=
  if d.kind = .uint then (natDec big b : Int) else intDec big b

/-- `_read_binary_list`, /repo/src/meshio/ply/_ply.py:330-392; the number of bytes consumed and
the blocks.  `scalarOne`: does numpy take `dtype * 1` for the dtype itself (NumPy 1)?  Then a block
of rows of one entry has no second dimension. -/
def readList (scalarOne : Bool) (big : Bool) (cd vd : Dtype) (n : Nat) (b : List Byte) :
    Res (Nat × List (String × List (List Int))) :=
  let lens := rowLengths big cd.size vd.size n b
  match mapRes (fun se : Nat × Nat =>
      let rec_ := lens.getD se.1 0
      let bytes := pySlice b ((lens.take se.1).sum) ((lens.take se.2).sum)
      if bytes.length % rec_ ≠ 0 then .error .valueError
      else
        let cols := (rec_ - cd.size) / vd.size
        if scalarOne = true ∧ cols = 1 then .error .indexError
        else .ok (cellTypeFromCount cols,
          (items rec_ (bytes.length / rec_) bytes).map (fun r =>
            (items vd.size cols (r.drop cd.size)).map (intOf big vd))))
      ((startEnd lens).filter (fun se => se.1 ≠ se.2)) with
  | .error e => .error e
  | .ok blocks => .ok (lens.sum, blocks)

/-- The loop over the face properties, /repo/src/meshio/ply/_ply.py:312-323, and what `Mesh` makes
of the result.  Of a scalar property one value is read, which has no length; further list
properties are left out. -/
def binaryCells (scalarOne : Bool) (big : Bool) (n : Nat) :
    List (CType × String) → List Byte → Res (List (String × List (List Int)))
  | [], _ => .ok []
  | [(.list cf vf, name)], b =>
    match lookup binTable cf, lookup binTable vf with
    | .error e, _ => .error e
    | .ok _, .error e => .error e
    | .ok cd, .ok vd =>
      if name ≠ "vertex_indices" ∨ vd.kind = .float then .error .unmodelled
      else
        match readList scalarOne big cd vd n b with
        | .error e => .error e
        | .ok (_, blocks) => .ok blocks
  | [(.list cf vf, name), (.scalar sf, name')], b =>
    match lookup binTable cf, lookup binTable vf, lookup binTable sf with
    | .error e, _, _ => .error e
    | .ok _, .error e, _ => .error e
    | .ok _, .ok _, .error e => .error e
    | .ok cd, .ok vd, .ok sd =>
      if name ≠ "vertex_indices" ∨ name' = "vertex_indices" ∨ vd.kind = .float then .error .unmodelled
      else
        match readList scalarOne big cd vd n b with
        | .error e => .error e
        | .ok (at_, _) => if (b.drop at_).length < sd.size then .error .valueError else .error .typeError
  | _, _ => .error .unmodelled

/-- `_read_binary`, /repo/src/meshio/ply/_ply.py:262-327. -/
def readBinary (tio : TypedIO F) (scalarOne : Bool) (big : Bool) (h : Hdr) (b : List Byte) :
    Res (PlyMesh F) :=
  match recordType binTable h.pp with
  | .error e => .error e
  | .ok ds =>
    let size := (ds.map (·.size)).sum
    let data := b.take (h.nv * size)
    if size = 0 then .error .unmodelled
    else if data.length % size ≠ 0 then .error .valueError
    else
      let rows := (items size (data.length / size) data).map (fields tio big ds)
      let names := h.pp.map (·.2)
      if "x" ∉ names ∨ "y" ∉ names ∨ "z" ∉ names then .error .valueError
      else
        match binaryCells scalarOne big h.nc h.cp (b.drop (h.nv * size)) with
        | .error e => .error e
        | .ok cells =>
          .ok ⟨rows.map (fun r => [names.idxOf "x", names.idxOf "y", names.idxOf "z"].filterMap (fun k => r[k]?)),
            (names.zipIdx.filter (fun ni => ni.1 ∉ ["x", "y", "z"])).map (fun ni => (ni.1, column rows ni.2)),
            cells, []⟩

/-- `read_buffer`, /repo/src/meshio/ply/_ply.py:75-170. -/
def read (fio : FloatIO F) (tio : TypedIO F) (scalarOne : Bool) (s : List Char) : Res (PlyMesh F) :=
  match readHeader (fileLines s) with
  | .error e => .error e
  | .ok (none, h, ls) => readAscii fio h ls
  | .ok (some big, h, ls) => readBinary tio scalarOne big h (toBytes ls.flatten)

/-! ### Writing -/

/-- A block with the dtype of its array. -/
structure Block where
  type : String
  dt : Dtype
  rows : List (List Int)
deriving DecidableEq

/-- `legal_cell_types`, /repo/src/meshio/ply/_ply.py:435. -/
def legal : List String := ["vertex", "line", "triangle", "quad", "polygon"]

/-- The cast of int64 blocks to int32, /repo/src/meshio/ply/_ply.py:445-455. -/
def cast (b : Block) : Block :=
  if b.dt = i8 then ⟨b.type, i4, b.rows.map (·.map (fun z => intDec false (intEnc false 4 z)))⟩ else b

/-- The property lines, /repo/src/meshio/ply/_ply.py:417-432. -/
def propLine (p : String × String) : List Char :=
  "property ".toList ++ (p.1.toList ++ ' ' :: p.2.toList)

/-- The property of a data array, /repo/src/meshio/ply/_ply.py:427-431. -/
def dataProp (p : String × Dtype × Option (List F)) : Res (String × String) :=
  match typeNameTable.lookup p.2.1 with
  | none => .error .keyError
  | some t => .ok (t, p.1)

/-- The point properties: coordinates, then the point data of one dimension (`none`: data of more
dimensions, skipped), /repo/src/meshio/ply/_ply.py:417-432. -/
def pointProps (dt : Dtype) (dim : Nat) (pd : List (String × Dtype × Option (List F))) :
    Res (List (String × String)) :=
  if 3 < dim then .error .indexError
  else
    match typeNameTable.lookup dt with
    | none => .error .keyError
    | some t =>
      match mapRes dataProp (pd.filter (fun p => p.2.2.isSome)) with
      | .error e => .error e
      | .ok l => .ok ((["x", "y", "z"].take dim).map (fun n => (t, n)) ++ l)

/-- The number of faces, /repo/src/meshio/ply/_ply.py:434-438. -/
def numFaces (cells : List Block) : Nat :=
  ((cells.filter (fun b => legal.contains b.type)).map (fun b => b.rows.length)).sum

/-- The face part of the header, /repo/src/meshio/ply/_ply.py:440-471, and the blocks after the
cast. -/
def faceHeader (cells : List Block) : Res (List (List Char) × List Block) :=
  if numFaces cells = 0 then .ok ([], cells)
  else
    let cells := cells.map cast
    match cells with
    | [] => .ok ([], [])
    | b :: _ =>
      if cells.any (fun c => c.dt ≠ b.dt) then .error .writeError
      else
        match numpyToPly b.dt with
        | none => .error .keyError
        | some t => .ok (["element face ".toList ++ fmtNat (numFaces cells),
            "property list uint8 ".toList ++ (t.toList ++ " vertex_indices".toList)], cells)

/-- The rows of the points with their data. -/
def pointRows (points : List (List F)) (pd : List (String × Dtype × Option (List F))) : List (List F) :=
  points.zipIdx.map (fun pk => pk.1 ++ (pd.filterMap (fun p => p.2.2)).filterMap (·[pk.2]?))

/-- The lines of a block in a text file, /repo/src/meshio/ply/_ply.py:510-524: a blank line for a
block without rows. -/
def blockLines (b : Block) : List (List Char) :=
  if b.rows = [] then [[]]
  else b.rows.map (fun r => joinWith ' ' (fmtNat r.length :: r.map fmtInt))

/-- The bytes of a block in a binary file, /repo/src/meshio/ply/_ply.py:483-496. -/
def blockBytes (big : Bool) (b : Block) : List Byte :=
  b.rows.flatMap (fun r => natEnc big 1 r.length ++ r.flatMap (intEnc big b.dt.size))

/-- The bytes of a record. -/
def recordBytes (tio : TypedIO F) (big : Bool) : List Dtype → List F → List Byte
  | d :: ds, x :: xs => tio.enc big d x ++ recordBytes tio big ds xs
  | _, _ => []

/-- The header lines, /repo/src/meshio/ply/_ply.py:395-474. -/
def headerLines (fm : Option Bool) (comment : List Char) (nv : Nat) (props : List (String × String))
    (face : List (List Char)) : List (List Char) :=
  ["ply".toList,
    (match fm with
      | none => "format ascii 1.0".toList
      | some true => "format binary_big_endian 1.0".toList
      | some false => "format binary_little_endian 1.0".toList),
    "comment Created by meshio v".toList ++ comment,
    "element vertex ".toList ++ fmtNat nv] ++ (props.map propLine ++ (face ++ ["end_header".toList]))

/-- `write`, /repo/src/meshio/ply/_ply.py:395-524.  `fm` is `none` for text, else the byte order of
the machine; rows of more than 255 entries are left out. -/
def write (fio : FloatIO F) (tio : TypedIO F) (fm : Option Bool) (comment : List Char) (dim : Nat)
    (dt : Dtype) (points : List (List F)) (pd : List (String × Dtype × Option (List F)))
    (cells : List Block) : Res (List Char) :=
  match pointProps dt dim pd with
  | .error e => .error e
  | .ok props =>
    match faceHeader cells with
    | .error e => .error e
    | .ok (face, cells) =>
      let hl := headerLines fm comment points.length props face
      let cells := cells.filter (fun b => legal.contains b.type)
      if cells.any (fun b => b.rows.any (fun r => 255 < r.length)) then .error .unmodelled
      else
        match fm with
        | none =>
          if points = [] then .error .indexError
          else .ok (linesText (hl ++ ((pointRows points pd).map (fun r => joinWith ' ' (r.map fio.fmt)) ++
            cells.flatMap blockLines)))
        | some big =>
          .ok (linesText hl ++ ofBytes ((pointRows points pd).flatMap
            (recordBytes tio big (List.replicate dim dt ++ (pd.filter (fun p => p.2.2.isSome)).map (·.2.1))) ++
            cells.flatMap (blockBytes big)))

end Meshio.Ply
