/-
Model of /repo/src/meshio/netgen/_netgen.py on the lines of the (unpacked) text file.
-/
import Verif.Base.Lines
import Verif.Base.Runs
import Verif.Base.Bytes
import Verif.Model.Types
import Verif.Model.Mesh
namespace Meshio.Netgen
open Meshio Types Tables

variable {F : Type}

/-- `_fast_forward_over_blank_lines`, /repo/src/meshio/netgen/_netgen.py:15-27: the next stripped
line that is neither blank nor a comment, `none` at the end of the file. -/
def fastForward : List (List Char) → Option (List Char) × List (List Char)
  | [] => (none, [])
  | l :: ls =>
    if strip l ≠ [] ∧ (strip l).head? ≠ some '#' then (some (strip l), ls) else fastForward ls

/-- `int(f.readline())` -/
def intLine (ls : List (List Char)) : Res (Int × List (List Char)) :=
  match parseInt (strip (ls.headD [])) with
  | some i => .ok (i, ls.drop 1)
  | none => .error .valueError

/-- The points: `np.loadtxt` returns a vector when there is a single row. -/
inductive Points (F : Type) where
  | rows (l : List (List F))
  | flat (p : List F)
deriving DecidableEq

/-- The variables of `read_buffer`, /repo/src/meshio/netgen/_netgen.py:241-249. -/
structure St (F : Type) where
  dim : Option Int
  points : Points F
  cells : List (String × List (List Int × Int))
  twoLines : Bool
  fields : Dict (Int × Int)
  ids : Option (List (List Int))
  idTypes : Option (List Int)

/-- Dimension, `pi0` and `i_index` of a section of cells,
/repo/src/meshio/netgen/_netgen.py:121-141. -/
def sectionOf (name : List Char) : Option (Nat × Nat × Nat) :=
  if name = "pointelements".toList then some (0, 0, 1)
  else if name = "edgesegments".toList ∨ name = "edgesegmentsgi".toList ∨ name = "edgesegmentsgi2".toList then
    some (1, 2, 0)
  else if name = "surfaceelements".toList ∨ name = "surfaceelementsgi".toList ∨ name = "surfaceelementsuv".toList then
    some (2, 5, 1)
  else if name = "volumeelements".toList then some (3, 2, 0)
  else none

/-- `int(data[i])` -/
def intAt (data : List (List Char)) (i : Nat) : Res Int :=
  match data[i]? with
  | none => .error .indexError
  | some t =>
    match parseInt t with
    | some z => .ok z
    | none => .error .valueError

/-- `nump`, /repo/src/meshio/netgen/_netgen.py:122-155. -/
def numNodes (dim : Nat) (data : List (List Char)) : Res Int :=
  if dim = 0 then .ok 1
  else if dim = 1 then .ok 2
  else if dim = 2 then intAt data 4
  else intAt data 1

/-- `list(map(int, toks))` -/
def toInts : List (List Char) → Res (List Int) :=
  mapRes (fun t => match parseInt t with
    | some z => .ok z
    | none => .error .valueError)

/-- One cell, /repo/src/meshio/netgen/_netgen.py:147-160.  A negative number of nodes is left
out. -/
def readCell (dim pi0 ii : Nat) (line : List Char) : Res (String × List Int × Int) :=
  let data := (splitOnC ' ' line).filter (fun t => decide (t ≠ []))
  match intAt data ii with
  | .error e => .error e
  | .ok index =>
    match numNodes dim data with
    | .error e => .error e
    | .ok n =>
      if n < 0 then .error .unmodelled
      else
        match toInts (pySlice data pi0 (pi0 + n.toNat)) with
        | .error e => .error e
        | .ok pi =>
          match find (netgenToMeshio dim) n.toNat with
          | none => .error .keyError
          | some t => .ok (t, pi, index)

/-- The loop of `_read_cells`, /repo/src/meshio/netgen/_netgen.py:146-167; past the end of the
file the line is empty. -/
def readCells (dim pi0 ii : Nat) (two : Bool) : Nat → List (List Char) →
    List (String × List (List Int × Int)) → Res (List (String × List (List Int × Int)) × List (List Char))
  | 0, ls, cells => .ok (cells, ls)
  | n + 1, ls, cells =>
    match readCell dim pi0 ii ((fastForward ls).1.getD []) with
    | .error e => .error e
    | .ok c =>
      let rest := if two then (fastForward (fastForward ls).2).2 else (fastForward ls).2
      readCells dim pi0 ii two n rest (pushTyped cells c)

/-- The words of a line before a comment. -/
def dataLine (l : List Char) : List (List Char) := splitWs (l.takeWhile (· ≠ '#'))

/-- The rows `np.loadtxt(f, max_rows=n)` takes from the file. -/
def takeRows : Nat → List (List Char) → List (List (List Char)) × List (List Char)
  | 0, ls => ([], ls)
  | _ + 1, [] => ([], [])
  | n + 1, l :: ls =>
    if dataLine l = [] then takeRows (n + 1) ls
    else (dataLine l :: (takeRows n ls).1, (takeRows n ls).2)

/-- One number of a text file. -/
def num {α : Type} (parse : List Char → Option α) (t : List Char) : Res α :=
  match parse t with
  | some x => .ok x
  | none => .error .valueError

/-- `np.loadtxt`: all values must be numbers, all rows equally long. -/
def loadtxt {α : Type} (parse : List Char → Option α) (rows : List (List (List Char))) : Res (List (List α)) :=
  match mapRes (mapRes (num parse)) rows with
  | .error e => .error e
  | .ok vs => if vs.all (fun r => r.length = (vs.headD []).length) then .ok vs else .error .valueError

/-- `points[:, :dimension]` if `dimension != 3`, /repo/src/meshio/netgen/_netgen.py:268-271.
Negative dimensions are left out. -/
def cutPoints (dim : Option Int) (vs : List (List F)) : Res (Points F) :=
  match dim with
  | none => .error .unboundLocal
  | some d =>
    if d = 3 then
      match vs with
      | [p] => .ok (.flat p)
      | _ => .ok (.rows vs)
    else if d < 0 then .error .unmodelled
    else if vs.length < 2 then .error .indexError
    else .ok (.rows (vs.map (List.take d.toNat)))

/-- `netgen_codims`, /repo/src/meshio/netgen/_netgen.py:30. -/
def codimNames : List (List Char) :=
  ["materials".toList, "bcnames".toList, "cd2names".toList, "cd3names".toList]

/-- The loop over the names, /repo/src/meshio/netgen/_netgen.py:294-300. -/
def readNames (edim : Int) : Nat → List (List Char) → Dict (Int × Int) → Res (Dict (Int × Int) × List (List Char))
  | 0, ls, d => .ok (d, ls)
  | n + 1, ls, d =>
    match splitWs (ls.headD []) with
    | [i, name] =>
      match parseInt i with
      | none => .error .valueError
      | some i => readNames edim n (ls.drop 1) (Dict.set d (String.ofList name) (i, edim))
    | _ => readNames edim n (ls.drop 1) d

/-- The sections that are skipped, /repo/src/meshio/netgen/_netgen.py:316-324. -/
def skippedSections : List (List Char) :=
  ["face_colours".toList, "singular_edge_left".toList, "singular_edge_right".toList,
   "singular_face_inside".toList, "singular_face_outside".toList, "singular_points".toList]

/-- One round of the loop of `read_buffer`, /repo/src/meshio/netgen/_netgen.py:255-326, for a line
that is not `endmesh`. -/
def step (fio : FloatIO F) (t : List Char) (ls : List (List Char)) (st : St F) :
    Res (St F × List (List Char)) :=
  if t = "dimension".toList then
    match intLine ls with
    | .error e => .error e
    | .ok (d, ls) => .ok ({ st with dim := some d }, ls)
  else if t = "geomtype".toList then
    match intLine ls with
    | .error e => .error e
    | .ok (_, ls) => .ok (st, ls)
  else if t = "points".toList then
    match intLine ls with
    | .error e => .error e
    | .ok (n, ls) =>
      if n ≤ 0 then .ok (st, ls)
      else
        match loadtxt fio.parse (takeRows n.toNat ls).1 with
        | .error e => .error e
        | .ok vs =>
          match cutPoints st.dim vs with
          | .error e => .error e
          | .ok p => .ok ({ st with points := p }, (takeRows n.toNat ls).2)
  else
    match sectionOf t with
    | some (dim, pi0, ii) =>
      match intLine ls with
      | .error e => .error e
      | .ok (n, ls) =>
        match readCells dim pi0 ii st.twoLines n.toNat ls st.cells with
        | .error e => .error e
        | .ok (cells, ls) => .ok ({ st with cells := cells }, ls)
    | none =>
      if splitWs t = ["surf1".toList, "surf2".toList, "p1".toList, "p2".toList] then
        .ok ({ st with twoLines := true }, ls)
      else if t ∈ codimNames then
        match st.dim with
        | none => .error .unboundLocal
        | some d =>
          match intLine ls with
          | .error e => .error e
          | .ok (n, ls) =>
            match readNames (d - codimNames.idxOf t) n.toNat ls st.fields with
            | .error e => .error e
            | .ok (f, ls) => .ok ({ st with fields := f }, ls)
      else if t = "identifications".toList then
        match intLine ls with
        | .error e => .error e
        | .ok (n, ls) =>
          if n ≤ 0 then .ok (st, ls)
          else
            match loadtxt parseInt (takeRows n.toNat ls).1 with
            | .error e => .error e
            | .ok vs =>
              match reshape n.toNat 3 vs.flatten with
              | .error e => .error e
              | .ok rows => .ok ({ st with ids := some rows }, (takeRows n.toNat ls).2)
      else if t = "identificationtypes".toList then
        match intLine ls with
        | .error e => .error e
        | .ok (n, ls) =>
          if n ≤ 0 then .ok (st, ls)
          else
            match loadtxt parseInt (takeRows 1 ls).1 with
            | .error e => .error e
            | .ok vs =>
              if vs.flatten.length = n.toNat then .ok ({ st with idTypes := some vs.flatten }, (takeRows 1 ls).2)
              else .error .valueError
      else if t ∈ skippedSections then
        match intLine ls with
        | .error e => .error e
        | .ok (n, ls) => .ok (st, ls.drop n.toNat)
      else .error .runtimeError

/-- The loop of `read_buffer`. -/
def loop (fio : FloatIO F) : Nat → List (List Char) → St F → Res (St F)
  | 0, _, _ => .error .eofLoop
  | k + 1, ls, st =>
    match (fastForward ls).1 with
    | none => .ok st
    | some t =>
      if t = "endmesh".toList then .ok st
      else
        match step fio t (fastForward ls).2 st with
        | .error e => .error e
        | .ok (st, ls) => loop fio k ls st

/-- What the reader returns. -/
structure NetMesh (F : Type) where
  points : Points F
  cells : List (String × List (List Int))
  index : List (List Int)
  fields : Dict (Int × Int)
  info : Option (List (List Int) × Option (List Int))
deriving DecidableEq

/-- The conversion of a block, /repo/src/meshio/netgen/_netgen.py:331-335, and the look-up of its
dimension by `Mesh`.  Numbers outside uint32 or below 1 are left out. -/
def convert (b : String × List (List Int × Int)) : Res (String × List (List Int)) :=
  match find netgenPmap b.1 with
  | none => .error .keyError
  | some p =>
    if b.2.any (fun r => r.1.length ≠ ((b.2.headD ([], 0)).1).length) then .error .valueError
    else if b.2.any (fun r => r.1.any (fun z => z < 1 ∨ (256 : Int) ^ 4 ≤ z)) then .error .unmodelled
    else
      match mapRes (fun r : List Int × Int => pick r.1 p) b.2 with
      | .error e => .error e
      | .ok rows =>
        match topologicalDimension.get? b.1 with
        | none => .error .keyError
        | some _ => .ok (b.1, rows.map (·.map (· - 1)))

/-- `read_buffer`, /repo/src/meshio/netgen/_netgen.py:240-353. -/
def read (fio : FloatIO F) (s : List Char) : Res (NetMesh F) :=
  let ls := fileLines s
  if (fastForward ls).1 ≠ some "mesh3d".toList then .error .runtimeError
  else
    match loop fio (ls.length + 1) (fastForward ls).2 ⟨none, .rows [], [], false, [], none, none⟩ with
    | .error e => .error e
    | .ok st =>
      match mapRes convert st.cells with
      | .error e => .error e
      | .ok cells => .ok ⟨st.points, cells, st.cells.map (fun b => b.2.map (·.2)), st.fields,
          st.ids.map (fun i => (i, st.idTypes))⟩

/-! ### Writing -/

/-- A cell block with its index data, if any. -/
structure Block where
  type : String
  rows : List (List Int)
  index : Option (List Int)
deriving DecidableEq

/-- `block.dim` -/
def Block.dim (b : Block) : Option Nat := topologicalDimension.get? b.type

/-- `pre_data`, /repo/src/meshio/netgen/_netgen.py:177-188. -/
def preData (dim n : Nat) : List Int :=
  if dim = 0 then [] else if dim = 1 then [1, 0] else if dim = 2 then [1, 1, 0, 0, n] else [1, n]

/-- `post_data` -/
def postData (dim : Nat) : List Int :=
  if dim = 0 then [1] else if dim = 1 then [-1, -1, 0, 0, 1, 0, 1, 0] else []

/-- `i_index` -/
def indexColumn (dim : Nat) : Nat := if dim = 0 then 1 else if dim = 2 then 1 else 0

/-- Conversion to int32. -/
def wrap32 (z : Int) : Int := intDec false (intEnc false 4 z)

/-- A row of `pi`, /repo/src/meshio/netgen/_netgen.py:196-201. -/
def cellRow (dim : Nat) (p : List Nat) (r : List Int) (index : Option Int) : Res (List Int) :=
  match pick r p with
  | .error e => .error e
  | .ok s =>
    let row := preData dim p.length ++ (s.map (· + 1) ++ postData dim)
    .ok ((match index with
      | none => row
      | some i => row.set (indexColumn dim) i).map wrap32)

/-- `_write_cells`, /repo/src/meshio/netgen/_netgen.py:170-202. -/
def cellLines (dim : Nat) (b : Block) : Res (List (List Char)) :=
  if b.rows = [] then .ok []
  else
    match find netgenIPmap b.type with
    | none => .error .keyError
    | some p =>
      match mapRes (fun ri : List Int × Nat => cellRow dim p ri.1 (b.index.bind (·[ri.2]?))) b.rows.zipIdx with
      | .error e => .error e
      | .ok rows => .ok (rows.map (fun r => joinWith ' ' (r.map fmtInt)))

/-- A section of cells, /repo/src/meshio/netgen/_netgen.py:404-433 and 446-451. -/
def sectionLines (comment title : String) (dim : Nat) (bs : List Block) : Res (List (List Char)) :=
  let bs := bs.filter (fun b => b.dim == some dim)
  match mapRes (cellLines dim) bs with
  | .error e => .error e
  | .ok ls => .ok ([[], comment.toList, title.toList, fmtNat ((bs.map (fun b => b.rows.length)).sum)] ++ ls.flatten)

/-- The names of a codimension, /repo/src/meshio/netgen/_netgen.py:213-233. -/
def codimData (fields : Dict (Int × Int)) (bs : List Block) (dim codim : Nat) : List (Int × String) :=
  match (fields.filter (fun f => f.2.2 = (dim : Int) - codim)).map (fun f => (f.2.1, f.1)) with
  | [] =>
    ((bs.filter (fun b => b.dim == some (dim - codim))).flatMap (fun b => b.index.getD [])).map (fun i =>
      (i, String.ofList ("cd".toList ++ (fmtNat codim ++ '_' :: fmtInt i))))
  | d => d

/-- `data.get(i, "")`; the last entry counts. -/
def nameOf (data : List (Int × String)) (i : Int) : String :=
  (((data.filter (fun d => d.1 = i)).getLast?).map (·.2)).getD ""

/-- `max(data.keys())`, and 0 for negative maxima (nothing is written then). -/
def maxKey (data : List (Int × String)) : Int := (data.map (·.1)).foldl max ((data.headD (0, "")).1)

/-- `_write_codim_domain_data`, /repo/src/meshio/netgen/_netgen.py:212-237. -/
def codimLines (fields : Dict (Int × Int)) (bs : List Block) (dim codim : Nat) : List (List Char) :=
  match codimData fields bs dim codim with
  | [] => []
  | data =>
    [[], codimNames.getD codim [], fmtInt (maxKey data)] ++
      (List.range (maxKey data).toNat).map (fun i => fmtNat (i + 1) ++ ' ' :: (nameOf data (i + 1)).toList)

/-- The choice of the index data, /repo/src/meshio/netgen/_netgen.py:379-393: `netgen:index`, else
the first data of integers. -/
def pickIndex (cd : List (String × Bool × List (List Int))) : Option (List (List Int)) :=
  match cd.find? (fun d => d.1 = "netgen:index") with
  | some d => some d.2.2
  | none => (cd.find? (fun d => d.2.1)).map (·.2.2)

/-- The identifications, /repo/src/meshio/netgen/_netgen.py:453-466. -/
def infoLines : Option (List (List Int) × List Int) → List (List Char)
  | none => []
  | some (ids, types) =>
    [[], "identifications".toList, fmtNat ids.length] ++ (ids.map (fun r => joinWith ' ' (r.map fmtInt)) ++
      [[], "identificationtypes".toList, fmtNat types.length, joinWith ' ' (types.map fmtInt)])

/-- `write_buffer`, /repo/src/meshio/netgen/_netgen.py:370-471. -/
def write (fio : FloatIO F) (version : List Char) (zero : F) (dim : Nat) (points : List (List F))
    (bs : List Block) (fields : Dict (Int × Int)) (info : Option (List (List Int) × List Int)) : Res (List Char) :=
  match sectionLines "# surfnr    bcnr   domin  domout      np      p1      p2      p3" "surfaceelements" 2 bs,
    sectionLines "#  matnr      np      p1      p2      p3      p4" "volumeelements" 3 bs,
    sectionLines "# surfid  0   p1   p2   trignum1    trignum2   domin/surfnr1    domout/surfnr2   ednr1   dist1   ednr2   dist2"
      "edgesegmentsgi2" 1 bs,
    sectionLines "#          pnum             index" "pointelements" 0 bs with
  | .ok s2, .ok s3, .ok s1, .ok s0 =>
    if 3 < dim then .error .valueError
    else
      .ok (linesText (["# Generated by meshio ".toList ++ version, "mesh3d".toList, [], "dimension".toList, fmtNat dim, [],
          "geomtype".toList, fmtNat 0] ++ (s2 ++ (s3 ++ (s1 ++
        ([[], "#          X             Y             Z".toList, "points".toList, fmtNat points.length] ++
        (points.map (fun p => joinWith ' ' ((p ++ List.replicate (3 - dim) zero).map fio.fmt)) ++
        (s0 ++ (infoLines info ++ ((List.range (dim + 1)).flatMap (codimLines fields bs dim) ++
          [[], "endmesh".toList]))))))))))
  | .error e, _, _, _ => .error e
  | _, .error e, _, _ => .error e
  | _, _, .error e, _ => .error e
  | _, _, _, .error e => .error e

end Meshio.Netgen
