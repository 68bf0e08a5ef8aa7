/-
SU2 files: /repo/src/meshio/su2/_su2.py.
-/
import Verif.Base.File
import Verif.Base.Lines
import Verif.Base.Runs
import Verif.Base.Unique
import Verif.Model.Types

namespace Meshio
namespace Su2
open Types Tables

variable {F : Type}

/-- `su2_type_to_numnodes[x]` -/
def numNodes (x : Int) : Option Nat := if x < 0 then none else find su2NumNodes x.toNat

/-- `su2_to_meshio_type[x]` -/
def typeName (x : Int) : Option String := if x < 0 then none else find su2ToMeshio x.toNat

/-- The loop that collects the types, /repo/src/meshio/su2/_su2.py:222-226: `off` is `entry_offset`; the
second list argument counts the entries still to be skipped. -/
def scanTypes (off : Nat) : List Int → Nat → Res (List Int)
  | [], _ => .ok []
  | _ :: l, k + 1 => scanTypes off l k
  | x :: l, 0 =>
    match numNodes x with
    | none => .error .keyError
    | some n =>
      match scanTypes off l (n + off - 1) with
      | .error e => .error e
      | .ok ts => .ok (x :: ts)

/-- `np.cumsum(w) - w`, starting from `s`. -/
def offsets (s : Nat) : List Nat → List Nat
  | [] => []
  | w :: ws => s :: offsets (s + w) ws

/-- The cells of one type, /repo/src/meshio/su2/_su2.py:241-245. -/
def cellsOf (data : List Int) (toffs : List (Int × Nat)) (x : Int) : Res (String × List (List Int)) :=
  match typeName x, numNodes x with
  | some t, some n =>
    match mapRes (fun o : Nat => mapRes (fun j : Nat => npIndex data ((o + 1 + j : Nat) : Int)) (List.range n))
        ((toffs.filter fun p => decide (p.1 = x)).map (·.2)) with
    | .error e => .error e
    | .ok rows => .ok (t, rows)
  | _, _ => .error .keyError

/-- `_translate_cells`, /repo/src/meshio/su2/_su2.py:208-247. -/
def translate (extra : Bool) (data : List Int) : Res (List (String × List (List Int))) :=
  let off := if extra then 2 else 1
  match scanTypes off data 0 with
  | .error e => .error e
  | .ok types =>
    let offs := offsets 0 (types.map fun x => (numNodes x).getD 0 + off)
    mapRes (cellsOf data (types.zip offs)) (intUnique types)

/-- One block with its tags. -/
structure Blk where
  type : String
  rows : List (List Int)
  tags : List Int
deriving DecidableEq, Repr

/-- Local variables of `read_buffer`, /repo/src/meshio/su2/_su2.py:52-61 (the number of markers only
serves a warning). -/
structure St (F : Type) where
  dim : Int
  points : Option (List (List F))
  cells : List Blk
  tag : Int
deriving DecidableEq, Repr

/-- `int(s)` -/
def pyInt (s : List Char) : Res Int :=
  match parseInt (strip s) with
  | some i => .ok i
  | none => .error .valueError

/-- One number. -/
def num {α : Type} (parse : List Char → Option α) (t : List Char) : Res α :=
  match parse t with
  | some x => .ok x
  | none => .error .valueError

/-- `list(islice(f, n))` -/
def takeLines : Nat → List Char → List (List Char) × List Char
  | 0, s => ([], s)
  | _ + 1, [] => ([], [])
  | n + 1, s => ((readLine s).1 :: (takeLines n (readLine s).2).1, (takeLines n (readLine s).2).2)

/-- The `NPOIN` section, /repo/src/meshio/su2/_su2.py:87-113: `rest` is the text after the equality sign,
`s` the file after that line.  `NPOIN= 0` (a negative count) is left out. -/
def readPoints (fio : FloatIO F) (dim : Int) (rest s : List Char) : Res (List (List F) × List Char) :=
  match mapRes (num fio.parse) (splitWs (readLine s).1) with
  | .error e => .error e
  | .ok first =>
    match splitWs rest with
    | [] => .error .indexError
    | t :: _ =>
      match parseInt t with
      | none => .error .valueError
      | some n =>
        if n < 1 then .error .unmodelled
        else
          let r := scan fio.parse ((n - 1).toNat * first.length) (readLine s).2
          match reshape (n - 1).toNat first.length r.1 with
          | .error e => .error e
          | .ok rows =>
            if dim < (first.length : Int) then .ok ((first :: rows).map (·.take dim.toNat), r.2)
            else .ok (first :: rows, r.2)

/-- Is there a column more than the nodes?  /repo/src/meshio/su2/_su2.py:125-134. -/
def extraColumn (first : List (List Char)) : Res Bool :=
  match first with
  | [] => .error .indexError
  | t :: _ =>
    match parseInt t with
    | none => .error .valueError
    | some x =>
      match numNodes x with
      | none => .error .keyError
      | some n =>
        if n + 1 = first.length then .ok false
        else if n + 2 = first.length then .ok true
        else .error .readError

/-- `NELEM` and `MARKER_ELEMS`, /repo/src/meshio/su2/_su2.py:115-153.  (`f.tell()` after iteration over the
file, which a later `np.fromfile` asks for, is taken to work.) -/
def readElems (tag : Int) (rest s : List Char) : Res (List Blk × List Char) :=
  match pyInt rest with
  | .error e => .error e
  | .ok n =>
    if n < 0 then .error .valueError
    else
      match (takeLines n.toNat s).1 with
      | [] => .error .stopIteration
      | l :: ls =>
        match extraColumn (splitWs l) with
        | .error e => .error e
        | .ok extra =>
          match mapRes (num parseInt) ((l :: ls).flatMap splitWs) with
          | .error e => .error e
          | .ok data =>
            match translate extra data with
            | .error e => .error e
            | .ok cells =>
              .ok (cells.map fun c => ⟨c.1, c.2, List.replicate c.2.length tag⟩, (takeLines n.toNat s).2)

/-- One turn of the loop, /repo/src/meshio/su2/_su2.py:62-167, for a line and the rest of the file. -/
def readSection (fio : FloatIO F) (st : St F) (line s : List Char) : Res (St F × List Char) :=
  if strip line = [] then .ok (st, s)
  else if (strip line).head? = some '%' then .ok (st, s)
  else
    match splitOnC '=' (strip line) with
    | [name, rest] =>
      if name = "NDIME".toList then
        match pyInt rest with
        | .error e => .error e
        | .ok d => if d ≠ 2 ∧ d ≠ 3 then .error .readError else .ok ({ st with dim := d }, s)
      else if name = "NPOIN".toList then
        match readPoints fio st.dim rest s with
        | .error e => .error e
        | .ok (p, s') => .ok ({ st with points := some p }, s')
      else if name = "NELEM".toList then
        match readElems 0 rest s with
        | .error e => .error e
        | .ok (bs, s') => .ok ({ st with cells := st.cells ++ bs }, s')
      else if name = "MARKER_ELEMS".toList then
        match readElems st.tag rest s with
        | .error e => .error e
        | .ok (bs, s') => .ok ({ st with cells := st.cells ++ bs }, s')
      else if name = "NMARK".toList then
        match pyInt rest with
        | .error e => .error e
        | .ok _ => .ok (st, s)
      else if name = "MARKER_TAG".toList then
        match pyInt rest with
        | .ok i => .ok ({ st with tag := i }, s)
        | .error _ => .ok ({ st with tag := st.tag + 1 }, s)
      else .ok (st, s)
    | _ => .ok (st, s)

/-- The loop; every turn takes at least one character, so the length of the file is enough fuel. -/
def readLoop (fio : FloatIO F) : Nat → St F → List Char → Res (St F)
  | _, st, [] => .ok st
  | 0, _, _ :: _ => .error .eofLoop
  | n + 1, st, c :: s =>
    match readSection fio st (readLine (c :: s)).1 (readLine (c :: s)).2 with
    | .error e => .error e
    | .ok (st', s') => readLoop fio n st' s'

/-- The blocks of the boundary types are put together at the place of the first,
/repo/src/meshio/su2/_su2.py:175-204 (the deletions from the back are one filter here). -/
def merge (types : List String) (bs : List Blk) : List Blk :=
  bs.zipIdx.filterMap fun bi =>
    if bi.1.type ∈ types then
      if bs.findIdx? (fun b => b.type = bi.1.type) = some bi.2 then
        some ⟨bi.1.type, (bs.filter fun b => b.type = bi.1.type).flatMap (·.rows),
          (bs.filter fun b => b.type = bi.1.type).flatMap (·.tags)⟩
      else none
    else some bi.1

/-- `read_buffer`, /repo/src/meshio/su2/_su2.py:52-205: points and blocks. -/
def read (fio : FloatIO F) (s : List Char) : Res (List (List F) × List Blk) :=
  match readLoop fio s.length { dim := 0, points := none, cells := [], tag := 0 } s with
  | .error e => .error e
  | .ok st =>
    match st.points with
    | none => .error .unboundLocal
    | some p => .ok (p, merge (if st.dim = 2 then ["line"] else ["triangle", "quad"]) st.cells)

/-! ## Writing -/

/-- A row of text. -/
def row (toks : List (List Char)) : List Char := joinWith ' ' toks

/-- The lines of the cells in the domain, /repo/src/meshio/su2/_su2.py:278-294. -/
def elemLines (cells : List (String × List (List Int))) : Res (List (List Char)) :=
  match mapRes (fun b : String × List (List Int) =>
      match find meshioToSu2 b.1 with
      | none => .error .keyError
      | some c => .ok (b.2.map fun r => row (fmtInt c :: r.map fmtInt))) cells with
  | .error e => .error e
  | .ok l => .ok l.flatten

/-- Types in the domain and on the boundary, /repo/src/meshio/su2/_su2.py:271-276,308-311. -/
def innerTypes (dim : Nat) : List String :=
  if dim = 2 then ["triangle", "quad"] else ["tetra", "hexahedron", "wedge", "pyramid"]
def outerTypes (dim : Nat) : List String := if dim = 2 then ["line"] else ["triangle", "quad"]

/-- `write`, /repo/src/meshio/su2/_su2.py:250-380, for points with `dim` columns.  As soon as there is a
cell on the boundary there is a tag, and the loop over the tags unpacks cell blocks into two variables:
TypeError.  (So what the code does to labels is never reached.) -/
def write (fio : FloatIO F) (dim : Nat) (points : List (List F)) (cells : List (String × List (List Int))) : Res (List Char) :=
  let inner := cells.filter fun b => decide (b.1 ∈ innerTypes dim)
  match elemLines inner with
  | .error e => .error e
  | .ok ls =>
    if cells.any (fun b => decide (b.1 ∈ outerTypes dim) && !b.2.isEmpty) then .error .typeError
    else
      .ok (linesText ([ "NDIME= ".toList ++ fmtNat dim, "NPOIN= ".toList ++ fmtNat points.length ] ++
        points.map (fun p => row (p.map fio.fmt)) ++
        [ "NELEM= ".toList ++ fmtNat (inner.map fun b => b.2.length).sum ] ++ ls ++ [ "NMARK= ".toList ++ fmtNat 0 ]))

end Su2
end Meshio
