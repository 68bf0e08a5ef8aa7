/-
MDPA files: /repo/src/meshio/mdpa/_mdpa.py, on the text of the file.
-/
import Verif.Base.Infix
import Verif.Base.Runs
import Verif.Base.Scan
import Verif.Model.Mesh
import Verif.Model.Common
import Verif.Model.Types

namespace Meshio
namespace Mdpa
open Types Tables

variable {F : Type}

/-- Floats in MDPA files: coordinates with full precision (`"{:.16e}"`), data by `repr`.  Coordinates never contain the letter
`d`, integers are numbers too, `repr` does not break lines. -/
structure MdpaFloat (F : Type) extends FloatIO F where
  noD : ∀ x, 'd' ∉ fmt x
  parse_int : ∀ i : Int, ∃ x, parse (fmtInt i) = some x
  repr : F → List Char
  reprLine : ∀ x, '\n' ∉ repr x
  zero : F

/-- Integers are a possible choice of values. -/
def MdpaFloat.int : MdpaFloat Int where
  toFloatIO := FloatIO.int
  noD x := not_mem_fmtInt (by decide) (by decide) x
  parse_int i := ⟨i, parseInt_fmtInt i⟩
  repr := fmtInt
  reprLine x := not_mem_fmtInt (by decide) (by decide) x
  zero := 0

/-- The mesh that is read. -/
structure Out (F : Type) where
  points : List (List F)
  cells : List (String × List (List Int))
deriving DecidableEq

/-- The number of lines before the one that contains `End Nodes`, /repo/src/meshio/mdpa/_mdpa.py:109-114; without it the loop
does not end. -/
def countNodes : Nat → List Char → Res Nat
  | 0, _ => .error .eofLoop
  | fuel + 1, s =>
    if s = [] then .error .eofLoop
    else if hasSub "End Nodes".toList (readLine s).1 then .ok 0
    else
      match countNodes fuel (readLine s).2 with
      | .error e => .error e
      | .ok n => .ok (n + 1)

/-- `_read_nodes`, /repo/src/meshio/mdpa/_mdpa.py:101-124.  `np.fromfile` skips the whitespace after the last number. -/
def readNodes (parse : List Char → Option F) (s : List Char) : Res (List (List F) × List Char) :=
  match countNodes (s.length + 1) s with
  | .error e => .error e
  | .ok n =>
    match reshape n 4 (scan parse (n * 4) s).1 with
    | .error e => .error e
    | .ok rows =>
      let s' := if n = 0 then s else (scan parse (n * 4) s).2.dropWhile isWs
      if strip (readLine s').1 ≠ "End Nodes".toList then .error .readError
      else .ok (rows.map (·.drop 1), (readLine s').2)

/-- The type of an entity by its name: the first name in the table that it contains, /repo/src/meshio/mdpa/_mdpa.py:131-145. -/
def typeOfName (name : List Char) : Option String :=
  (mdpaToMeshio.find? fun kv => hasSub kv.1.toList name).map (·.2)

/-- The same, from the line that begins the section. -/
def typeOfLine (environ : List Char) : Option String :=
  if "Begin Elements ".toList.isPrefixOf environ then typeOfName (environ.drop 15)
  else if "Begin Conditions ".toList.isPrefixOf environ then typeOfName (environ.drop 17)
  else none

/-- `inverse_num_nodes_per_cell`, /repo/src/meshio/mdpa/_mdpa.py:64. -/
def typeOfCount (n : Int) : Option String :=
  if n < 0 then none else find (invDict numNodesPerCell) n.toNat

/-- `int(k)` -/
def toInt (t : List Char) : Res Int :=
  match parseInt t with
  | some z => .ok z
  | none => .error .valueError

/-- `data[-num_nodes_per_elem:]`, where the number is `len(data) - 2`. -/
def nodesOf (data : List Int) : List Int :=
  if data.length = 2 then data else data.drop 2

/-- One entity, /repo/src/meshio/mdpa/_mdpa.py:154-168: the type may be found here, from the number of nodes. -/
def readRow (t : Option String) (cells : List (String × List (List Int))) (line : List Char) :
    Res (String × List (String × List (List Int))) :=
  match mapRes toInt (splitWs line) with
  | .error e => .error e
  | .ok data =>
    match (match t with
      | some t => some t
      | none => typeOfCount ((data.length : Int) - 2)) with
    | none => .error .keyError
    | some t =>
      if data.length < 2 then .error .indexError
      else .ok (t, pushTyped cells (t, (nodesOf data).map (· - 1)))

/-- The loop of `_read_cells`, /repo/src/meshio/mdpa/_mdpa.py:147-174.  At the end of the file the empty line is an error. -/
def readRows : Nat → Option String → List (String × List (List Int)) → List Char →
    Res (List (String × List (List Int)) × List Char)
  | 0, _, _, _ => .error .indexError
  | fuel + 1, t, cells, s =>
    if "End Elements".toList.isPrefixOf (readLine s).1 ∨ "End Conditions".toList.isPrefixOf (readLine s).1 then
      if strip (readLine s).1 = "End Elements".toList ∨ strip (readLine s).1 = "End Conditions".toList then
        .ok (cells, (readLine s).2)
      else .error .readError
    else
      match readRow t cells (readLine s).1 with
      | .error e => .error e
      | .ok (t, cells) => readRows fuel (some t) cells (readLine s).2

/-- The loop of `read_buffer`, /repo/src/meshio/mdpa/_mdpa.py:301-313. -/
def readLoop (parse : List Char → Option F) : Nat → Out F → List Char → Res (Out F)
  | 0, st, _ => .ok st
  | fuel + 1, st, s =>
    if s = [] then .ok st
    else
      if "Begin Nodes".toList.isPrefixOf (strip (readLine s).1) then
        match readNodes parse (readLine s).2 with
        | .error e => .error e
        | .ok (p, s) => readLoop parse fuel ⟨p, st.cells⟩ s
      else if "Begin Elements".toList.isPrefixOf (strip (readLine s).1) ∨
          "Begin Conditions".toList.isPrefixOf (strip (readLine s).1) then
        match readRows (s.length + 1) (typeOfLine (strip (readLine s).1)) st.cells (readLine s).2 with
        | .error e => .error e
        | .ok (cells, s) => readLoop parse fuel ⟨st.points, cells⟩ s
      else readLoop parse fuel st (readLine s).2

/-- The `CellBlock`s: rows of equal length and a type whose dimension is known; /repo/src/meshio/_mesh.py:89-113. -/
def checkBlock (b : String × List (List Int)) : Res Unit :=
  if b.2.all (fun r => decide (r.length = (b.2.headD []).length)) then
    match Dict.get? topologicalDimension b.1 with
    | none => .error .keyError
    | some _ => .ok ()
  else .error .valueError

/-- `read_buffer`, /repo/src/meshio/mdpa/_mdpa.py:279-349.  `_prepare_cells` changes nothing (see `Types.mdpaReorder`): the
numbers of the properties are not returned. -/
def read (parse : List Char → Option F) (s : List Char) : Res (Out F) :=
  match readLoop parse (s.length + 1) ⟨[], []⟩ s with
  | .error e => .error e
  | .ok m =>
    match mapRes checkBlock m.cells with
    | .error e => .error e
    | .ok _ => .ok m

/-! ## Writing -/

/-- The mesh that is written; points of dimension `dim`.  `gmsh:physical` and `gmsh:geometrical`, which are not written, are left
out. -/
structure In (F : Type) where
  dim : Nat
  points : List (List F)
  cells : List (String × List (List Int))
  pointData : Dict (NArr (List F))
  cellData : Dict (List (NArr (List F)))

/-- `identity dimension`, /repo/src/meshio/mdpa/_mdpa.py:506-512. -/
def dimension : List (String × List (List Int)) → Res Nat
  | [] => .ok 2
  | b :: cells =>
    match find meshioToMdpa b.1 with
    | none => .error .keyError
    | some n =>
      match find mdpaLocalDim n with
      | none => .error .keyError
      | some d => if d = 3 then .ok 3 else dimension cells

/-- The name that is written for a type, /repo/src/meshio/mdpa/_mdpa.py:380-392. -/
def entityName (dim : Nat) (t : String) : Res (List Char) :=
  match find meshioToMdpa t with
  | none => .error .keyError
  | some n =>
    .ok (replace2 (if dim = 2 then '3' else '2') 'D' (fmtNat dim ++ ['D']) n.toList)

/-- One node, /repo/src/meshio/mdpa/_mdpa.py:369-371. -/
def nodeLine (fmt : F → List Char) (pi : List F × Nat) : Res (List Char) :=
  match pi.1 with
  | x :: y :: z :: _ => .ok (' ' :: joinWith ' ' [fmtNat (pi.2 + 1), fmt x, fmt y, fmt z])
  | _ => .error .indexError

/-- One entity, /repo/src/meshio/mdpa/_mdpa.py:396-402: there are no tags. -/
def cellLine (start : Nat) (ri : List Int × Nat) : List Char :=
  ' ' :: (fmtNat (start + ri.2 + 1) ++ " 0  ".toList ++ joinWith ' ' (ri.1.map fun z => fmtInt (z + 1)))

/-- `_write_elements_and_conditions`, /repo/src/meshio/mdpa/_mdpa.py:375-405. -/
def blockLines (dim : Nat) : Nat → List (String × List (List Int)) → Res (List (List Char))
  | _, [] => .ok []
  | start, b :: cells =>
    match entityName dim b.1 with
    | .error e => .error e
    | .ok n =>
      match blockLines dim (start + b.2.length) cells with
      | .error e => .error e
      | .ok r => .ok (("Begin Elements ".toList ++ n) :: (b.2.zipIdx.map (cellLine start) ++ ["End Elements".toList, []] ++ r))

/-- `_write_data`, /repo/src/meshio/mdpa/_mdpa.py:408-430.  Arrays of more than two dimensions are left out. -/
def dataLines (repr : F → List Char) (tag : List Char) (name : String) (a : NArr (List F)) : Res (List (List Char)) :=
  if 1 < a.tail.length then .error .unmodelled
  else
    .ok (["Begin ".toList ++ tag ++ ' ' :: name.toList, []] ++
      a.rows.zipIdx.map (fun ri => joinWith ' ' (fmtNat (ri.2 + 1) :: ri.1.map repr)) ++
      ["End ".toList ++ tag ++ ' ' :: name.toList, []])

/-- All the arrays. -/
def datasLines (repr : F → List Char) (tag : List Char) (d : Dict (NArr (List F))) : Res (List (List Char)) :=
  match mapRes (fun kv => dataLines repr tag kv.1 kv.2) d with
  | .error e => .error e
  | .ok l => .ok l.flatten

/-- `raw_from_cell_data`, entry by entry. -/
def rawData (d : Dict (List (NArr (List F)))) : Res (Dict (NArr (List F))) :=
  mapRes (fun kv => match rawFromCellData kv.2 with
    | .error e => .error e
    | .ok a => .ok (kv.1, a)) d

/-- The first lines, /repo/src/meshio/mdpa/_mdpa.py:490-494. -/
def header : List (List Char) :=
  ["Begin ModelPartData".toList, "//  VARIABLE_NAME value".toList, "End ModelPartData".toList, [],
   "Begin Properties 0".toList, "End Properties".toList, []]

/-- `write`, /repo/src/meshio/mdpa/_mdpa.py:433-522, after the check of `binary` (see `writeWith`). -/
def write (io : MdpaFloat F) (m : In F) : Res (List Char) :=
  let points := if m.dim = 2 then m.points.map (· ++ [io.zero]) else m.points
  match dimension m.cells with
  | .error e => .error e
  | .ok dim =>
    match mapRes (nodeLine io.fmt) points.zipIdx with
    | .error e => .error e
    | .ok nodes =>
      match blockLines dim 0 m.cells with
      | .error e => .error e
      | .ok blocks =>
        match datasLines io.repr "NodalData".toList m.pointData with
        | .error e => .error e
        | .ok pd =>
          match rawData m.cellData with
          | .error e => .error e
          | .ok raw =>
            match datasLines io.repr "ElementalData".toList raw with
            | .error e => .error e
            | .ok cd =>
              .ok (linesText (header ++ "Begin Nodes".toList :: (nodes ++ ["End Nodes".toList, []] ++ blocks ++ pd ++ cd)))

/-- `write` with the keyword `binary`, /repo/src/meshio/mdpa/_mdpa.py:437-438: refused before the file is opened. -/
def writeWith (io : MdpaFloat F) (binary : Bool) (m : In F) : Res (List Char) :=
  if binary then .error .writeError else write io m

end Mdpa
end Meshio
