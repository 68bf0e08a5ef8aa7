/-
Model of /repo/src/meshio/obj/_obj.py on the characters of the file.
-/
import Verif.Base.File
import Verif.Base.Runs
import Verif.Model.Mesh
namespace Meshio.Obj
open Meshio

variable {F : Type}

/-- The variables of the reading loop, /repo/src/meshio/obj/_obj.py:25-30. -/
structure St (F : Type) where
  points : List (List F)
  vn : List (List F)
  vt : List (List F)
  groups : List (List (List Int))
  groupIds : List (List Int)
  gid : Int

/-- `[float(item) for item in items]` -/
def floats (fio : FloatIO F) : List (List Char) → Res (List F) :=
  mapRes (fun t => match fio.parse t with
    | some x => .ok x
    | none => .error .valueError)

/-- `int(item.split("/")[0])`, /repo/src/meshio/obj/_obj.py:56. -/
def faceNode (t : List Char) : Res Int :=
  match parseInt ((splitOnC '/' t).head?.getD []) with
  | some i => .ok i
  | none => .error .valueError

/-- Is a new group needed: `len(face_groups) == 0 or (len(face_groups[-1]) > 0 and
len(face_groups[-1][-1]) != len(dat))`, /repo/src/meshio/obj/_obj.py:57-59. -/
def needGroup (groups : List (List (List Int))) (dat : List Int) : Bool :=
  match groups.getLast? with
  | none => true
  | some g =>
    match g.getLast? with
    | none => false
    | some r => decide (r.length ≠ dat.length)

/-- `l[-1].append(x)` -/
def appendLast {α : Type} (l : List (List α)) (x : α) : List (List α) :=
  match l.getLast? with
  | none => l
  | some g => l.dropLast ++ [g ++ [x]]

/-- An `f` line, /repo/src/meshio/obj/_obj.py:55-64. -/
def addFace (st : St F) (dat : List Int) : St F :=
  let new := needGroup st.groups dat
  let groups := if new then st.groups ++ [[]] else st.groups
  let ids := if new then st.groupIds ++ [[]] else st.groupIds
  { st with groups := appendLast groups dat, groupIds := appendLast ids st.gid }

/-- One line, /repo/src/meshio/obj/_obj.py:38-73. -/
def step (fio : FloatIO F) (st : St F) (line : List Char) : Res (St F) :=
  if strip line = [] ∨ (strip line).head? = some '#' then .ok st
  else
    match splitWs (strip line) with
    | [] => .error .indexError
    | w :: args =>
      if w = "v".toList then
        match floats fio args with
        | .error e => .error e
        | .ok x => .ok { st with points := st.points ++ [x] }
      else if w = "vn".toList then
        match floats fio args with
        | .error e => .error e
        | .ok x => .ok { st with vn := st.vn ++ [x] }
      else if w = "vt".toList then
        match floats fio args with
        | .error e => .error e
        | .ok x => .ok { st with vt := st.vt ++ [x] }
      else if w = "s".toList then .ok st
      else if w = "f".toList then
        match mapRes faceNode args with
        | .error e => .error e
        | .ok dat => .ok (addFace st dat)
      else if w = "g".toList then
        .ok { st with groups := st.groups ++ [[]], groupIds := st.groupIds ++ [[]], gid := st.gid + 1 }
      else .ok st

/-- What the reader returns: `obj:vt` and `obj:vn` are `none` when absent. -/
structure ObjMesh (F : Type) where
  points : List (List F)
  cells : List (String × List (List Int))
  vt : Option (List (List F))
  vn : Option (List (List F))
  groupIds : List (List Int)

/-- `np.array(rows)`: ValueError for rows of different lengths. -/
def npArray {α : Type} (rows : List (List α)) : Res (List (List α)) :=
  match rows with
  | [] => .ok []
  | r :: rs => if rs.all (fun r' => r'.length = r.length) then .ok rows else .error .valueError

/-- The cell type by number of columns, /repo/src/meshio/obj/_obj.py:96-101. -/
def faceType (n : Nat) : String := if n = 3 then "triangle" else if n = 4 then "quad" else "polygon"

/-- One block, /repo/src/meshio/obj/_obj.py:92-101. -/
def faceBlock (g : List (List Int)) : Res (String × List (List Int)) :=
  match npArray g with
  | .error e => .error e
  | .ok f => .ok (faceType ((f.head?.getD []).length), f.map (fun r => r.map (· - 1)))

/-- Point data enter the mesh only if there are any; the `Mesh` constructor then checks
their number (/repo/src/meshio/_mesh.py:162-169). -/
def optData (n : Nat) (d : List (List F)) : Res (Option (List (List F))) :=
  if d.length > 0 then (if d.length ≠ n then .error .valueError else .ok (some d)) else .ok none

/-- After the loop, /repo/src/meshio/obj/_obj.py:75-104. -/
def finish (st : St F) : Res (ObjMesh F) :=
  let groups := st.groups.filter (fun g => decide (g.length > 0))
  let ids := st.groupIds.filter (fun g => decide (g.length > 0))
  match npArray st.points, npArray st.vt, npArray st.vn with
  | .ok points, .ok vt, .ok vn =>
    match mapRes faceBlock groups with
    | .error e => .error e
    | .ok cells =>
      match optData points.length vt, optData points.length vn with
      | .ok vt, .ok vn => .ok ⟨points, cells, vt, vn, ids⟩
      | _, _ => .error .valueError
  | _, _, _ => .error .valueError

/-- `read_buffer`, /repo/src/meshio/obj/_obj.py:24-104. -/
def read (fio : FloatIO F) (s : List Char) : Res (ObjMesh F) :=
  match foldRes (step fio) ⟨[], [], [], [], [], -1⟩ (fileLines s) with
  | .error e => .error e
  | .ok st => finish st

/-- One output line: the keyword and the values. -/
def outLine (w : String) (args : List (List Char)) : List Char := joinWith ' ' (w.toList :: args)

/-- `p[0] p[1] p[2]`, /repo/src/meshio/obj/_obj.py:121-122 (IndexError for 2D points). -/
def pointLine (fio : FloatIO F) (p : List F) : Res (List Char) :=
  match p with
  | a :: b :: c :: _ => .ok (outLine "v" [fio.fmt a, fio.fmt b, fio.fmt c])
  | _ => .error .indexError

/-- `write`, /repo/src/meshio/obj/_obj.py:107-139; the creation date in the first line is
`stamp`.  The blocks are two-dimensional arrays, so all rows of a block are printed alike
(for an array without columns the line is `f ` with a trailing blank; left out). -/
def write (fio : FloatIO F) (stamp : List Char) (points : List (List F))
    (cells : List (String × List (List Int))) (vn vt : Option (List (List F))) : Res (List Char) :=
  if cells.any (fun c => !(["triangle", "quad", "polygon"].contains c.1)) then .error .writeError
  else
    match mapRes (pointLine fio) points with
    | .error e => .error e
    | .ok pl =>
      .ok (linesText (("# Created by meshio ".toList ++ stamp) :: (pl ++
        ((vn.getD []).map (fun r => outLine "vn" (r.map fio.fmt)) ++
        ((vt.getD []).map (fun r => outLine "vt" (r.map fio.fmt)) ++
        (cells.flatMap (·.2)).map (fun r => outLine "f" (r.map (fun i => fmtInt (i + 1)))))))))

end Meshio.Obj
